/-
Helper lemmas: renumbering of references, of vectors and of the maps of updated cells.
-/
import Verif.MeshSpec
import Mathlib.Data.List.Nodup
import Mathlib.Tactic.Tauto
import Mathlib.Tactic.Set
import Mathlib.Tactic.SplitIfs

namespace Verif

open Res

theorem oldIndex_lt {n i j : Nat} (h : j < n - 1) : oldIndex i j < n := by
  unfold oldIndex; split <;> omega

theorem oldIndex_ne (i j : Nat) : oldIndex i j ≠ i := by
  unfold oldIndex; split <;> omega

theorem oldIndex_inj {i j k : Nat} (h : oldIndex i j = oldIndex i k) : j = k := by
  unfold oldIndex at h; split at h <;> split at h <;> omega

theorem align_eq {n i v x : Nat} (hv : v < n) (hx : x < n - 1) :
    align i (n - 1) v = x ↔ oldIndex i x = v := by
  unfold align oldIndex; split_ifs <;> omega

theorem align_lt_iff {n i v : Nat} (hi : i < n) (hv : v < n) :
    align i (n - 1) v ≠ n - 1 ↔ v ≠ i := by
  unfold align; split
  · omega
  · split <;> omega

theorem align_lt {n i v : Nat} (hi : i < n) (hv : v < n) (h : v ≠ i) (new : Nat) :
    align i new v < n - 1 := by
  unfold align; split_ifs <;> omega

theorem refFollows_align {n i v new : Nat} (hi : i < n) (hnew : n - 1 ≤ new) :
    RefFollows n i v (align i new v) := by
  constructor
  · intro hv hne
    refine ⟨align_lt hi hv hne new, ?_⟩
    unfold align oldIndex
    split_ifs <;> omega
  · intro h
    unfold align
    split
    · omega
    · split <;> omega

/-- Vector after an erase of a range. -/
theorem getElem?_take_drop {β : Type} (l : List β) (a b j : Nat) (hab : a ≤ b) (ha : a ≤ l.length) :
    (l.take a ++ l.drop b)[j]? = if j < a then l[j]? else l[j + (b - a)]? := by
  rw [List.getElem?_append]
  have : (l.take a).length = a := by simp; omega
  rw [this]
  split
  · rw [List.getElem?_take_of_lt (by assumption)]
  · rw [List.getElem?_drop]; congr 1; omega

theorem getElem?_eraseIdx_old {β : Type} (l : List β) (i j : Nat) :
    (l.eraseIdx i)[j]? = l[oldIndex i j]? := by
  rw [List.getElem?_eraseIdx]
  unfold oldIndex
  split <;> rfl

theorem getElem_eraseIdx_old {β : Type} (l : List β) (i j : Nat) (h : j < (l.eraseIdx i).length)
    (h' : oldIndex i j < l.length) :
    (l.eraseIdx i)[j] = l[oldIndex i j] := by
  have := getElem?_eraseIdx_old l i j
  rw [List.getElem?_eq_getElem h, List.getElem?_eq_getElem h'] at this
  simpa using this

/-! ### Sets -/

theorem mem_setInsert {s : List Nat} {x y : Nat} : y ∈ setInsert s x ↔ y ∈ s ∨ y = x := by
  unfold setInsert; split
  · constructor
    · exact Or.inl
    · rintro (h | rfl) <;> assumption
  · simp

theorem setInsert_nodup {s : List Nat} (h : s.Nodup) (x : Nat) : (setInsert s x).Nodup := by
  unfold setInsert; split
  · exact h
  · rw [List.nodup_append]
    refine ⟨h, by simp, ?_⟩
    intro a ha b hb
    simp at hb
    rintro rfl
    subst hb
    contradiction

theorem foldl_setInsert_mem {l s : List Nat} {y : Nat} :
    y ∈ l.foldl setInsert s ↔ y ∈ s ∨ y ∈ l := by
  induction l generalizing s with
  | nil => simp
  | cons a l ih => simp only [List.foldl_cons, ih, mem_setInsert, List.mem_cons]; tauto

theorem foldl_setInsert_nodup {l s : List Nat} (h : s.Nodup) : (l.foldl setInsert s).Nodup := by
  induction l generalizing s with
  | nil => simpa
  | cons a l ih => exact ih (setInsert_nodup h a)

theorem alignSet_nodup (min new : Nat) (s : List Nat) : (alignSet min new s).Nodup :=
  foldl_setInsert_nodup List.nodup_nil

theorem mem_alignSet {n i x : Nat} {s : List Nat} (hi : i < n) (hs : ∀ v ∈ s, v < n) :
    x ∈ alignSet i (n - 1) s ↔ x < n - 1 ∧ oldIndex i x ∈ s := by
  unfold alignSet
  rw [foldl_setInsert_mem]
  simp only [List.not_mem_nil, false_or, List.mem_filter, List.mem_map, ne_eq, decide_eq_true_eq]
  constructor
  · rintro ⟨⟨v, hv, rfl⟩, hne⟩
    have hvn := hs v hv
    have hvi : v ≠ i := (align_lt_iff hi hvn).1 hne
    have hlt := align_lt hi hvn hvi (n - 1)
    refine ⟨hlt, ?_⟩
    rw [(align_eq hvn hlt).1 rfl]; exact hv
  · rintro ⟨hx, hm⟩
    refine ⟨⟨_, hm, (align_eq (hs _ hm) hx).2 rfl⟩, by omega⟩

/-! ### Maps -/

theorem mapFind_eq_some {u : UpdMap} (hk : (u.map Prod.fst).Nodup) {k : Nat} {s : List Nat} :
    mapFind u k = some s ↔ (k, s) ∈ u := by
  induction u with
  | nil => simp [mapFind]
  | cons p u ih =>
    simp only [List.map_cons, List.nodup_cons] at hk
    unfold mapFind
    split
    · rename_i h
      subst h
      simp only [Option.some.injEq, List.mem_cons]
      constructor
      · rintro rfl; exact Or.inl rfl
      · rintro (h | h)
        · rw [← h]
        · exact absurd (List.mem_map_of_mem (f := Prod.fst) h) hk.1
    · rename_i h
      rw [ih hk.2, List.mem_cons]
      constructor
      · exact Or.inr
      · rintro (h' | h')
        · subst h'; exact absurd rfl h
        · exact h'

theorem mapFind_eq_none {u : UpdMap} {k : Nat} :
    mapFind u k = none ↔ ∀ s, (k, s) ∉ u := by
  induction u with
  | nil => simp [mapFind]
  | cons p u ih =>
    unfold mapFind
    split
    · rename_i h
      subst h
      simp only [reduceCtorEq, List.mem_cons, not_or, false_iff, not_forall, not_and, not_not]
      exact ⟨p.2, by simp⟩
    · rename_i h
      rw [ih]
      simp only [List.mem_cons, not_or]
      constructor
      · intro h' s
        refine ⟨?_, h' s⟩
        rintro rfl
        exact h rfl
      · intro h' s; exact (h' s).2

theorem foldl_mapInsert {t u : UpdMap} (h : ((u ++ t).map Prod.fst).Nodup) :
    t.foldl mapInsert u = u ++ t := by
  induction t generalizing u with
  | nil => simp
  | cons p t ih =>
    have hp : p.1 ∉ u.map Prod.fst := by
      simp only [List.map_append, List.map_cons] at h
      rw [List.nodup_append] at h
      intro hm
      exact h.2.2 _ hm p.1 (by simp) rfl
    rw [List.foldl_cons, mapInsert, if_neg hp, ih]
    · simp
    · simpa using h

/-- The entries of the aligned map. -/
theorem mem_alignMap {u : UpdMap} {n i : Nat} (_hi : i < n) (hu : UpdOk u n)
    (hne : ∀ p ∈ u, p.1 ≠ i) :
    ((alignMap u i (n - 1)).map Prod.fst).Nodup ∧
    ∀ j s, (j, s) ∈ alignMap u i (n - 1) ↔
      s ≠ [] ∧ ∃ t, (oldIndex i j, t) ∈ u ∧ s = alignSet i (n - 1) t := by
  set f : Nat × List Nat → Nat × List Nat := fun p => (p.1, alignSet i (n - 1) p.2) with hf
  have hfst : (u.map f).map Prod.fst = u.map Prod.fst := by
    rw [List.map_map]; rfl
  set kept := (u.map f).filter fun p => p.1 ≠ i ∧ p.2 ≠ [] ∧ ¬ p.1 > i with hkept
  set hi' := (u.map f).filter fun p => p.2 ≠ [] ∧ p.1 > i with hhi
  set temp := hi'.map fun p => (p.1 - 1, p.2) with htemp
  have hnod : ((u.map f).map Prod.fst).Nodup := by rw [hfst]; exact hu.keys
  have hfil : ∀ q : Nat × List Nat → Bool, (((u.map f).filter q).map Prod.fst).Nodup := by
    intro q
    exact (List.Sublist.map Prod.fst (List.filter_sublist (p := q) (l := u.map f))).nodup hnod
  have hk1 : (kept.map Prod.fst).Nodup := hfil _
  have hk2 : (temp.map Prod.fst).Nodup := by
    have h1 : (hi'.map Prod.fst).Nodup := hfil _
    have h2 : temp.map Prod.fst = (hi'.map Prod.fst).map (fun k => k - 1) := by
      rw [htemp, List.map_map, List.map_map]; rfl
    rw [h2]
    refine List.Nodup.map_on ?_ h1
    intro x hx y hy hxy
    simp only [hhi, List.mem_map, List.mem_filter, decide_eq_true_eq] at hx hy
    obtain ⟨p, hp, rfl⟩ := hx
    obtain ⟨q, hq, rfl⟩ := hy
    have := hp.2.2
    have := hq.2.2
    omega
  have hkeptm : ∀ j s, (j, s) ∈ kept ↔
      j < i ∧ s ≠ [] ∧ ∃ t, (j, t) ∈ u ∧ s = alignSet i (n - 1) t := by
    intro j s
    simp only [hkept, List.mem_filter, List.mem_map, decide_eq_true_eq, hf, Prod.mk.injEq]
    constructor
    · rintro ⟨⟨p, hp, rfl, rfl⟩, h1, h2, h3⟩
      exact ⟨by omega, h2, p.2, hp, rfl⟩
    · rintro ⟨h1, h2, t, ht, rfl⟩
      exact ⟨⟨(j, t), ht, rfl, rfl⟩, by omega, h2, by omega⟩
  have htempm : ∀ j s, (j, s) ∈ temp ↔
      i ≤ j ∧ s ≠ [] ∧ ∃ t, (j + 1, t) ∈ u ∧ s = alignSet i (n - 1) t := by
    intro j s
    simp only [htemp, hhi, List.mem_filter, List.mem_map, decide_eq_true_eq, hf, Prod.mk.injEq]
    constructor
    · rintro ⟨p, ⟨⟨q, hq, rfl⟩, h1, h2⟩, rfl, rfl⟩
      refine ⟨by simp at h2; omega, h1, q.2, ?_, rfl⟩
      simp at h2
      have : q.1 - 1 + 1 = q.1 := by omega
      simpa [this] using hq
    · rintro ⟨h1, h2, t, ht, rfl⟩
      exact ⟨(j + 1, _), ⟨⟨(j + 1, t), ht, rfl⟩, h2, by simp; omega⟩, by simp, rfl⟩
  have happ : ((kept ++ temp).map Prod.fst).Nodup := by
    rw [List.map_append, List.nodup_append]
    refine ⟨hk1, hk2, ?_⟩
    intro a ha b hb
    simp only [List.mem_map] at ha hb
    obtain ⟨⟨a1, a2⟩, hp, rfl⟩ := ha
    obtain ⟨⟨b1, b2⟩, hq, rfl⟩ := hb
    have h1 := ((hkeptm _ _).1 hp).1
    have h2 := ((htempm _ _).1 hq).1
    simp only; omega
  have hal : alignMap u i (n - 1) = kept ++ temp := foldl_mapInsert happ
  rw [hal]
  refine ⟨happ, ?_⟩
  intro j s
  rw [List.mem_append, hkeptm, htempm]
  unfold oldIndex
  split
  · rename_i h
    constructor
    · rintro (⟨_, h2, h3⟩ | ⟨h1, _⟩)
      · exact ⟨h2, h3⟩
      · omega
    · rintro ⟨h2, h3⟩; exact Or.inl ⟨h, h2, h3⟩
  · rename_i h
    constructor
    · rintro (⟨h1, _⟩ | ⟨_, h2, h3⟩)
      · omega
      · exact ⟨h2, h3⟩
    · rintro ⟨h2, h3⟩; exact Or.inr ⟨by omega, h2, h3⟩

theorem updOk_filter {u : UpdMap} {n : Nat} (hu : UpdOk u n) (q : Nat × List Nat → Bool) :
    UpdOk (u.filter q) n where
  keys := (List.Sublist.map Prod.fst (List.filter_sublist (p := q) (l := u))).nodup hu.keys
  key_lt := fun p hp => hu.key_lt p (List.mem_of_mem_filter hp)
  val_lt := fun p hp => hu.val_lt p (List.mem_of_mem_filter hp)
  val_nodup := fun p hp => hu.val_nodup p (List.mem_of_mem_filter hp)
  val_ne := fun p hp => hu.val_ne p (List.mem_of_mem_filter hp)

/-- The map of updated cells after a removal. -/
def updRemove (u : UpdMap) (n i : Nat) : UpdMap :=
  alignMap (u.filter fun p => p.1 ≠ i) i (n - 1)

theorem mem_updRemove {u : UpdMap} {n i : Nat} (hi : i < n) (hu : UpdOk u n) (j : Nat)
    (s : List Nat) :
    (j, s) ∈ updRemove u n i ↔
      s ≠ [] ∧ ∃ t, (oldIndex i j, t) ∈ u ∧ s = alignSet i (n - 1) t := by
  unfold updRemove
  rw [(mem_alignMap hi (updOk_filter hu _) (by intro p hp; simpa using (List.of_mem_filter hp))).2]
  simp [oldIndex_ne]

theorem updOk_updRemove {u : UpdMap} {n i : Nat} (hi : i < n) (hu : UpdOk u n) :
    UpdOk (updRemove u n i) (n - 1) where
  keys := (mem_alignMap hi (updOk_filter hu _)
    (by intro p hp; simpa using (List.of_mem_filter hp))).1
  key_lt := by
    rintro ⟨j, s⟩ hp
    obtain ⟨_, t, ht, _⟩ := (mem_updRemove hi hu j s).1 hp
    have := hu.key_lt _ ht
    simp only [oldIndex] at this ⊢
    split at this <;> omega
  val_lt := by
    rintro ⟨j, s⟩ hp x hx
    obtain ⟨_, t, ht, rfl⟩ := (mem_updRemove hi hu j s).1 hp
    exact ((mem_alignSet hi (hu.val_lt _ ht)).1 hx).1
  val_nodup := by
    rintro ⟨j, s⟩ hp
    obtain ⟨_, t, ht, rfl⟩ := (mem_updRemove hi hu j s).1 hp
    exact alignSet_nodup _ _ _
  val_ne := by
    rintro ⟨j, s⟩ hp
    exact ((mem_updRemove hi hu j s).1 hp).1

theorem updOk_mono {u : UpdMap} {n k : Nat} (hu : UpdOk u n) (h : n ≤ k) : UpdOk u k where
  keys := hu.keys
  key_lt := fun p hp => Nat.lt_of_lt_of_le (hu.key_lt p hp) h
  val_lt := fun p hp x hx => Nat.lt_of_lt_of_le (hu.val_lt p hp x hx) h
  val_nodup := hu.val_nodup
  val_ne := hu.val_ne

/-- The map of updated cells after `CellXDInsertUpdatedCellXD`. -/
def updInsert (u : UpdMap) (i j : Nat) : UpdMap :=
  (if (mapFind u i).isNone then mapInsert u (i, []) else u).map
    fun p => if p.1 = i then (p.1, setInsert p.2 j) else p

theorem updInsert_keys (u : UpdMap) (i j : Nat) :
    (updInsert u i j).map Prod.fst =
      if (mapFind u i).isNone then u.map Prod.fst ++ [i] else u.map Prod.fst := by
  unfold updInsert
  have : ∀ w : UpdMap, (w.map fun p => if p.1 = i then (p.1, setInsert p.2 j) else p).map Prod.fst
      = w.map Prod.fst := by
    intro w
    rw [List.map_map]
    apply List.map_congr_left
    intro p _
    simp only [Function.comp]
    split <;> rfl
  rw [this]
  split
  · rename_i h
    rw [Option.isNone_iff_eq_none, mapFind_eq_none] at h
    rw [mapInsert, if_neg]
    · simp
    · simp only [List.mem_map, not_exists, not_and]
      rintro ⟨a, b⟩ hp rfl
      exact h _ hp
  · rfl

theorem mem_updInsert {u : UpdMap} (hk : (u.map Prod.fst).Nodup) (i j k : Nat) (s : List Nat) :
    (k, s) ∈ updInsert u i j ↔
      if k = i then s = setInsert ((mapFind u i).getD []) j else (k, s) ∈ u := by
  have key : ∀ w : UpdMap, ((k, s) ∈ w.map fun p => if p.1 = i then (p.1, setInsert p.2 j) else p) ↔
      if k = i then ∃ t, (i, t) ∈ w ∧ s = setInsert t j else (k, s) ∈ w := by
    intro w
    simp only [List.mem_map]
    constructor
    · rintro ⟨⟨a, b⟩, hp, h⟩
      by_cases ha : a = i
      · subst ha
        simp only [if_true, Prod.mk.injEq] at h
        obtain ⟨rfl, rfl⟩ := h
        simp only [if_true]
        exact ⟨b, hp, rfl⟩
      · simp only [ha, if_false, Prod.mk.injEq] at h
        obtain ⟨rfl, rfl⟩ := h
        rw [if_neg ha]
        exact hp
    · intro h
      split at h
      · rename_i hk
        obtain ⟨t, ht, rfl⟩ := h
        exact ⟨(i, t), ht, by simp [hk]⟩
      · rename_i hk
        exact ⟨(k, s), h, by simp [hk]⟩
  unfold updInsert
  rw [key]
  cases hf : mapFind u i with
  | none =>
    rw [mapFind_eq_none] at hf
    have : mapInsert u (i, []) = u ++ [(i, [])] := by
      rw [mapInsert, if_neg]
      simp only [List.mem_map, not_exists, not_and]
      rintro ⟨a, b⟩ hp rfl
      exact hf _ hp
    simp only [Option.isNone_none, if_true, this, List.mem_append, List.mem_singleton,
      Prod.mk.injEq, true_and, Option.getD_none]
    split
    · rename_i h
      subst h
      constructor
      · rintro ⟨t, ht | rfl, rfl⟩
        · exact absurd ht (hf t)
        · rfl
      · rintro rfl; exact ⟨[], Or.inr rfl, rfl⟩
    · rename_i h; simp [h]
  | some t =>
    rw [mapFind_eq_some hk] at hf
    simp only [Option.isNone_some, Bool.false_eq_true, if_false, Option.getD_some]
    split
    · rename_i h
      subst h
      constructor
      · rintro ⟨t', ht', rfl⟩
        have h1 := (mapFind_eq_some hk).2 ht'
        have h2 := (mapFind_eq_some hk).2 hf
        rw [h1] at h2
        simp at h2
        rw [h2]
      · rintro rfl; exact ⟨t, hf, rfl⟩
    · rfl

theorem updOk_updInsert {u : UpdMap} {n i j : Nat} (hu : UpdOk u n) (hi : i < n) (hj : j < n) :
    UpdOk (updInsert u i j) n where
  keys := by
    rw [updInsert_keys]
    split
    · rename_i h
      rw [Option.isNone_iff_eq_none, mapFind_eq_none] at h
      rw [List.nodup_append]
      refine ⟨hu.keys, by simp, ?_⟩
      intro a ha b hb
      simp only [List.mem_map, List.mem_singleton] at ha hb
      obtain ⟨⟨a, c⟩, hp, rfl⟩ := ha
      subst hb
      rintro rfl
      exact h _ hp
    · exact hu.keys
  key_lt := by
    rintro ⟨k, s⟩ hp
    rw [mem_updInsert hu.keys] at hp
    split at hp
    · rename_i h; simpa [h] using hi
    · exact hu.key_lt _ hp
  val_lt := by
    rintro ⟨k, s⟩ hp x hx
    rw [mem_updInsert hu.keys] at hp
    split at hp
    · rename_i h
      subst hp
      simp only [mem_setInsert] at hx
      rcases hx with hx | rfl
      · cases hf : mapFind u i with
        | none => rw [hf] at hx; simp at hx
        | some t =>
          rw [hf] at hx
          exact hu.val_lt _ ((mapFind_eq_some hu.keys).1 hf) x hx
      · exact hj
    · exact hu.val_lt _ hp x hx
  val_nodup := by
    rintro ⟨k, s⟩ hp
    rw [mem_updInsert hu.keys] at hp
    split at hp
    · subst hp
      apply setInsert_nodup
      cases hf : mapFind u i with
      | none => simp
      | some t => exact hu.val_nodup _ ((mapFind_eq_some hu.keys).1 hf)
    · exact hu.val_nodup _ hp
  val_ne := by
    rintro ⟨k, s⟩ hp
    rw [mem_updInsert hu.keys] at hp
    split at hp
    · subst hp
      intro h
      have : j ∈ setInsert ((mapFind u i).getD []) j := mem_setInsert.2 (Or.inr rfl)
      simp only at h
      rw [h] at this
      simp at this
    · exact hu.val_ne _ hp

end Verif
