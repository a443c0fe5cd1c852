/-
Helper lemmas for `ExtractActiveMesh`.
-/
import Verif.ActiveModel
import Verif.ActiveSpec
import Verif.MeshProps
import Mathlib.Data.List.Sort

namespace Verif

open Res

variable {α : Type}

theorem refKept_id (n v : Nat) : RefKept (fun j => j) n v v := by
  constructor
  · rintro ⟨w, hw, rfl⟩; exact ⟨hw, rfl⟩
  · intro h
    by_contra hc
    exact h ⟨v, by omega, rfl⟩

theorem refKept_of_follows {n i v v' : Nat} (hi : i < n) (h : RefFollows n i v v') :
    RefKept (oldIndex i) (n - 1) v v' := by
  constructor
  · rintro ⟨w, hw, rfl⟩
    exact h.1 (oldIndex_lt hw) (oldIndex_ne i w)
  · intro hno
    apply h.2
    by_contra hc
    push Not at hc
    apply hno
    by_cases hvi : v < i
    · exact ⟨v, by omega, by simp [oldIndex, hvi]⟩
    · refine ⟨v - 1, by omega, ?_⟩
      unfold oldIndex
      rw [if_neg (by omega)]; omega

theorem refKept_trans {σ τ : Nat → Nat} {n1 n2 v v1 v2 : Nat}
    (hmono : ∀ j k, j < k → k < n1 → σ j < σ k) (hlt : ∀ j, j < n2 → τ j < n1)
    (h1 : RefKept σ n1 v v1) (h2 : RefKept τ n2 v1 v2) : RefKept (fun j => σ (τ j)) n2 v v2 := by
  have inj : ∀ a b, a < n1 → b < n1 → σ a = σ b → a = b := by
    intro a b ha hb hab
    by_contra hne
    rcases Nat.lt_or_gt_of_ne hne with h | h
    · have := hmono a b h hb; omega
    · have := hmono b a h ha; omega
  constructor
  · rintro ⟨w, hw, hv⟩
    obtain ⟨a, b⟩ := h1.1 ⟨τ w, hlt w hw, hv⟩
    have hv1 : v1 = τ w := inj _ _ a (hlt w hw) (b.trans hv.symm)
    obtain ⟨c, e⟩ := h2.1 ⟨w, hw, hv1.symm⟩
    exact ⟨c, by show σ (τ v2) = v; rw [e]; exact b⟩
  · intro hno
    apply h2.2
    rintro ⟨w, hw, hwv⟩
    by_cases hk : ∃ u, u < n1 ∧ σ u = v
    · obtain ⟨_, b⟩ := h1.1 hk
      exact hno ⟨w, hw, by show σ (τ w) = v; rw [hwv]; exact b⟩
    · have := h1.2 hk
      have := hlt w hw
      omega

theorem Kept.refl (m : Mesh α) (h : m.WF) : Kept m m (fun _ j => j) where
  dimension := rfl
  ids := fun _ => rfl
  lt := fun _ _ h => h
  mono := fun _ _ _ h _ => h
  coordinates := fun _ _ => rfl
  extremes := fun j a b _ h => ⟨a, b, h, refKept_id _ _, refKept_id _ _⟩
  marker := fun _ _ _ => rfl
  active := fun _ _ _ => rfl
  original := fun _ _ v _ _ h => ⟨v, h, refKept_id _ _⟩
  updated := by
    intro d j hj
    have hu : m.updated d j = ok (mapFind (m.upd d) j) := by
      unfold Mesh.updated; rw [assert_true hj]; rfl
    refine ⟨_, _, hu, hu, ?_⟩
    intro x
    refine ⟨fun hx => ⟨?_, hx⟩, fun hx => hx.2⟩
    cases hf : mapFind (m.upd d) j with
    | none => rw [hf] at hx; cases hx
    | some s =>
      rw [hf] at hx
      exact (h.upd d).val_lt _ ((mapFind_eq_some (h.upd d).keys).1 hf) x hx
  rowSize := fun _ _ _ => rfl
  entry := fun _ _ _ v _ _ h => ⟨v, h, refKept_id _ _⟩
  propSize := fun _ _ _ _ => rfl
  propValue := fun _ _ _ _ _ => rfl

theorem Kept.trans {m m1 m2 : Mesh α} {σ τ : Dim → Nat → Nat} (h1 : Kept m m1 σ)
    (h2 : Kept m1 m2 τ) : Kept m m2 (fun d j => σ d (τ d j)) where
  dimension := h2.dimension.trans h1.dimension
  ids := fun d => (h2.ids d).trans (h1.ids d)
  lt := fun d j hj => h1.lt d _ (h2.lt d j hj)
  mono := fun d j k hjk hk => h1.mono d _ _ (h2.mono d j k hjk hk) (h2.lt d k hk)
  coordinates := fun j hj => (h2.coordinates j hj).trans (h1.coordinates _ (h2.lt _ j hj))
  extremes := by
    intro j a b hj hab
    obtain ⟨a1, b1, e1, f1, g1⟩ := h1.extremes (τ .d1 j) a b (h2.lt _ j hj) hab
    obtain ⟨a2, b2, e2, f2, g2⟩ := h2.extremes j a1 b1 hj e1
    exact ⟨a2, b2, e2, refKept_trans (h1.mono _) (h2.lt _) f1 f2,
      refKept_trans (h1.mono _) (h2.lt _) g1 g2⟩
  marker := fun d j hj => (h2.marker d j hj).trans (h1.marker d _ (h2.lt _ j hj))
  active := fun d j hj => (h2.active d j hj).trans (h1.active d _ (h2.lt _ j hj))
  original := by
    intro d j v hd hj hv
    obtain ⟨v1, e1, f1⟩ := h1.original d (τ d j) v hd (h2.lt _ j hj) hv
    obtain ⟨v2, e2, f2⟩ := h2.original d j v1 hd hj e1
    exact ⟨v2, e2, refKept_trans (h1.mono _) (h2.lt _) f1 f2⟩
  updated := by
    intro d j hj
    obtain ⟨s, s1, e1, e2, e3⟩ := h1.updated d (τ d j) (h2.lt _ j hj)
    obtain ⟨t, s2, f1, f2, f3⟩ := h2.updated d j hj
    rw [e2] at f1
    cases f1
    refine ⟨s, s2, e1, f2, ?_⟩
    intro x
    rw [f3]
    constructor
    · rintro ⟨a, b⟩; exact ⟨a, ((e3 _).1 b).2⟩
    · rintro ⟨a, b⟩; exact ⟨a, (e3 _).2 ⟨h2.lt _ x a, b⟩⟩
  rowSize := fun l j hj => (h2.rowSize l j hj).trans (h1.rowSize l _ (h2.lt _ j hj))
  entry := by
    intro l j k v hl hj hv
    obtain ⟨v1, e1, f1⟩ := h1.entry l (τ l.owner j) k v hl (h2.lt _ j hj) hv
    obtain ⟨v2, e2, f2⟩ := h2.entry l j k v1 hl hj e1
    exact ⟨v2, e2, refKept_trans (h1.mono _) (h2.lt _) f1 f2⟩
  propSize := fun d j p hj => (h2.propSize d j p hj).trans (h1.propSize d _ p (h2.lt _ j hj))
  propValue := fun d j p k hj =>
    (h2.propValue d j p k hj).trans (h1.propValue d _ p k (h2.lt _ j hj))

theorem Kept.congr {m m' : Mesh α} {σ τ : Dim → Nat → Nat} (h : Kept m m' σ)
    (he : ∀ d j, σ d j = τ d j) : Kept m m' τ := by
  have : σ = τ := by funext d j; exact he d j
  rwa [← this]

/-- One removal keeps all other cells. -/
theorem kept_remove [Zero α] {m : Mesh α} (h : m.WF) (d : Dim) {i : Nat} (hi : i < m.num d)
    (hU : m.num d ≤ UINT_MAX) :
    ∃ m', m.remove d i = ok m' ∧ m'.WF ∧ m'.num d = m.num d - 1 ∧
      (∀ e, e ≠ d → m'.num e = m.num e) ∧ Kept m m' (oldNumber d i) := by
  obtain ⟨m', h1, hw, hc⟩ := c03_remove m h d i hi
  obtain ⟨m2, h2, r1, r2, r3, r4⟩ := c04_references_partial m h d i hi hU
  rw [h1] at h2
  cases h2
  have hlt : ∀ e j, j < m'.num e → oldNumber d i e j < m.num e := by
    intro e j hj
    unfold oldNumber
    by_cases he : e = d
    · subst he
      rw [hc.num] at hj
      rw [if_pos rfl]
      exact oldIndex_lt hj
    · rw [if_neg he]
      rw [hc.num_other e he] at hj
      exact hj
  have hself : oldNumber d i d = oldIndex i := by funext j; simp [oldNumber]
  have hother : ∀ e, e ≠ d → oldNumber d i e = fun j => j := by
    intro e he; funext j; simp [oldNumber, he]
  refine ⟨m', h1, hw, hc.num, hc.num_other, ?_⟩
  constructor
  · exact hc.dimension
  · exact hc.ids
  · exact hlt
  · intro e j k hjk hk
    unfold oldNumber
    split
    · unfold oldIndex; split <;> split <;> omega
    · exact hjk
  · exact hc.coordinates
  · intro j a b hj hab
    by_cases hd : d = .d0
    · subst hd
      rw [hother .d1 (by decide)] at hab
      obtain ⟨a', b', e1, e2, e3⟩ := r2 rfl j a b hab
      rw [hself, hc.num]
      exact ⟨a', b', e1, refKept_of_follows hi e2, refKept_of_follows hi e3⟩
    · refine ⟨a, b, ?_, ?_⟩
      · rw [hc.extremes hd j hj, hab]
      · rw [hother .d0 (Ne.symm hd)]; exact ⟨refKept_id _ _, refKept_id _ _⟩
  · exact hc.marker
  · exact hc.active
  · intro e j v he hj hv
    by_cases hed : e = d
    · subst hed
      rw [hself] at hv ⊢
      rw [hc.num]
      obtain ⟨v', e1, e2⟩ := r3 he j v hj hv
      exact ⟨v', e1, refKept_of_follows hi e2⟩
    · rw [hother e hed] at hv ⊢
      exact ⟨v, by rw [hc.original e j hed, hv], refKept_id _ _⟩
  · intro e j hj
    by_cases hed : e = d
    · subst hed
      rw [hself, hc.num]
      exact r4 j hj
    · rw [hother e hed, hc.num_other e hed]
      have hj' : j < m.num e := by rw [← hc.num_other e hed]; exact hj
      obtain ⟨s, s', e1, e2, e3⟩ := (Kept.refl m h).updated e j hj'
      exact ⟨s, s', e1, by rw [hc.updated e j hed]; exact e2, e3⟩
  · exact hc.rowSize
  · intro l j k v hl hj hv
    by_cases ht : l.target = d
    · obtain ⟨v', e1, e2⟩ := r1 l j k v ht hl hj hv
      subst ht
      rw [hself, hc.num]
      exact ⟨v', e1, refKept_of_follows hi e2⟩
    · rw [hother _ ht]
      exact ⟨v, by rw [hc.entry l j k ht hj, hv], refKept_id _ _⟩
  · exact hc.propSize
  · exact hc.propValue

/-- Removal of a strictly increasing list of cells. -/
theorem kept_removeSeq [Zero α] (d : Dim) (cs : List Nat) :
    ∀ (m : Mesh α) (r : Nat), m.WF → m.num d ≤ UINT_MAX → cs.Pairwise (· < ·) →
    (∀ c ∈ cs, r ≤ c ∧ c - r < m.num d) →
    ∃ (m' : Mesh α) (τ : Nat → Nat), foldRes (Mesh.removeStep d) (m, r) cs = ok (m', r + cs.length) ∧ m'.WF ∧
      (∀ e, e ≠ d → m'.num e = m.num e) ∧
      Kept m m' (fun e j => if e = d then τ j else j) ∧
      ∀ x, x < m.num d → ((∃ j, j < m'.num d ∧ τ j = x) ↔ x + r ∉ cs) := by
  induction cs with
  | nil =>
    intro m r hw _ _ _
    refine ⟨m, fun j => j, rfl, hw, fun _ _ => rfl, ?_, ?_⟩
    · exact (Kept.refl m hw).congr (by intro d j; simp)
    · intro x hx; simp [hx]
  | cons c cs ih =>
    intro m r hw hU hp hcs
    obtain ⟨hrc, hc⟩ := hcs c (by simp)
    obtain ⟨hlt, hp'⟩ := List.pairwise_cons.1 hp
    obtain ⟨m1, e1, hw1, hn1, hn1', hk1⟩ := kept_remove hw d hc hU
    obtain ⟨m2, τ, e2, hw2, hn2, hk2, himg⟩ := ih m1 (r + 1) hw1 (by omega) hp' (by
      intro c' hc'
      have h1 := hlt c' hc'
      have h2 := (hcs c' (by simp [hc'])).2
      omega)
    refine ⟨m2, fun j => oldIndex (c - r) (τ j), ?_, hw2, ?_, ?_, ?_⟩
    · simp only [foldRes_cons, Mesh.removeStep, usub_of_le hrc, e1, ok_bind, e2, List.length_cons]
      congr 2
      omega
    · intro e he
      rw [hn2 e he, hn1' e he]
    · refine (hk1.trans hk2).congr ?_
      intro e j
      unfold oldNumber
      split <;> simp_all
    · intro x hx
      have hfold : ∀ j, j < m2.num d → τ j < m1.num d := by
        intro j hj
        have := hk2.lt d j hj
        simpa using this
      by_cases hxc : x = c - r
      · subst hxc
        constructor
        · rintro ⟨j, _, hj⟩; exact absurd hj (oldIndex_ne _ _)
        · intro hno
          exact absurd (by simp; left; omega) hno
      · obtain ⟨y, hy, rfl⟩ : ∃ y, y < m.num d - 1 ∧ oldIndex (c - r) y = x := by
          by_cases hlt' : x < c - r
          · exact ⟨x, by omega, by simp [oldIndex, hlt']⟩
          · refine ⟨x - 1, by omega, ?_⟩
            unfold oldIndex; rw [if_neg (by omega)]; omega
        have hiff := himg y (by omega)
        have e3 : (∃ j, j < m2.num d ∧ oldIndex (c - r) (τ j) = oldIndex (c - r) y) ↔
            ∃ j, j < m2.num d ∧ τ j = y := by
          constructor
          · rintro ⟨j, a, b⟩; exact ⟨j, a, oldIndex_inj b⟩
          · rintro ⟨j, a, b⟩; exact ⟨j, a, by rw [b]⟩
        rw [e3, hiff]
        rw [not_iff_not]
        clear e3 hiff himg
        unfold oldIndex
        simp only [List.mem_cons]
        split
        · constructor
          · intro hm; have := hlt _ hm; omega
          · rintro (hm | hm)
            · omega
            · have := hlt _ hm; omega
        · have : y + 1 + r = y + (r + 1) := by omega
          rw [this]
          constructor
          · exact .inr
          · rintro (hm | hm)
            · omega
            · exact hm

/-! ### The scanning loop -/

theorem natFind_append_fresh {m : NatMap} {k v x : Nat} (hk : k ∉ m.map Prod.fst) :
    natFind (m ++ [(k, v)]) x = if x = k then some v else natFind m x := by
  induction m with
  | nil => simp [natFind, eq_comm]
  | cons p m ih =>
    simp only [List.map_cons, List.mem_cons, not_or] at hk
    simp only [List.cons_append, natFind]
    rw [ih hk.2]
    by_cases hx : p.1 = x
    · rw [if_pos hx, if_pos hx]
      rw [if_neg (by rintro rfl; exact hk.1 hx.symm)]
    · rw [if_neg hx, if_neg hx]

theorem natFind_eq_none {m : NatMap} {k : Nat} (h : k ∉ m.map Prod.fst) : natFind m k = none := by
  induction m with
  | nil => rfl
  | cons p m ih =>
    simp only [List.map_cons, List.mem_cons, not_or] at h
    rw [natFind, if_neg (Ne.symm h.1), ih h.2]

/-- What the scanning loop has done after the cells `0 .. n - 1`. -/
structure ScanOk (f : Nat → Bool) (n : Nat) (s : Mesh.ScanState) : Prop where
  next : s.next = ((List.range n).filter f).length
  toRemove : s.toRemove = (List.range n).filter fun c => !f c
  keysOld : s.toOld.map Prod.fst = List.range s.next
  keysNew : s.toNew.map Prod.fst = (List.range n).filter f
  toOld : ∀ j x, natFind s.toOld j = some x ↔ ((List.range n).filter f)[j]? = some x
  toNew : ∀ j x, natFind s.toNew x = some j ↔ ((List.range n).filter f)[j]? = some x

theorem scan_spec {m : Mesh α} {d : Dim} {f : Nat → Bool}
    (hf : ∀ c, c < m.num d → m.active d c = ok (f c)) (n : Nat) (hn : n ≤ m.num d) :
    ∃ s, foldRes (m.scanStep d) ⟨0, [], [], []⟩ (List.range n) = ok s ∧ ScanOk f n s := by
  induction n with
  | zero =>
    refine ⟨_, rfl, ?_⟩
    constructor <;> simp [natFind]
  | succ n ih =>
    obtain ⟨s, h1, h2⟩ := ih (by omega)
    rw [List.range_succ, foldRes_append, h1]
    simp only [ok_bind, foldRes_cons, foldRes_nil, Mesh.scanStep, hf n (by omega)]
    cases hfn : f n with
    | false =>
      refine ⟨{ s with toRemove := s.toRemove ++ [n] }, by simp, ?_⟩
      have hfil : (List.range (n + 1)).filter f = (List.range n).filter f := by
        rw [List.range_succ, List.filter_append]; simp [hfn]
      constructor
      · rw [hfil]; exact h2.next
      · rw [List.range_succ, List.filter_append, ← h2.toRemove]; simp [hfn]
      · exact h2.keysOld
      · rw [hfil]; exact h2.keysNew
      · rw [hfil]; exact h2.toOld
      · rw [hfil]; exact h2.toNew
    | true =>
      have hfil : (List.range (n + 1)).filter f = (List.range n).filter f ++ [n] := by
        rw [List.range_succ, List.filter_append]; simp [hfn]
      have k1 : s.next ∉ s.toOld.map Prod.fst := by rw [h2.keysOld]; simp
      have k2 : n ∉ s.toNew.map Prod.fst := by rw [h2.keysNew]; simp
      refine ⟨_, rfl, ?_⟩
      simp only [if_true, natInsert, if_neg k1, if_neg k2]
      constructor
      · rw [hfil]; simp [h2.next]
      · rw [List.range_succ, List.filter_append, ← h2.toRemove]; simp [hfn]
      · simp only [List.map_append, h2.keysOld, List.map_cons, List.map_nil, List.range_succ]
      · simp only [List.map_append, h2.keysNew, List.map_cons, List.map_nil, hfil]
      · intro j x
        show natFind (s.toOld ++ [(s.next, n)]) j = some x ↔ _
        rw [natFind_append_fresh k1, hfil, List.getElem?_append, ← h2.next]
        by_cases hj : j = s.next
        · rw [if_pos hj, if_neg (by omega), hj]; simp
        · rw [if_neg hj, h2.toOld]
          by_cases hlt : j < s.next
          · rw [if_pos hlt]
          · rw [if_neg hlt, List.getElem?_eq_none (by rw [← h2.next]; omega),
              List.getElem?_eq_none (by simp; omega)]
      · intro j x
        show natFind (s.toNew ++ [(n, s.next)]) x = some j ↔ _
        rw [natFind_append_fresh k2, hfil, List.getElem?_append, ← h2.next]
        by_cases hx : x = n
        · rw [if_pos hx, hx]
          constructor
          · intro h; cases h; simp
          · intro h
            split at h
            · have := List.mem_of_getElem? h
              simp at this
            · rename_i hlt
              by_cases hj : j = s.next
              · rw [hj]
              · rw [List.getElem?_eq_none (by simp; omega)] at h; cases h
        · rw [if_neg hx, h2.toNew]
          split
          · rfl
          · rename_i hlt
            rw [List.getElem?_eq_none (by rw [← h2.next]; omega)]
            constructor
            · intro h; cases h
            · intro h
              by_cases hj : j - s.next = 0
              · rw [hj] at h; simp at h; exact absurd h.symm hx
              · rw [List.getElem?_eq_none (by simp; omega)] at h; cases h

theorem eq_map_of_sorted {L : List Nat} {n : Nat} {σ : Nat → Nat} (hL : L.Pairwise (· < ·))
    (hσ : ∀ j k, j < k → k < n → σ j < σ k) (hmem : ∀ x, x ∈ L ↔ ∃ j, j < n ∧ σ j = x) :
    L = (List.range n).map σ := by
  have hR : ((List.range n).map σ).Pairwise (· < ·) := by
    rw [List.pairwise_map]
    refine List.Pairwise.imp_of_mem ?_ List.pairwise_lt_range
    intro a b _ hb hab
    exact hσ a b hab (by simpa using hb)
  refine List.Perm.eq_of_pairwise (le := (· < ·)) ?_ hL hR ?_
  · intro a b _ _ h1 h2; omega
  · rw [List.perm_ext_iff_of_nodup (hL.imp (fun h => Nat.ne_of_lt h))
      (hR.imp (fun h => Nat.ne_of_lt h))]
    intro x
    rw [hmem]
    simp

/-- One dimension of `ExtractActiveMesh`. -/
theorem extractDim_spec [Zero α] {m : Mesh α} (h : m.WF) (d : Dim) (hU : m.num d ≤ UINT_MAX)
    (data : ExtractData) (h1 : data.toOld d = []) (h2 : data.toNew d = []) :
    ∃ (m' : Mesh α) (data' : ExtractData) (τ : Nat → Nat), m.extractDim data d = ok (m', data') ∧ m'.WF ∧
      (∀ e, e ≠ d → m'.num e = m.num e ∧ data'.toOld e = data.toOld e ∧
        data'.toNew e = data.toNew e) ∧
      Kept m m' (fun e j => if e = d then τ j else j) ∧
      (∀ x, m.active d x = ok true ↔ ∃ j, j < m'.num d ∧ τ j = x) ∧
      (∀ j x, natFind (data'.toOld d) j = some x ↔ j < m'.num d ∧ τ j = x) ∧
      (∀ x j, natFind (data'.toNew d) x = some j ↔ j < m'.num d ∧ τ j = x) := by
  have hlen := h.act d
  have hact : ∀ c, c < m.num d → m.active d c = ok ((m.act d)[c]?.getD false) := by
    intro c hc
    unfold Mesh.active
    rw [assert_true hc, ok_bind, vget_of_lt (by omega), List.getElem?_eq_getElem (by omega)]
    rfl
  generalize hfdef : (fun c : Nat => (m.act d)[c]?.getD false) = f
  have hf : ∀ c, c < m.num d → m.active d c = ok (f c) := by
    intro c hc; rw [← hfdef]; exact hact c hc
  obtain ⟨s, hs, hsp⟩ := scan_spec hf (m.num d) (Nat.le_refl _)
  obtain ⟨m', τ, e1, hw', hn, hk, himg⟩ := kept_removeSeq d s.toRemove m 0 h hU
    (by rw [hsp.toRemove]; exact List.Pairwise.filter _ List.pairwise_lt_range)
    (by intro c hc; rw [hsp.toRemove] at hc; simp at hc; omega)
  have himg' : ∀ x, x ∈ (List.range (m.num d)).filter f ↔ ∃ j, j < m'.num d ∧ τ j = x := by
    intro x
    simp only [List.mem_filter, List.mem_range]
    constructor
    · rintro ⟨hx, hfx⟩
      refine (himg x hx).2 ?_
      rw [hsp.toRemove]; simp [hfx]
    · rintro ⟨j, hj, hjx⟩
      have hx : x < m.num d := by
        have := hk.lt d j hj
        simp only [if_true] at this
        omega
      refine ⟨hx, ?_⟩
      have := (himg x hx).1 ⟨j, hj, hjx⟩
      rw [hsp.toRemove] at this
      simpa [hx] using this
  have hL := eq_map_of_sorted (List.Pairwise.filter f List.pairwise_lt_range)
    (by intro j k hjk hk'; have := hk.mono d j k hjk hk'; simpa using this) himg'
  have hget : ∀ j x, ((List.range (m.num d)).filter f)[j]? = some x ↔ j < m'.num d ∧ τ j = x := by
    intro j x
    rw [hL, List.getElem?_map]
    by_cases hj : j < m'.num d
    · rw [List.getElem?_range hj]; simp [hj]
    · rw [List.getElem?_eq_none (by simpa using hj)]; simp [hj]
  refine ⟨m', ⟨fset data.toOld d s.toOld, fset data.toNew d s.toNew⟩, τ, ?_, hw', ?_, hk, ?_, ?_, ?_⟩
  · unfold Mesh.extractDim
    rw [h1, h2, hs]
    simp only [ok_bind, e1]
  · intro e he
    exact ⟨hn e he, fset_ne _ _ he, fset_ne _ _ he⟩
  · intro x
    rw [← himg']
    by_cases hx : x < m.num d
    · rw [hf x hx]; simp [hx]
    · constructor
      · intro hc
        unfold Mesh.active at hc; rw [assert_false hx] at hc; cases hc
      · intro hc; simp [hx] at hc
  · intro j x
    simp only [fset_self]
    rw [hsp.toOld, hget]
  · intro x j
    simp only [fset_self]
    rw [hsp.toNew, hget]

end Verif
