import Verif.UnionSpec
import Verif.CompareProps
import Mathlib.Data.List.Nodup
import Mathlib.Data.List.Sort

/-
Helper lemmas for the union of two one-dimensional meshes.
-/
namespace Verif

open Res

variable {K : Type} [Field K] [LinearOrder K] [IsStrictOrderedRing K]

/-- The keys of a map are increasing. -/
def MSorted {β : Type} (m : List (K × β)) : Prop := m.Pairwise fun a b => a.1 < b.1

theorem MSorted.eq {β : Type} {m : List (K × β)} (h : MSorted m) {x : K} {p q : β}
    (hp : (x, p) ∈ m) (hq : (x, q) ∈ m) : p = q := by
  induction m with
  | nil => cases hp
  | cons a m ih =>
    have h' := List.pairwise_cons.1 h
    rcases List.mem_cons.1 hp with hp1 | hp1 <;> rcases List.mem_cons.1 hq with hq1 | hq1
    · rw [← hp1] at hq1; exact (Prod.mk.inj hq1).2.symm
    · have := h'.1 _ hq1; rw [← hp1] at this; exact absurd this (lt_irrefl _)
    · have := h'.1 _ hp1; rw [← hq1] at this; exact absurd this (lt_irrefl _)
    · exact ih h'.2 hp1 hq1

theorem mem_kmapInsert {β : Type} {k : K} {b : β} {m : List (K × β)} (hk : ∀ p ∈ m, p.1 ≠ k)
    (q : K × β) : q ∈ kmapInsert k b m ↔ q = (k, b) ∨ q ∈ m := by
  induction m with
  | nil => simp [kmapInsert]
  | cons a m ih =>
    obtain ⟨k', b'⟩ := a
    unfold kmapInsert
    split
    · simp
    · next h1 =>
      split
      · rw [List.mem_cons, ih (fun p hp => hk p (by simp [hp])), List.mem_cons]
        exact or_left_comm
      · next h2 =>
        exact absurd (le_antisymm (not_lt.1 h1) (not_lt.1 h2)) (hk (k', b') (by simp))

theorem MSorted.kmapInsert {β : Type} {k : K} {b : β} {m : List (K × β)} (h : MSorted m)
    (hk : ∀ p ∈ m, p.1 ≠ k) : MSorted (kmapInsert k b m) := by
  induction m with
  | nil => simp [Verif.kmapInsert, MSorted]
  | cons a m ih =>
    obtain ⟨k', b'⟩ := a
    have h' := List.pairwise_cons.1 h
    have hk' : ∀ p ∈ m, p.1 ≠ k := fun p hp => hk p (by simp [hp])
    unfold Verif.kmapInsert
    split
    · next h1 =>
      refine List.pairwise_cons.2 ⟨fun q hq => ?_, h⟩
      rcases List.mem_cons.1 hq with rfl | hq
      · exact h1
      · exact lt_trans h1 (h'.1 q hq)
    · split
      · next h2 =>
        refine List.pairwise_cons.2 ⟨fun q hq => ?_, ih h'.2 hk'⟩
        rcases (mem_kmapInsert hk' q).1 hq with rfl | hq
        · exact h2
        · exact h'.1 q hq
      · exact h

theorem kmapModify_spec {β : Type} {k : K} {b b2 : β} {f : β → Res β} {m : List (K × β)}
    (h : MSorted m) (hm : (k, b) ∈ m) (hf : f b = ok b2) :
    ∃ m', kmapModify k f m = ok m' ∧ MSorted m' ∧ m'.map (·.1) = m.map (·.1) ∧
      ∀ x c, (x, c) ∈ m' ↔ (x = k ∧ c = b2) ∨ (x ≠ k ∧ (x, c) ∈ m) := by
  induction m with
  | nil => cases hm
  | cons a m ih =>
    obtain ⟨k', b'⟩ := a
    have h' := List.pairwise_cons.1 h
    unfold kmapModify
    by_cases hk : k' = k
    · subst hk
      have hb : b' = b := h.eq (by simp) hm
      subst hb
      rw [if_pos rfl, hf]
      refine ⟨_, rfl, List.pairwise_cons.2 h', rfl, fun x c => ?_⟩
      rw [List.mem_cons, List.mem_cons, Prod.mk.injEq, Prod.mk.injEq]
      constructor
      · rintro (h1 | h1)
        · exact Or.inl h1
        · exact Or.inr ⟨(h'.1 _ h1).ne', Or.inr h1⟩
      · rintro (h1 | ⟨h1, h2 | h2⟩)
        · exact Or.inl h1
        · exact absurd h2.1 h1
        · exact Or.inr h2
    · rw [if_neg hk]
      have hm' : (k, b) ∈ m := by
        rcases List.mem_cons.1 hm with h1 | h1
        · exact absurd (Prod.mk.inj h1).1.symm hk
        · exact h1
      obtain ⟨m', h1, h2, h3, h4⟩ := ih h'.2 hm'
      refine ⟨(k', b') :: m', by rw [h1]; rfl, List.pairwise_cons.2 ⟨fun q hq => ?_, h2⟩,
        by simp [h3], fun x c => ?_⟩
      · have : q.1 ∈ m.map (·.1) := by rw [← h3]; exact List.mem_map_of_mem hq
        obtain ⟨r, hr, hr2⟩ := List.mem_map.1 this
        rw [← hr2]; exact h'.1 r hr
      · rw [List.mem_cons, List.mem_cons, h4, Prod.mk.injEq]
        constructor
        · rintro (h1 | h1 | h1)
          · exact Or.inr ⟨by rw [h1.1]; exact hk, Or.inl h1⟩
          · exact Or.inl h1
          · exact Or.inr ⟨h1.1, Or.inr h1.2⟩
        · rintro (h1 | ⟨h1, h2 | h2⟩)
          · exact Or.inr (Or.inl h1)
          · exact Or.inl h2
          · exact Or.inr (Or.inr ⟨h1, h2⟩)

theorem GeoCfg.near_iff (g : GeoCfg K) (h0 : 0 ≤ g.minTolerance) (v : K) :
    (!g.isValuePositive |v| g.tol1D) = true ↔ |v| ≤ g.tol1D := by
  have hT0 : 0 ≤ g.tol1D := le_trans h0 (le_max_left _ _)
  have hmax : max |g.tol1D| g.minTolerance = g.tol1D := by
    rw [abs_of_nonneg hT0]; exact max_eq_left (le_max_left _ _)
  have := (c27_sign g |v| g.tol1D).1
  rw [hmax] at this
  rw [Bool.not_eq_true', ← Bool.not_eq_true, this, not_lt]

/-- No point of the map is near `c`. -/
theorem insertNew_far {g : GeoCfg K} (h0 : 0 ≤ g.minTolerance) {c : K} {m : List (K × UPoint)}
    (h : ∀ q ∈ m, g.tol1D < |q.1 - c|) :
    insertNewIntersection g c m = (kmapInsert c {} m, c, false) := by
  have : m.find? (fun p => !g.isValuePositive |p.1 - c| g.tol1D) = none := by
    rw [List.find?_eq_none]
    intro q hq hn
    rw [g.near_iff h0] at hn
    exact absurd hn (not_le.2 (h q hq))
  unfold insertNewIntersection
  rw [this]
  simp

/-- Some point of the map is near `c` and none of those is -1. -/
theorem insertNew_near {g : GeoCfg K} (h0 : 0 ≤ g.minTolerance) {c : K} {m : List (K × UPoint)}
    (h : ∃ q ∈ m, |q.1 - c| ≤ g.tol1D) (h1 : ∀ q ∈ m, |q.1 - c| ≤ g.tol1D → q.1 ≠ -1) :
    ∃ q ∈ m, |q.1 - c| ≤ g.tol1D ∧ insertNewIntersection g c m = (m, q.1, true) := by
  have : (m.find? (fun p => !g.isValuePositive |p.1 - c| g.tol1D)).isSome := by
    rw [List.find?_isSome]
    obtain ⟨q, hq, hn⟩ := h
    exact ⟨q, hq, (g.near_iff h0 _).2 hn⟩
  obtain ⟨q, hq⟩ := Option.isSome_iff_exists.1 this
  have hm := List.mem_of_find?_eq_some hq
  have hn := List.find?_some hq
  rw [g.near_iff h0] at hn
  refine ⟨q, hm, hn, ?_⟩
  unfold insertNewIntersection
  rw [hq]
  simp [h1 q hm hn]

theorem Separated.nodup {t : K} (ht : 0 ≤ t) {l : List K} (h : Separated t l) : l.Nodup :=
  List.Pairwise.imp (fun {a b} hab => by
    have : a < b := by linarith
    exact this.ne) h

theorem Separated.append {t : K} {l : List K} {c : K} (h : Separated t (l ++ [c])) :
    Separated t l ∧ ∀ x ∈ l, x + t < c := by
  unfold Separated at *
  rw [List.pairwise_append] at h
  exact ⟨h.1, fun x hx => h.2.2 x hx c (by simp)⟩

theorem unionFirst_step {g : GeoCfg K} (h0 : 0 ≤ g.minTolerance) {pre : List K} {c : K}
    {m : List (K × UPoint)} (hm : MSorted m) (hsep : Separated g.tol1D (pre ++ [c]))
    (hmem : ∀ x p, (x, p) ∈ m ↔ IsUnionPoint g.tol1D pre [] x p) :
    ∃ m', unionFirst g m (c, pre.length) = ok m' ∧ MSorted m' ∧
      ∀ x p, (x, p) ∈ m' ↔ IsUnionPoint g.tol1D (pre ++ [c]) [] x p := by
  have ht : 0 ≤ g.tol1D := le_trans h0 (le_max_left _ _)
  have hlt := hsep.append.2
  have hkey : ∀ q ∈ m, q.1 ∈ pre := by
    rintro ⟨x, p⟩ hq
    rcases (hmem x p).1 hq with ⟨i, hi, _⟩ | ⟨i, j, b, hi, _⟩ | ⟨j, hj, _⟩
    · exact List.mem_of_getElem? hi
    · exact List.mem_of_getElem? hi
    · simp at hj
  have hfar : ∀ q ∈ m, g.tol1D < |q.1 - c| := by
    intro q hq
    have := hlt _ (hkey q hq)
    rw [abs_of_neg (by linarith)]; linarith
  have hne : ∀ q ∈ m, q.1 ≠ c := by
    intro q hq
    have := hlt _ (hkey q hq)
    have h2 : q.1 < c := by linarith
    exact h2.ne
  unfold unionFirst
  rw [insertNew_far h0 hfar]
  simp only
  obtain ⟨m', h1, h2, _, h4⟩ := kmapModify_spec (k := c) (b := {}) (b2 := ⟨.first, [pre.length, 0]⟩)
    (f := fun p => do
      let idx ← vset (vresize p.meshIndices 2 0) 0 pre.length
      ok ⟨.first, idx⟩)
    (hm.kmapInsert hne) ((mem_kmapInsert hne _).2 (Or.inl rfl)) rfl
  refine ⟨m', h1, h2, fun x p => ?_⟩
  rw [h4, mem_kmapInsert hne]
  unfold IsUnionPoint
  constructor
  · rintro (⟨rfl, rfl⟩ | ⟨hx, hq | hq⟩)
    · exact Or.inl ⟨pre.length, by simp, by simp, rfl⟩
    · exact absurd (Prod.mk.inj hq).1 hx
    · rcases (hmem x p).1 hq with ⟨i, hi, h5, h6⟩ | ⟨i, j, b, _, hj, _⟩ | ⟨j, hj, _⟩
      · refine Or.inl ⟨i, ?_, h5, h6⟩
        rw [List.getElem?_append_left (by
          exact (List.getElem?_eq_some_iff.1 hi).1)]
        exact hi
      · simp at hj
      · simp at hj
  · rintro (⟨i, hi, h5, h6⟩ | ⟨i, j, b, _, hj, _⟩ | ⟨j, hj, _⟩)
    · by_cases hi2 : i < pre.length
      · rw [List.getElem?_append_left hi2] at hi
        have hxm := List.mem_of_getElem? hi
        refine Or.inr ⟨?_, Or.inr ((hmem x p).2 (Or.inl ⟨i, hi, h5, h6⟩))⟩
        have := hlt _ hxm
        have h2 : x < c := by linarith
        exact h2.ne
      · have hlen := (List.getElem?_eq_some_iff.1 hi).1
        simp only [List.length_append, List.length_singleton] at hlen
        have hie : i = pre.length := by omega
        subst hie
        simp at hi
        exact Or.inl ⟨hi.symm, h6⟩
    · simp at hj
    · simp at hj

theorem unionSecond_step {g : GeoCfg K} (h0 : 0 ≤ g.minTolerance) {one pre : List K} {c : K}
    {m : List (K × UPoint)} (hm : MSorted m) (hM : Matching g.tol1D one (pre ++ [c]))
    (h1 : -1 ∈ one → g.tol1D < |-1 - c|)
    (hmem : ∀ x p, (x, p) ∈ m ↔ IsUnionPoint g.tol1D one pre x p) :
    ∃ m', unionSecond g m (c, pre.length) = ok m' ∧ MSorted m' ∧
      ∀ x p, (x, p) ∈ m' ↔ IsUnionPoint g.tol1D one (pre ++ [c]) x p := by
  have ht : 0 ≤ g.tol1D := le_trans h0 (le_max_left _ _)
  have hlt := hM.sep2.append.2
  have hnd := hM.sep1.nodup ht
  have hpfar : ∀ b ∈ pre, g.tol1D < |b - c| := by
    intro b hb
    have := hlt _ hb
    rw [abs_of_neg (by linarith)]; linarith
  -- a key near `c` is a point of the first mesh
  have hone : ∀ q ∈ m, |q.1 - c| ≤ g.tol1D → q.1 ∈ one := by
    rintro ⟨x, p⟩ hq hn
    rcases (hmem x p).1 hq with ⟨i, hi, _⟩ | ⟨i, j, b, hi, _⟩ | ⟨j, hj, _⟩
    · exact List.mem_of_getElem? hi
    · exact List.mem_of_getElem? hi
    · exact absurd hn (not_le.2 (hpfar x (List.mem_of_getElem? hj)))
  have hpre : ∀ {j : Nat} {b : K}, pre[j]? = some b → (pre ++ [c])[j]? = some b := by
    intro j b hj
    rw [List.getElem?_append_left (List.getElem?_eq_some_iff.1 hj).1]
    exact hj
  have hsplit : ∀ {j : Nat} {b : K}, (pre ++ [c])[j]? = some b →
      pre[j]? = some b ∨ (j = pre.length ∧ b = c) := by
    intro j b hj
    by_cases hj2 : j < pre.length
    · rw [List.getElem?_append_left hj2] at hj; exact Or.inl hj
    · have hlen := (List.getElem?_eq_some_iff.1 hj).1
      simp only [List.length_append, List.length_singleton] at hlen
      have hje : j = pre.length := by omega
      subst hje
      simp at hj
      exact Or.inr ⟨rfl, hj.symm⟩
  by_cases hex : ∃ a ∈ one, |a - c| ≤ g.tol1D
  · obtain ⟨a, ha, hac⟩ := hex
    obtain ⟨i, hi⟩ := List.getElem?_of_mem ha
    -- the point `a` is in the map as a point of the first mesh only
    have hnob : ∀ b ∈ pre, g.tol1D < |a - b| := by
      intro b hb
      by_contra hcon
      have := hM.uniq1 a ha b (by simp [hb]) c (by simp) (not_lt.1 hcon) hac
      have h2 := hlt b hb
      rw [this] at h2
      linarith
    have ham : (a, (⟨.first, [i, 0]⟩ : UPoint)) ∈ m :=
      (hmem _ _).2 (Or.inl ⟨i, hi, hnob, rfl⟩)
    obtain ⟨q, hq, hn, he⟩ := insertNew_near h0 ⟨_, ham, hac⟩ (fun q hq hn hq1 => by
      have := hone q hq hn
      rw [hq1] at this hn
      exact absurd hn (not_le.2 (h1 this)))
    have hqa : q.1 = a := hM.uniq2 c (by simp) _ (hone q hq hn) _ ha hn hac
    unfold unionSecond
    rw [he, hqa]
    simp only [if_true]
    obtain ⟨m', e1, e2, _, e4⟩ := kmapModify_spec (k := a) (b := ⟨.first, [i, 0]⟩)
      (b2 := ⟨.both, [i, pre.length]⟩)
      (f := fun p => do
        let idx ← vset p.meshIndices 1 pre.length
        ok ⟨.both, idx⟩) hm ham rfl
    refine ⟨m', e1, e2, fun x p => ?_⟩
    rw [e4]
    constructor
    · rintro (⟨rfl, rfl⟩ | ⟨hx, hp⟩)
      · exact Or.inr (Or.inl ⟨i, pre.length, c, hi, by simp, hac, rfl⟩)
      · rcases (hmem x p).1 hp with ⟨i', hi', h5, h6⟩ | ⟨i', j, b, hi', hj, hb, h6⟩ | ⟨j, hj, h5, h6⟩
        · refine Or.inl ⟨i', hi', fun b hb => ?_, h6⟩
          rcases List.mem_append.1 hb with hb | hb
          · exact h5 b hb
          · rw [List.mem_singleton] at hb
            subst hb
            by_contra hcon
            exact hx (hM.uniq2 b (by simp) x (List.mem_of_getElem? hi') a ha (not_lt.1 hcon) hac)
        · exact Or.inr (Or.inl ⟨i', j, b, hi', hpre hj, hb, h6⟩)
        · exact Or.inr (Or.inr ⟨j, hpre hj, h5, h6⟩)
    · rintro (⟨i', hi', h5, h6⟩ | ⟨i', j, b, hi', hj, hb, h6⟩ | ⟨j, hj, h5, h6⟩)
      · refine Or.inr ⟨?_, (hmem x p).2 (Or.inl ⟨i', hi', fun b hb => h5 b (by simp [hb]), h6⟩)⟩
        rintro rfl
        exact absurd hac (not_le.2 (h5 c (by simp)))
      · rcases hsplit hj with hj' | ⟨rfl, rfl⟩
        · refine Or.inr ⟨?_, (hmem x p).2 (Or.inr (Or.inl ⟨i', j, b, hi', hj', hb, h6⟩))⟩
          rintro rfl
          exact absurd hb (not_le.2 (hnob b (List.mem_of_getElem? hj')))
        · have hxa : x = a := hM.uniq2 b (by simp) x (List.mem_of_getElem? hi') a ha hb hac
          subst hxa
          have hii : i' = i := by
            obtain ⟨hl, hg⟩ := List.getElem?_eq_some_iff.1 hi'
            obtain ⟨hl2, hg2⟩ := List.getElem?_eq_some_iff.1 hi
            exact (List.Nodup.getElem_inj_iff hnd).1 (hg.trans hg2.symm)
          subst hii
          exact Or.inl ⟨rfl, h6⟩
      · rcases hsplit hj with hj' | ⟨rfl, rfl⟩
        · refine Or.inr ⟨?_, (hmem x p).2 (Or.inr (Or.inr ⟨j, hj', h5, h6⟩))⟩
          rintro rfl
          have := h5 x ha
          rw [sub_self, abs_zero] at this
          exact absurd ht (not_le.2 this)
        · exact absurd hac (not_le.2 (h5 a ha))
  · have hfar : ∀ a ∈ one, g.tol1D < |a - c| := fun a ha => by
      by_contra hcon
      exact hex ⟨a, ha, not_lt.1 hcon⟩
    have hmfar : ∀ q ∈ m, g.tol1D < |q.1 - c| := by
      intro q hq
      by_contra hcon
      exact hex ⟨q.1, hone q hq (not_lt.1 hcon), not_lt.1 hcon⟩
    have hne : ∀ q ∈ m, q.1 ≠ c := by
      intro q hq hqc
      have := hmfar q hq
      rw [hqc, sub_self, abs_zero] at this
      exact absurd ht (not_le.2 this)
    unfold unionSecond
    rw [insertNew_far h0 hmfar]
    simp only [Bool.false_eq_true, if_false]
    obtain ⟨m', e1, e2, _, e4⟩ := kmapModify_spec (k := c) (b := {})
      (b2 := ⟨.second, [0, pre.length]⟩)
      (f := fun p => do
        let idx ← vset (vresize p.meshIndices 2 0) 1 pre.length
        ok ⟨.second, idx⟩)
      (hm.kmapInsert hne) ((mem_kmapInsert hne _).2 (Or.inl rfl)) rfl
    refine ⟨m', e1, e2, fun x p => ?_⟩
    rw [e4, mem_kmapInsert hne]
    constructor
    · rintro (⟨rfl, rfl⟩ | ⟨hx, hp | hp⟩)
      · exact Or.inr (Or.inr ⟨pre.length, by simp, hfar, rfl⟩)
      · exact absurd (Prod.mk.inj hp).1 hx
      · rcases (hmem x p).1 hp with ⟨i', hi', h5, h6⟩ | ⟨i', j, b, hi', hj, hb, h6⟩ | ⟨j, hj, h5, h6⟩
        · refine Or.inl ⟨i', hi', fun b hb => ?_, h6⟩
          rcases List.mem_append.1 hb with hb | hb
          · exact h5 b hb
          · rw [List.mem_singleton] at hb
            subst hb
            exact hfar x (List.mem_of_getElem? hi')
        · exact Or.inr (Or.inl ⟨i', j, b, hi', hpre hj, hb, h6⟩)
        · exact Or.inr (Or.inr ⟨j, hpre hj, h5, h6⟩)
    · rintro (⟨i', hi', h5, h6⟩ | ⟨i', j, b, hi', hj, hb, h6⟩ | ⟨j, hj, h5, h6⟩)
      · have hp : (x, p) ∈ m :=
          (hmem x p).2 (Or.inl ⟨i', hi', fun b hb => h5 b (by simp [hb]), h6⟩)
        exact Or.inr ⟨hne _ hp, Or.inr hp⟩
      · rcases hsplit hj with hj' | ⟨rfl, rfl⟩
        · have hp : (x, p) ∈ m := (hmem x p).2 (Or.inr (Or.inl ⟨i', j, b, hi', hj', hb, h6⟩))
          exact Or.inr ⟨hne _ hp, Or.inr hp⟩
        · exact absurd hb (not_le.2 (hfar x (List.mem_of_getElem? hi')))
      · rcases hsplit hj with hj' | ⟨rfl, rfl⟩
        · have hp : (x, p) ∈ m := (hmem x p).2 (Or.inr (Or.inr ⟨j, hj', h5, h6⟩))
          exact Or.inr ⟨hne _ hp, Or.inr hp⟩
        · exact Or.inl ⟨rfl, h6⟩

theorem Matching.prefix {t : K} {one two rest : List K} (h : Matching t one (two ++ rest)) :
    Matching t one two :=
  ⟨h.sep1, (List.pairwise_append.1 h.sep2).1,
    fun a ha b hb b' hb' => h.uniq1 a ha b (by simp [hb]) b' (by simp [hb']),
    fun b hb a ha a' ha' => h.uniq2 b (by simp [hb]) a ha a' ha'⟩

theorem createUnionPoints_spec {g : GeoCfg K} (h0 : 0 ≤ g.minTolerance) {one two : List K}
    (hM : Matching g.tol1D one two) (h1 : -1 ∈ one → ∀ b ∈ two, g.tol1D < |-1 - b|) :
    ∃ m, createUnionPoints g one two [] = ok m ∧ MSorted m ∧
      ∀ x p, (x, p) ∈ m ↔ IsUnionPoint g.tol1D one two x p := by
  have hfirst : ∀ (l pre : List K) (m : List (K × UPoint)), pre ++ l = one → MSorted m →
      (∀ x p, (x, p) ∈ m ↔ IsUnionPoint g.tol1D pre [] x p) →
      ∃ m', foldRes (unionFirst g) m (l.zipIdx pre.length) = ok m' ∧ MSorted m' ∧
        ∀ x p, (x, p) ∈ m' ↔ IsUnionPoint g.tol1D one [] x p := by
    intro l
    induction l with
    | nil =>
      intro pre m hp hm hmem
      rw [List.append_nil] at hp; subst hp
      exact ⟨m, rfl, hm, hmem⟩
    | cons c l ih =>
      intro pre m hp hm hmem
      have hp' : (pre ++ [c]) ++ l = one := by rw [← hp]; simp
      have hs : Separated g.tol1D (pre ++ [c]) := by
        have := hM.sep1; rw [← hp'] at this
        exact (List.pairwise_append.1 this).1
      obtain ⟨m1, e1, e2, e3⟩ := unionFirst_step h0 hm hs hmem
      obtain ⟨m2, f1, f2⟩ := ih (pre ++ [c]) m1 hp' e2 e3
      refine ⟨m2, ?_, f2⟩
      rw [List.zipIdx_cons, foldRes_cons, e1, ok_bind]
      rw [List.length_append] at f1
      exact f1
  have hsecond : ∀ (l pre : List K) (m : List (K × UPoint)), pre ++ l = two → MSorted m →
      (∀ x p, (x, p) ∈ m ↔ IsUnionPoint g.tol1D one pre x p) →
      ∃ m', foldRes (unionSecond g) m (l.zipIdx pre.length) = ok m' ∧ MSorted m' ∧
        ∀ x p, (x, p) ∈ m' ↔ IsUnionPoint g.tol1D one two x p := by
    intro l
    induction l with
    | nil =>
      intro pre m hp hm hmem
      rw [List.append_nil] at hp; subst hp
      exact ⟨m, rfl, hm, hmem⟩
    | cons c l ih =>
      intro pre m hp hm hmem
      have hp' : (pre ++ [c]) ++ l = two := by rw [← hp]; simp
      have hs : Matching g.tol1D one (pre ++ [c]) := by
        have := hM; rw [← hp'] at this
        exact this.prefix
      obtain ⟨m1, e1, e2, e3⟩ := unionSecond_step h0 hm hs
        (fun h => h1 h c (by rw [← hp]; simp)) hmem
      obtain ⟨m2, f1, f2⟩ := ih (pre ++ [c]) m1 hp' e2 e3
      refine ⟨m2, ?_, f2⟩
      rw [List.zipIdx_cons, foldRes_cons, e1, ok_bind]
      rw [List.length_append] at f1
      exact f1
  obtain ⟨m1, e1, e2, e3⟩ := hfirst one [] [] (by simp) (by simp [MSorted])
    (by intro x p; simp [IsUnionPoint])
  obtain ⟨m2, f1, f2, f3⟩ := hsecond two [] m1 (by simp) e2 e3
  refine ⟨m2, ?_, f2, f3⟩
  unfold createUnionPoints
  have e1' : foldRes (unionFirst g) [] one.zipIdx = ok m1 := e1
  have f1' : foldRes (unionSecond g) m1 two.zipIdx = ok m2 := f1
  rw [e1', ok_bind, f1']

/-! ### Segments -/

theorem eq_range_of_sorted {l : List Nat} {n : Nat} (h : l.Pairwise (· < ·))
    (hm : ∀ i, i ∈ l ↔ i < n) : l = List.range n := by
  apply List.Perm.eq_of_pairwise (le := (· < ·)) (fun a b _ _ h1 h2 => absurd h1 (Nat.lt_asymm h2)) h
    List.pairwise_lt_range
  refine (List.perm_ext_iff_of_nodup (h.imp fun h => Nat.ne_of_lt h) List.nodup_range).2 ?_
  intro i
  rw [hm, List.mem_range]

theorem Separated.lt_of_lt {t : K} (ht : 0 ≤ t) {l : List K} (h : Separated t l) {i j : Nat} {x y : K}
    (hi : l[i]? = some x) (hj : l[j]? = some y) (hxy : x < y) : i < j ∧ x + t < y := by
  obtain ⟨li, gi⟩ := List.getElem?_eq_some_iff.1 hi
  obtain ⟨lj, gj⟩ := List.getElem?_eq_some_iff.1 hj
  have hp := List.pairwise_iff_getElem.1 h
  rcases Nat.lt_trichotomy i j with h1 | h1 | h1
  · have := hp i j li lj h1
    rw [gi, gj] at this
    exact ⟨h1, this⟩
  · subst h1
    rw [gi] at gj
    exact absurd gj hxy.ne
  · have := hp j i lj li h1
    rw [gi, gj] at this
    linarith

/-- What is needed of a selected index: all indices below `n` occur, in order. -/
def InOrder (points : List (K × UPoint)) (sel : UPoint → Option Nat) (n : Nat) : Prop :=
  points.filterMap (fun q => sel q.2) = List.range n

theorem inOrder_of {points : List (K × UPoint)} {sel : UPoint → Option Nat} {n : Nat}
    (hs : MSorted points)
    (hmono : ∀ x p y q i j, (x, p) ∈ points → (y, q) ∈ points → x < y → sel p = some i →
      sel q = some j → i < j)
    (hmem : ∀ i, (∃ x p, (x, p) ∈ points ∧ sel p = some i) ↔ i < n) : InOrder points sel n := by
  apply eq_range_of_sorted
  · rw [List.pairwise_filterMap]
    refine List.Pairwise.imp_of_mem ?_ hs
    intro a b ha hb hab i hi j hj
    exact hmono a.1 a.2 b.1 b.2 i j ha hb hab hi hj
  · intro i
    rw [List.mem_filterMap, ← hmem]
    constructor
    · rintro ⟨q, hq, hi⟩; exact ⟨q.1, q.2, hq, hi⟩
    · rintro ⟨x, p, hq, hi⟩; exact ⟨(x, p), hq, hi⟩

theorem index1_eq_some {t : K} {one two : List K} {x : K} {p : UPoint} {i : Nat}
    (h : IsUnionPoint t one two x p) (hi : p.index1 = some i) : one[i]? = some x := by
  rcases h with ⟨i', hi', _, rfl⟩ | ⟨i', j, b, hi', _, _, rfl⟩ | ⟨j, _, _, rfl⟩
  · simp [UPoint.index1] at hi; subst hi; exact hi'
  · simp [UPoint.index1] at hi; subst hi; exact hi'
  · simp [UPoint.index1] at hi

theorem index2_eq_some {t : K} {one two : List K} {x : K} {p : UPoint} {i : Nat}
    (h : IsUnionPoint t one two x p) (hi : p.index2 = some i) :
    (two[i]? = some x ∧ ∀ a ∈ one, t < |a - x|) ∨
    ∃ b, two[i]? = some b ∧ x ∈ one ∧ |x - b| ≤ t := by
  rcases h with ⟨i', hi', _, rfl⟩ | ⟨i', j, b, hi', hj, hb, rfl⟩ | ⟨j, hj, h5, rfl⟩
  · simp [UPoint.index2] at hi
  · simp [UPoint.index2] at hi; subst hi
    exact Or.inr ⟨b, hj, List.mem_of_getElem? hi', hb⟩
  · simp [UPoint.index2] at hi; subst hi
    exact Or.inl ⟨hj, h5⟩

theorem inOrder1 {t : K} (ht : 0 ≤ t) {one two : List K} (hM : Matching t one two)
    {points : List (K × UPoint)} (hs : MSorted points)
    (hmem : ∀ x p, (x, p) ∈ points ↔ IsUnionPoint t one two x p) :
    InOrder points UPoint.index1 one.length := by
  refine inOrder_of hs ?_ ?_
  · intro x p y q i j hp hq hxy hi hj
    exact (hM.sep1.lt_of_lt ht (index1_eq_some ((hmem _ _).1 hp) hi)
      (index1_eq_some ((hmem _ _).1 hq) hj) hxy).1
  · intro i
    constructor
    · rintro ⟨x, p, hp, hi⟩
      exact (List.getElem?_eq_some_iff.1 (index1_eq_some ((hmem _ _).1 hp) hi)).1
    · intro hi
      have hx : one[i]? = some one[i] := List.getElem?_eq_getElem hi
      by_cases hex : ∀ b ∈ two, t < |one[i] - b|
      · exact ⟨one[i], ⟨.first, [i, 0]⟩, (hmem _ _).2 (Or.inl ⟨i, hx, hex, rfl⟩), rfl⟩
      · rw [not_forall] at hex
        obtain ⟨b, hex⟩ := hex
        rw [not_forall] at hex
        obtain ⟨hb, hex⟩ := hex
        obtain ⟨j, hj⟩ := List.getElem?_of_mem hb
        exact ⟨one[i], ⟨.both, [i, j]⟩,
          (hmem _ _).2 (Or.inr (Or.inl ⟨i, j, b, hx, hj, not_lt.1 hex, rfl⟩)), rfl⟩

theorem inOrder2 {t : K} (ht : 0 ≤ t) {one two : List K} (hM : Matching t one two)
    {points : List (K × UPoint)} (hs : MSorted points)
    (hmem : ∀ x p, (x, p) ∈ points ↔ IsUnionPoint t one two x p) :
    InOrder points UPoint.index2 two.length := by
  refine inOrder_of hs ?_ ?_
  · intro x p y q i j hp hq hxy hi hj
    by_contra hcon
    have hp' := index2_eq_some ((hmem _ _).1 hp) hi
    have hq' := index2_eq_some ((hmem _ _).1 hq) hj
    rcases Nat.lt_or_eq_of_le (Nat.le_of_not_lt hcon) with hji | hji
    · -- j < i
      have hlt : ∀ {b b' : K}, two[j]? = some b → two[i]? = some b' → b + t < b' := by
        intro b b' h1 h2
        obtain ⟨l1, g1⟩ := List.getElem?_eq_some_iff.1 h1
        obtain ⟨l2, g2⟩ := List.getElem?_eq_some_iff.1 h2
        have := List.pairwise_iff_getElem.1 hM.sep2 j i l1 l2 hji
        rw [g1, g2] at this
        exact this
      rcases hp' with ⟨h1, _⟩ | ⟨b, h1, h2, h3⟩ <;> rcases hq' with ⟨k1, _⟩ | ⟨b', k1, k2, k3⟩
      · have := hlt k1 h1; linarith
      · have := hlt k1 h1
        rw [abs_le] at k3
        linarith [k3.2]
      · have := hlt k1 h1
        rw [abs_le] at h3
        linarith [h3.1]
      · have := hlt k1 h1
        obtain ⟨u, hu⟩ := List.getElem?_of_mem h2
        obtain ⟨v, hv⟩ := List.getElem?_of_mem k2
        have h5 := (hM.sep1.lt_of_lt ht hu hv hxy).2
        rw [abs_le] at h3 k3
        linarith [h3.1, k3.2]
    · subst hji
      rcases hp' with ⟨h1, h2⟩ | ⟨b, h1, h2, h3⟩ <;> rcases hq' with ⟨k1, k2⟩ | ⟨b', k1, k2, k3⟩
      · rw [h1] at k1; exact hxy.ne (Option.some.inj k1)
      · rw [h1] at k1; cases k1
        exact absurd k3 (not_le.2 (h2 y k2))
      · rw [h1] at k1; cases k1
        exact absurd h3 (not_le.2 (k2 x h2))
      · rw [h1] at k1; cases k1
        exact hxy.ne (hM.uniq2 b (List.mem_of_getElem? h1) x h2 y k2 h3 k3)
  · intro i
    constructor
    · rintro ⟨x, p, hp, hi⟩
      rcases index2_eq_some ((hmem _ _).1 hp) hi with ⟨h1, _⟩ | ⟨b, h1, _⟩
      · exact (List.getElem?_eq_some_iff.1 h1).1
      · exact (List.getElem?_eq_some_iff.1 h1).1
    · intro hi
      have hx : two[i]? = some two[i] := List.getElem?_eq_getElem hi
      by_cases hex : ∀ a ∈ one, t < |a - two[i]|
      · exact ⟨two[i], ⟨.second, [0, i]⟩, (hmem _ _).2 (Or.inr (Or.inr ⟨i, hx, hex, rfl⟩)), rfl⟩
      · rw [not_forall] at hex
        obtain ⟨a, hex⟩ := hex
        rw [not_forall] at hex
        obtain ⟨ha, hex⟩ := hex
        obtain ⟨j, hj⟩ := List.getElem?_of_mem ha
        exact ⟨a, ⟨.both, [j, i]⟩,
          (hmem _ _).2 (Or.inr (Or.inl ⟨j, i, two[i], hj, hx, not_lt.1 hex, rfl⟩)), rfl⟩

/-- The running index after `c` points of a mesh of `n` points. -/
def runningIndex (n c : Nat) : Int := if c < n then (c : Int) - 1 else -1

/-- Number of points of a mesh in a part of the union. -/
def countSel (sel : UPoint → Option Nat) (l : List (K × UPoint)) : Nat :=
  (l.filterMap fun q => sel q.2).length

theorem countSel_snoc (sel : UPoint → Option Nat) (l : List (K × UPoint)) (p : K × UPoint) :
    countSel sel (l ++ [p]) = countSel sel l + if (sel p.2).isSome then 1 else 0 := by
  unfold countSel
  rw [List.filterMap_append, List.length_append]
  cases h : sel p.2 <;> simp [h]

theorem InOrder.split {points pre rest : List (K × UPoint)} {sel : UPoint → Option Nat} {n : Nat}
    (h : InOrder points sel n) (hp : pre ++ rest = points) :
    countSel sel pre ≤ n ∧ pre.filterMap (fun q => sel q.2) = List.range (countSel sel pre) ∧
    rest.filterMap (fun q => sel q.2) = List.range' (countSel sel pre) (n - countSel sel pre) := by
  unfold InOrder at h
  rw [← hp, List.filterMap_append] at h
  have hlen := congrArg List.length h
  rw [List.length_append, List.length_range] at hlen
  have hc : countSel sel pre ≤ n := by unfold countSel; omega
  refine ⟨hc, ?_, ?_⟩
  · have := congrArg (List.take (countSel sel pre)) h
    unfold countSel at this
    rw [List.take_left] at this
    rw [this, List.take_range]
    unfold countSel at hc ⊢
    rw [Nat.min_eq_left hc]
  · have := congrArg (List.drop (countSel sel pre)) h
    unfold countSel at this
    rw [List.drop_left] at this
    rw [this, List.range_eq_range', List.drop_range']
    simp [countSel]

theorem liesIn_iff {points pre rest : List (K × UPoint)} {sel : UPoint → Option Nat} {n : Nat}
    {p q : K × UPoint} (hs : MSorted points) (h : InOrder points sel n)
    (hp : pre ++ p :: q :: rest = points) (k : Nat) :
    LiesIn points sel k p.1 q.1 ↔ k + 1 = countSel sel (pre ++ [p]) ∧ k + 1 < n := by
  have hp' : (pre ++ [p]) ++ (q :: rest) = points := by rw [← hp]; simp
  obtain ⟨hc, h1, h2⟩ := h.split hp'
  have hs' := hs
  unfold MSorted at hs'
  rw [← hp', List.pairwise_append] at hs'
  obtain ⟨s1, s2, s3⟩ := hs'
  have hle : ∀ r ∈ pre ++ [p], r.1 ≤ p.1 := by
    intro r hr
    rw [List.pairwise_append] at s1
    rcases List.mem_append.1 hr with hr | hr
    · exact (s1.2.2 r hr p (by simp)).le
    · rw [List.mem_singleton] at hr; rw [hr]
  have hge : ∀ r ∈ q :: rest, q.1 ≤ r.1 := by
    intro r hr
    rcases List.mem_cons.1 hr with rfl | hr
    · exact le_refl _
    · exact ((List.pairwise_cons.1 s2).1 r hr).le
  have hpq : p.1 < q.1 := s3 p (by simp) q (by simp)
  constructor
  · rintro ⟨x, y, P, Q, hP, hQ, hsP, hsQ, hx, hy⟩
    have hP' : (x, P) ∈ pre ++ [p] := by
      rw [← hp'] at hP
      rcases List.mem_append.1 hP with hP | hP
      · exact hP
      · have := hge _ hP
        exact absurd (lt_of_lt_of_le hpq this) (not_lt.2 hx)
    have hQ' : (y, Q) ∈ q :: rest := by
      rw [← hp'] at hQ
      rcases List.mem_append.1 hQ with hQ | hQ
      · have := hle _ hQ
        exact absurd (lt_of_lt_of_le hpq hy) (not_lt.2 this)
      · exact hQ
    have hk : k ∈ (pre ++ [p]).filterMap (fun q => sel q.2) := List.mem_filterMap.2 ⟨_, hP', hsP⟩
    have hk1 : k + 1 ∈ (q :: rest).filterMap (fun q => sel q.2) :=
      List.mem_filterMap.2 ⟨_, hQ', hsQ⟩
    rw [h1, List.mem_range] at hk
    rw [h2, List.mem_range'_1] at hk1
    omega
  · rintro ⟨hk, hkn⟩
    have hk1 : k ∈ (pre ++ [p]).filterMap (fun q => sel q.2) := by
      rw [h1, List.mem_range]; omega
    have hk2 : k + 1 ∈ (q :: rest).filterMap (fun q => sel q.2) := by
      rw [h2, List.mem_range'_1]; omega
    obtain ⟨P, hP, hsP⟩ := List.mem_filterMap.1 hk1
    obtain ⟨Q, hQ, hsQ⟩ := List.mem_filterMap.1 hk2
    refine ⟨P.1, Q.1, P.2, Q.2, ?_, ?_, hsP, hsQ, hle P hP, hge Q hQ⟩
    · rw [← hp']; exact List.mem_append_left _ hP
    · rw [← hp']; exact List.mem_append_right _ hQ

theorem runningIndex_step {n c : Nat} (b : Bool) (h : b = true → c < n) :
    (let j := if b then runningIndex n c + 1 else runningIndex n c
     if j + 1 ≥ (n : Int) then (-1 : Int) else j) = runningIndex n (c + if b then 1 else 0) := by
  unfold runningIndex
  cases b with
  | true =>
    have := h rfl
    simp only [if_true, if_pos this]
    by_cases h2 : c + 1 < n
    · rw [if_pos h2, if_neg (by omega)]; omega
    · rw [if_neg h2, if_pos (by omega)]
  | false =>
    simp only [Bool.false_eq_true, if_false, Nat.add_zero]
    by_cases h2 : c < n
    · rw [if_pos h2, if_neg (by omega)]
    · rw [if_neg h2]; split <;> rfl

theorem runningIndex_cases {n c : Nat} :
    (∃ k : Nat, runningIndex n c = k ∧ k + 1 = c ∧ k + 1 < n) ∨
    (runningIndex n c = -1 ∧ ∀ k : Nat, ¬ (k + 1 = c ∧ k + 1 < n)) := by
  unfold runningIndex
  by_cases h : c < n
  · rw [if_pos h]
    cases c with
    | zero => right; exact ⟨by simp, by omega⟩
    | succ c => left; exact ⟨c, by simp, rfl, h⟩
  · rw [if_neg h]; right; exact ⟨rfl, fun k hk => h (hk.1 ▸ hk.2)⟩

/-- The type of a union point agrees with the meshes in which it has an index. -/
def TypeOk (p : UPoint) : Prop :=
  (p.type = .first ∧ p.index1.isSome = true ∧ p.index2.isSome = false) ∨
  (p.type = .second ∧ p.index1.isSome = false ∧ p.index2.isSome = true) ∨
  (p.type = .both ∧ p.index1.isSome = true ∧ p.index2.isSome = true)

theorem IsUnionPoint.typeOk {t : K} {one two : List K} {x : K} {p : UPoint}
    (h : IsUnionPoint t one two x p) : TypeOk p := by
  rcases h with ⟨i', hi', _, rfl⟩ | ⟨i', j, b, hi', hj, hb, rfl⟩ | ⟨j, hj, h5, rfl⟩ <;>
    simp [TypeOk, UPoint.index1, UPoint.index2]

/-- An interval between two union points that lies in no segment of either mesh. -/
def Uncovered (points : List (K × UPoint)) (a b : K) : Prop :=
  (∀ i, ¬ LiesIn points UPoint.index1 i a b) ∧ ∀ j, ¬ LiesIn points UPoint.index2 j a b

theorem unionSegmentsLoop_spec {points : List (K × UPoint)} {n1 n2 : Nat} (hs : MSorted points)
    (h1 : InOrder points UPoint.index1 n1) (h2 : InOrder points UPoint.index2 n2)
    (ht : ∀ q ∈ points, TypeOk q.2) :
    ∀ (rest pre : List (K × UPoint)), pre ++ rest = points → rest ≠ [] →
      ((∀ (k : Nat) a b, rest[k]? = some a → rest[k + 1]? = some b →
          ¬ Uncovered points a.1 b.1) →
        ∃ segs : List (USegment K), unionSegmentsLoop n1 n2 (runningIndex n1 (countSel UPoint.index1 pre))
            (runningIndex n2 (countSel UPoint.index2 pre)) rest = ok segs ∧
          segs.length + 1 = rest.length ∧
          ∀ (k : Nat) a b, rest[k]? = some a → rest[k + 1]? = some b →
            ∃ s, segs[k]? = some s ∧ IsUnionSegment points a.1 b.1 s) ∧
      ((∃ (k : Nat) (a b : K × UPoint), rest[k]? = some a ∧ rest[k + 1]? = some b ∧
          Uncovered points a.1 b.1) →
        unionSegmentsLoop n1 n2 (runningIndex n1 (countSel UPoint.index1 pre))
            (runningIndex n2 (countSel UPoint.index2 pre)) rest = abort) := by
  intro rest
  induction rest with
  | nil => intro pre _ h; exact absurd rfl h
  | cons p rest ih =>
    intro pre hp _
    cases rest with
    | nil =>
      refine ⟨fun _ => ⟨[], rfl, rfl, ?_⟩, ?_⟩
      · intro k a b _ hb
        simp at hb
      · rintro ⟨k, a, b, _, hb, _⟩
        simp at hb
    | cons q rest =>
      have hp' : (pre ++ [p]) ++ (q :: rest) = points := by rw [← hp]; simp
      have l1 := fun k => liesIn_iff hs h1 hp k
      have l2 := fun k => liesIn_iff hs h2 hp k
      have c1 := (h1.split hp').1
      have c2 := (h2.split hp').1
      have hmem : p ∈ points := by rw [← hp]; simp
      have hk := ht p hmem
      rw [countSel_snoc] at l1 l2 c1 c2
      have ih' := ih (pre ++ [p]) hp' (by simp)
      rw [countSel_snoc, countSel_snoc] at ih'
      have r1 := runningIndex_step (n := n1) (c := countSel UPoint.index1 pre)
        p.2.index1.isSome (by intro hb; rw [hb] at c1; simp at c1; omega)
      have r2 := runningIndex_step (n := n2) (c := countSel UPoint.index2 pre)
        p.2.index2.isSome (by intro hb; rw [hb] at c2; simp at c2; omega)
      simp only at r1 r2
      generalize hi1 : runningIndex n1 (countSel UPoint.index1 pre) = i1 at *
      generalize hi2 : runningIndex n2 (countSel UPoint.index2 pre) = i2 at *
      generalize hd1 : countSel UPoint.index1 pre + (if p.2.index1.isSome = true then 1 else 0) = d1 at *
      generalize hd2 : countSel UPoint.index2 pre + (if p.2.index2.isSome = true then 1 else 0) = d2 at *
      have hstep : unionSegmentsLoop n1 n2 i1 i2 (p :: q :: rest) = (do
          assert (runningIndex n1 d1 ≠ -1 ∨ runningIndex n2 d2 ≠ -1)
          let segments ← unionSegmentsLoop n1 n2 (runningIndex n1 d1) (runningIndex n2 d2) (q :: rest)
          ok ((⟨if runningIndex n1 d1 ≥ 0 ∧ runningIndex n2 d2 ≥ 0 then .both
            else if runningIndex n1 d1 ≥ 0 ∧ runningIndex n2 d2 = -1 then .first
            else if runningIndex n1 d1 = -1 ∧ runningIndex n2 d2 ≥ 0 then .second
            else .unknown, (p.1, q.1),
            (if runningIndex n1 d1 ≥ 0 then (runningIndex n1 d1).toNat else 0,
              if runningIndex n2 d2 ≥ 0 then (runningIndex n2 d2).toNat else 0)⟩ : USegment K) ::
            segments)) := by
        rw [← r1, ← r2]
        rcases hk with ⟨hT, hA, hB⟩ | ⟨hT, hA, hB⟩ | ⟨hT, hA, hB⟩ <;>
        · rw [unionSegmentsLoop, hT, hA, hB]
          rfl
      rw [hstep]
      have hseg : (runningIndex n1 d1 = -1 ∧ runningIndex n2 d2 = -1 ∧ Uncovered points p.1 q.1) ∨
          ((runningIndex n1 d1 ≠ -1 ∨ runningIndex n2 d2 ≠ -1) ∧ ¬ Uncovered points p.1 q.1 ∧
            IsUnionSegment points p.1 q.1
            (⟨if runningIndex n1 d1 ≥ 0 ∧ runningIndex n2 d2 ≥ 0 then .both
              else if runningIndex n1 d1 ≥ 0 ∧ runningIndex n2 d2 = -1 then .first
              else if runningIndex n1 d1 = -1 ∧ runningIndex n2 d2 ≥ 0 then .second
              else .unknown, (p.1, q.1),
              (if runningIndex n1 d1 ≥ 0 then (runningIndex n1 d1).toNat else 0,
                if runningIndex n2 d2 ≥ 0 then (runningIndex n2 d2).toNat else 0)⟩ :
              USegment K)) := by
        rcases runningIndex_cases (n := n1) (c := d1) with ⟨k, e, hk⟩ | ⟨e, hk⟩ <;>
          rcases runningIndex_cases (n := n2) (c := d2) with ⟨k', e', hk'⟩ | ⟨e', hk'⟩
        · right
          refine ⟨by left; omega, fun hu => hu.1 k ((l1 k).2 hk), rfl, Or.inl ⟨k, k', (l1 k).2 hk, (l2 k').2 hk', ?_, ?_⟩⟩
          · simp [e, e']
          · simp [e, e']
        · right
          refine ⟨by left; omega, fun hu => hu.1 k ((l1 k).2 hk), rfl, Or.inr (Or.inl ⟨k, (l1 k).2 hk, fun j hj => hk' j ((l2 j).1 hj),
            ?_, ?_⟩)⟩
          · simp [e, e']
          · simp [e, e']
        · right
          refine ⟨by right; omega, fun hu => hu.2 k' ((l2 k').2 hk'), rfl, Or.inr (Or.inr ⟨k', fun j hj => hk j ((l1 j).1 hj),
            (l2 k').2 hk', ?_, ?_⟩)⟩
          · simp [e, e']
          · simp [e, e']
        · left
          exact ⟨e, e', fun j hj => hk j ((l1 j).1 hj), fun j hj => hk' j ((l2 j).1 hj)⟩
      generalize (⟨if runningIndex n1 d1 ≥ 0 ∧ runningIndex n2 d2 ≥ 0 then .both
              else if runningIndex n1 d1 ≥ 0 ∧ runningIndex n2 d2 = -1 then .first
              else if runningIndex n1 d1 = -1 ∧ runningIndex n2 d2 ≥ 0 then .second
              else .unknown, (p.1, q.1),
              (if runningIndex n1 d1 ≥ 0 then (runningIndex n1 d1).toNat else 0,
                if runningIndex n2 d2 ≥ 0 then (runningIndex n2 d2).toNat else 0)⟩ :
              USegment K) = S at *
      rcases hseg with ⟨e1, e2, hu⟩ | ⟨he, hnu, hS⟩
      · constructor
        · intro hall
          exact absurd hu (hall 0 p q rfl rfl)
        · intro _
          rw [assert_false (by rw [e1, e2]; simp)]
          rfl
      · rw [assert_true he, ok_bind]
        constructor
        · intro hall
          obtain ⟨segs, g1, g2, g3⟩ := ih'.1 (fun k a b ha hb => hall (k + 1) a b ha hb)
          rw [g1]
          refine ⟨S :: segs, rfl, by simp at g2 ⊢; omega, ?_⟩
          intro k a b ha hb
          cases k with
          | zero =>
            simp at ha hb
            subst ha hb
            exact ⟨S, rfl, hS⟩
          | succ k => exact g3 k a b ha hb
        · rintro ⟨k, a, b, ha, hb, hu⟩
          cases k with
          | zero =>
            simp at ha hb
            subst ha hb
            exact absurd hu hnu
          | succ k =>
            rw [ih'.2 ⟨k, a, b, ha, hb, hu⟩]
            rfl

end Verif
