import Verif.DirCutSpec
import Verif.MeshProps
import Verif.SplitLemmas
import Verif.ExtractLemmas
import Verif.BisectLemmas

/-
Lemmas for the removal of the halves of sides.
-/
namespace Verif

open Res

variable {K : Type}

/-- What was in `m0` is in `m'` as it is in `m`, except the states of the edges `E`. -/
structure KeptBelow (m0 m m' : Mesh K) (E : Nat → Prop) : Prop where
  wf : m'.WF
  num2 : m'.num .d2 = m.num .d2
  coordinates : ∀ i, i < m0.num .d0 → m'.coordinates i = m.coordinates i
  extremes : ∀ i a b, i < m0.num .d1 → m.extremes i = ok (a, b) → a < m0.num .d0 → b < m0.num .d0 →
    m'.extremes i = ok (a, b)
  active : ∀ d x, d ≠ .d3 → x < m0.num d → (d = .d1 → ¬ E x) → m'.active d x = m.active d x
  updated : ∀ i, i < m0.num .d2 → m'.updated .d2 i = m.updated .d2 i
  marker : ∀ d i, d ≠ .d3 → i < m0.num d → m'.marker d i = m.marker d i
  vertices : ∀ i r, i < m0.num .d2 → m.row .vert2 i = ok r → (∀ y ∈ r, y < m0.num .d0) → m'.row .vert2 i = ok r
  edges : ∀ i r, i < m0.num .d2 → m.row .edge2 i = ok r → (∀ y ∈ r, y < m0.num .d1) → m'.row .edge2 i = ok r
  polygons : ∀ x, x < m0.num .d1 → m'.row .nb12 x = m.row .nb12 x

theorem KeptBelow.trans {m0 m m' m'' : Mesh K} {E : Nat → Prop} (h : KeptBelow m0 m m' E) (h' : KeptBelow m0 m' m'' E) :
    KeptBelow m0 m m'' E where
  wf := h'.wf
  num2 := h'.num2.trans h.num2
  coordinates := fun i hi => (h'.coordinates i hi).trans (h.coordinates i hi)
  extremes := fun i a b hi he ha hb => h'.extremes i a b hi (h.extremes i a b hi he ha hb) ha hb
  active := fun d x hd hx he => (h'.active d x hd hx he).trans (h.active d x hd hx he)
  updated := fun i hi => (h'.updated i hi).trans (h.updated i hi)
  marker := fun d i hd hi => (h'.marker d i hd hi).trans (h.marker d i hd hi)
  vertices := fun i r hi hr hy => h'.vertices i r hi (h.vertices i r hi hr hy) hy
  edges := fun i r hi hr hy => h'.edges i r hi (h.edges i r hi hr hy) hy
  polygons := fun x hx => (h'.polygons x hx).trans (h.polygons x hx)

theorem KeptBelow.mono {m0 m m' : Mesh K} {E E' : Nat → Prop} (h : KeptBelow m0 m m' E) (hE : ∀ x, E x → E' x) :
    KeptBelow m0 m m' E' where
  wf := h.wf
  num2 := h.num2
  coordinates := h.coordinates
  extremes := h.extremes
  active := fun d x hd hx he => h.active d x hd hx (fun hd' hc => he hd' (hE x hc))
  updated := h.updated
  marker := h.marker
  vertices := h.vertices
  edges := h.edges
  polygons := h.polygons

theorem oldNumber_below {d e : Dim} {i j n : Nat} (hn : n ≤ i) (hj : e = d → j < n) : oldNumber d i e j = j := by
  unfold oldNumber
  split
  · rename_i h
    unfold oldIndex
    rw [if_pos (by have := hj h; omega)]
  · rfl

/-- A later cell is removed. -/
theorem keptBelow_remove [Zero K] {m0 m : Mesh K} (h : m.WF) {d : Dim} (hd : d = .d0 ∨ d = .d1) {i : Nat}
    (h0 : m0.num d ≤ i) (hi : i < m.num d) (hle : ∀ e, e ≠ .d3 → m0.num e ≤ m.num e) :
    ∃ m', m.remove d i = ok m' ∧ m'.num d = m.num d - 1 ∧ (∀ e, e ≠ d → m'.num e = m.num e) ∧
      KeptBelow m0 m m' (fun _ => False) := by
  obtain ⟨A, hA, rfl⟩ := AMesh.exists_conc h
  have hi' : i < A.num d := hi
  have hrun := AMesh.remove_conc hA d hi'
  have hwf := AMesh.ok_remove hA d hi'
  obtain ⟨m', hm', hw', hr⟩ := c03_remove A.conc h d i hi
  rw [hrun] at hm'
  cases hm'
  have hnum : ∀ e, e ≠ .d3 → m0.num e ≤ (A.remove d i).conc.num e := by
    intro e he
    by_cases hed : e = d
    · subst hed
      rw [hr.num]
      omega
    · rw [hr.num_other e hed]
      exact hle e he
  have hold : ∀ e j, j < m0.num e → oldNumber d i e j = j := by
    intro e j hj
    exact oldNumber_below h0 (fun he => he ▸ hj)
  have hrow : ∀ (l : Lst) (j : Nat) (r : List Nat), l ≠ .sub2 → j < m0.num l.owner → A.conc.row l j = ok r →
      (l.target = d → ∀ y ∈ r, y < m0.num d) → (A.remove d i).conc.row l j = ok r := by
    intro l j r hs hj hrow hy
    have hr' := AMesh.row_eq_ok hA hrow
    apply AMesh.row_conc hwf
    rw [AMesh.rows_remove, hold _ _ hj, hr']
    simp only [Option.map_some, Option.some.injEq]
    conv_rhs => rw [← List.map_id r]
    apply List.map_congr_left
    intro y hyr
    by_cases ht : l.target = d
    · rw [AMesh.renumber_target d i ht hs]
      have := hy ht y hyr
      unfold align
      rw [if_neg (by omega), if_neg (by omega)]
      rfl
    · simp [AMesh.renumber, ht]
  refine ⟨_, hrun, hr.num, hr.num_other, ?_⟩
  have h2 : d ≠ .d2 := by rcases hd with rfl | rfl <;> simp
  constructor
  · exact hw'
  · exact hr.num_other .d2 (Ne.symm h2)
  · intro j hj
    rw [hr.coordinates j (Nat.lt_of_lt_of_le hj (hnum .d0 (by simp))), hold _ _ hj]
  · intro j a b hj he ha hb
    rcases hd with rfl | rfl
    · obtain ⟨a', b', e1, e2⟩ := AMesh.extremes_remove0 hA hi' j (Nat.lt_of_lt_of_le hj (hle .d1 (by simp)))
      rw [e1] at he
      cases he
      rw [e2]
      unfold align
      rw [if_neg (by omega), if_neg (by omega), if_neg (by omega), if_neg (by omega)]
    · rw [hr.extremes (by simp) j (Nat.lt_of_lt_of_le hj (hnum .d1 (by simp))), hold _ _ hj, he]
  · intro e x he hx _
    rw [hr.active e x (Nat.lt_of_lt_of_le hx (hnum e he)), hold _ _ hx]
  · intro j _
    exact hr.updated .d2 j (Ne.symm h2)
  · intro e x he hx
    rw [hr.marker e x (Nat.lt_of_lt_of_le hx (hnum e he)), hold _ _ hx]
  · intro j r hj hr' hy
    exact hrow .vert2 j r (by simp) hj hr' (fun ht => by subst ht; exact hy)
  · intro j r hj hr' hy
    exact hrow .edge2 j r (by simp) hj hr' (fun ht => by subst ht; exact hy)
  · intro x hx
    obtain ⟨r, hr'⟩ := AMesh.getElem?_row hA (l := .nb12) (j := x) (Nat.lt_of_lt_of_le hx (hle .d1 (by simp)))
    have hr'' := AMesh.row_conc hA hr'
    rw [hr'']
    exact hrow .nb12 x r (by simp) hx hr'' (fun ht => absurd ht (Ne.symm h2))

/-- An edge is made active. -/
theorem keptBelow_setAct {m0 m : Mesh K} (h : m.WF) {e : Nat} (he : e < m.num .d1) (hle : ∀ e, e ≠ .d3 → m0.num e ≤ m.num e) :
    ∃ m', m.setAct .d1 e true = ok m' ∧ m'.num = m.num ∧ m'.active .d1 e = ok true ∧ KeptBelow m0 m m' (fun x => x = e) := by
  have hl : e < (m.act .d1).length := by rw [h.act]; exact he
  have hrun := Mesh.setAct_of (a := true) he hl
  refine ⟨_, hrun, rfl, ?_, ?_⟩
  · unfold Mesh.active
    rw [assert_true (show e < m.num .d1 from he), ok_bind, vget_eq_ok]
    simp only [fset_self]
    rw [List.getElem?_set_self hl]
  constructor
  · exact ⟨h.coord, h.ext, h.mark, by
      intro d
      by_cases hd : d = .d1
      · subst hd; simpa using h.act .d1
      · simpa [fset_ne _ _ hd] using h.act d, h.orig0, h.orig, h.upd, h.ids, h.ids_nodup, h.props, h.lists⟩
  · rfl
  · intro i _; rfl
  · intro i a b _ h' _ _; exact h'
  · intro d x hd hx hne
    have hx' := Nat.lt_of_lt_of_le hx (hle d hd)
    refine active_congr (m := m) hx' hx' ?_
    by_cases h1 : d = .d1
    · subst h1
      simp only [fset_self]
      rw [List.getElem?_set_ne (fun hc => hne rfl hc.symm)]
    · simp only [fset_ne _ _ h1]
  · intro i _; rfl
  · intro d i _ _; rfl
  · intro i r _ h' _; exact h'
  · intro i r _ h' _; exact h'
  · intro x _; rfl

variable [Field K] [LinearOrder K] [IsStrictOrderedRing K]

/-- The halves of a side and the vertex between them are removed and the side is made active. -/
theorem keptBelow_halves {m0 m : Mesh K} (h : m.WF) {h0 : Nat} (hb : m0.num .d1 ≤ h0) (hn : m.num .d1 = h0 + 2)
    (hle : ∀ e, e ≠ .d3 → m0.num e ≤ m.num e) :
    ∃ m', m.removeHalves [h0, h0 + 1] = ok m' ∧ m'.num .d1 = h0 ∧ (∀ e, e ≠ .d1 → m'.num e = m.num e) ∧
      KeptBelow m0 m m' (fun _ => False) := by
  obtain ⟨m1, r1, n1, o1, k1⟩ := keptBelow_remove (m0 := m0) h (Or.inr rfl) (i := h0 + 1) (by omega) (by omega) hle
  have hle1 : ∀ e, e ≠ .d3 → m0.num e ≤ m1.num e := by
    intro e he
    by_cases h1 : e = .d1
    · subst h1; omega
    · rw [o1 e h1]; exact hle e he
  obtain ⟨m2, r2, n2, o2, k2⟩ := keptBelow_remove (m0 := m0) k1.wf (Or.inr rfl) (i := h0) (by omega) (by omega) hle1
  refine ⟨m2, ?_, by omega, fun e he => (o2 e he).trans (o1 e he), k1.trans k2⟩
  unfold Mesh.removeHalves
  rw [show vget [h0, h0 + 1] 1 = ok (h0 + 1) from rfl, ok_bind, r1, ok_bind, show vget [h0, h0 + 1] 0 = ok h0 from rfl,
    ok_bind, r2]

/-- The states of the sides are all that is left of the halving. -/
theorem HalvedSides.kept {m mid : Mesh K} {es S : List Nat} (h : HalvedSides m mid es S) :
    KeptBelow m m mid (fun x => ∃ i ∈ S, es[i]? = some x) where
  wf := h.wf
  num2 := h.num2
  coordinates := h.coordinates
  extremes := fun i a b hi he _ _ => (h.extremes i hi).trans he
  active := by
    intro d x hd hx hne
    cases d with
    | d0 => exact h.active0 x hx
    | d1 => exact h.active1 x hx (fun i hi hc => hne rfl ⟨i, hi, hc⟩)
    | d2 => exact h.active2 x hx
    | d3 => exact absurd rfl hd
  updated := h.updated
  marker := h.marker
  vertices := fun i r hi hr _ => (h.vertices i hi).trans hr
  edges := fun i r hi hr _ => (h.edges i hi).trans hr
  polygons := h.polygons

theorem KeptBelow.givenUp {m m' : Mesh K} {es S : List Nat} (h : KeptBelow m m m' (fun x => ∃ i ∈ S, es[i]? = some x))
    (hn : ∀ d, d ≠ .d3 → m'.num d = m.num d) (hs : ∀ i e, i ∈ S → es[i]? = some e → m'.active .d1 e = ok true) :
    GivenUp m m' es S where
  wf := h.wf
  num := hn
  coordinates := h.coordinates
  extremes := fun i a b he ha hb => h.extremes i a b (lt_of_extremes he) he ha hb
  sides := hs
  active := by
    intro d x hd hx hne
    apply h.active d x hd hx
    rintro hd' ⟨i, hi, he⟩
    exact hne hd' i hi he
  updated := h.updated
  marker := h.marker
  vertices := fun i r hr hy => h.vertices i r (lt_of_row hr) hr hy
  edges := fun i r hr hy => h.edges i r (lt_of_row hr) hr hy
  polygons := h.polygons

/-- One halved side is made whole. -/
theorem giveUp_one {m mid : Mesh K} {es : List Nat} {i e : Nat} (h : HalvedSides m mid es [i]) (hi : es[i]? = some e)
    (he : e < m.num .d1) :
    ∃ m1 m2 m3, mid.removeHalves [m.num .d1, m.num .d1 + 1] = ok m1 ∧ m1.remove .d0 (m.num .d0) = ok m2 ∧
      m2.setAct .d1 e true = ok m3 ∧ GivenUp m m3 es [i] := by
  have n0 := h.num0
  have n1 := h.num1
  have n2 := h.num2
  simp only [List.length_singleton] at n0 n1
  have hle : ∀ d, d ≠ .d3 → m.num d ≤ mid.num d := by
    intro d hd
    cases d <;> first | omega | exact absurd rfl hd
  obtain ⟨m1, r1, a1, o1, k1⟩ := keptBelow_halves (m0 := m) h.wf (h0 := m.num .d1) (Nat.le_refl _) (by omega) hle
  have b0 := o1 .d0 (by simp)
  have b2 := o1 .d2 (by simp)
  have hle1 : ∀ d, d ≠ .d3 → m.num d ≤ m1.num d := by
    intro d hd
    cases d <;> first | omega | exact absurd rfl hd
  obtain ⟨m2, r2, a2, o2, k2⟩ := keptBelow_remove (m0 := m) k1.wf (Or.inl rfl) (i := m.num .d0) (Nat.le_refl _) (by omega) hle1
  have c1 := o2 .d1 (by simp)
  have c2 := o2 .d2 (by simp)
  have hle2 : ∀ d, d ≠ .d3 → m.num d ≤ m2.num d := by
    intro d hd
    cases d <;> first | omega | exact absurd rfl hd
  obtain ⟨m3, r3, a3, s3, k3⟩ := keptBelow_setAct (m0 := m) k2.wf (e := e) (by omega) hle2
  refine ⟨m1, m2, m3, r1, r2, r3, ?_⟩
  have k := ((h.kept.trans (k1.mono (by simp))).trans (k2.mono (by simp))).trans
    (k3.mono (E' := fun x => ∃ j ∈ [i], es[j]? = some x) (by rintro x rfl; exact ⟨i, by simp, hi⟩))
  refine k.givenUp ?_ ?_
  · intro d hd
    rw [a3]
    cases d <;> first | omega | exact absurd rfl hd
  · intro j x hj hx
    simp only [List.mem_singleton] at hj
    subst hj
    rw [hi] at hx
    cases hx
    exact s3

/-- Two halved sides are made whole. -/
theorem giveUp_two {m mid : Mesh K} {es : List Nat} {i j e f : Nat} (h : HalvedSides m mid es [i, j]) (hi : es[i]? = some e)
    (hj : es[j]? = some f) (hne : f ≠ e) (he : e < m.num .d1) (hf : f < m.num .d1) :
    ∃ m1 m2 m3 m4 m5 m6, mid.removeHalves [m.num .d1 + 2, m.num .d1 + 2 + 1] = ok m1 ∧
      m1.removeHalves [m.num .d1, m.num .d1 + 1] = ok m2 ∧ m2.remove .d0 (m.num .d0 + 1) = ok m3 ∧
      m3.remove .d0 (m.num .d0) = ok m4 ∧ m4.setAct .d1 f true = ok m5 ∧ m5.setAct .d1 e true = ok m6 ∧
      GivenUp m m6 es [i, j] := by
  have n0 := h.num0
  have n1 := h.num1
  have n2 := h.num2
  simp only [List.length_cons, List.length_nil] at n0 n1
  have hle : ∀ d, d ≠ .d3 → m.num d ≤ mid.num d := by
    intro d hd
    cases d <;> first | omega | exact absurd rfl hd
  obtain ⟨m1, r1, a1, o1, k1⟩ := keptBelow_halves (m0 := m) h.wf (h0 := m.num .d1 + 2) (by omega) (by omega) hle
  have b0 := o1 .d0 (by simp)
  have b2 := o1 .d2 (by simp)
  have hle1 : ∀ d, d ≠ .d3 → m.num d ≤ m1.num d := by
    intro d hd
    cases d <;> first | omega | exact absurd rfl hd
  obtain ⟨m2, r2, a2, o2, k2⟩ := keptBelow_halves (m0 := m) k1.wf (h0 := m.num .d1) (by omega) (by omega) hle1
  have c0 := o2 .d0 (by simp)
  have c2 := o2 .d2 (by simp)
  have hle2 : ∀ d, d ≠ .d3 → m.num d ≤ m2.num d := by
    intro d hd
    cases d <;> first | omega | exact absurd rfl hd
  obtain ⟨m3, r3, a3, o3, k3⟩ := keptBelow_remove (m0 := m) k2.wf (Or.inl rfl) (i := m.num .d0 + 1) (by omega) (by omega) hle2
  have d1 := o3 .d1 (by simp)
  have d2 := o3 .d2 (by simp)
  have hle3 : ∀ d, d ≠ .d3 → m.num d ≤ m3.num d := by
    intro d hd
    cases d <;> first | omega | exact absurd rfl hd
  obtain ⟨m4, r4, a4, o4, k4⟩ := keptBelow_remove (m0 := m) k3.wf (Or.inl rfl) (i := m.num .d0) (by omega) (by omega) hle3
  have e1 := o4 .d1 (by simp)
  have e2 := o4 .d2 (by simp)
  have hle4 : ∀ d, d ≠ .d3 → m.num d ≤ m4.num d := by
    intro d hd
    cases d <;> first | omega | exact absurd rfl hd
  obtain ⟨m5, r5, a5, s5, k5⟩ := keptBelow_setAct (m0 := m) k4.wf (e := f) (by omega) hle4
  obtain ⟨m6, r6, a6, s6, k6⟩ := keptBelow_setAct (m0 := m) k5.wf (e := e) (by rw [a5]; omega) (by rw [a5]; exact hle4)
  refine ⟨m1, m2, m3, m4, m5, m6, r1, r2, r3, r4, r5, r6, ?_⟩
  have k := (((((h.kept.trans (k1.mono (by simp))).trans (k2.mono (by simp))).trans (k3.mono (by simp))).trans
    (k4.mono (by simp))).trans (k5.mono (E' := fun x => ∃ k ∈ [i, j], es[k]? = some x)
      (by rintro x rfl; exact ⟨j, by simp, hj⟩))).trans
    (k6.mono (E' := fun x => ∃ k ∈ [i, j], es[k]? = some x) (by rintro x rfl; exact ⟨i, by simp, hi⟩))
  refine k.givenUp ?_ ?_
  · intro d hd
    rw [a6, a5]
    cases d <;> first | omega | exact absurd rfl hd
  · intro t x ht hx
    simp only [List.mem_cons, List.not_mem_nil, or_false] at ht
    rcases ht with rfl | rfl
    · rw [hi] at hx
      cases hx
      exact s6
    · rw [hj] at hx
      cases hx
      rw [k6.active .d1 _ (by simp) hf (fun _ => hne)]
      exact s5

end Verif
