import Verif.Split3Model
import Verif.Split3Spec
import Verif.SplitLemmas

/-
Helper lemmas: the split of a polyhedron on the mesh of plain rows.
-/
namespace Verif

open Res

namespace AMesh

variable {α : Type} {A : AMesh α}

/-- One round of `SplitCell3D`; `k` is the marker of the cell. -/
def splitA3 (A : AMesh α) (c new k : Nat) (sub : SubCell3) : AMesh α :=
  { A with
    mark := fset A.mark .d3 ((A.mark .d3).set new k)
    act := fset A.act .d3 ((A.act .d3).set new true)
    upd := fset A.upd .d3 (updInsert (A.upd .d3) c new)
    orig := fset A.orig .d3 ((A.orig .d3).set new c)
    rows := fun l => match l with
      | .vert3 => (A.rows .vert3).set new sub.vertices
      | .edge3 => (A.rows .edge3).set new sub.edges
      | .face3 => (A.rows .face3).set new sub.faces
      | .nb03 => (A.rows .nb03).mapIdx fun x r => if x ∈ sub.vertices then repl c new r else r
      | .nb13 => (A.rows .nb13).mapIdx fun x r => if x ∈ sub.edges then repl c new r else r
      | .nb23 => (A.rows .nb23).mapIdx fun x r => if x ∈ sub.faces then repl c new r else r
      | l => A.rows l }

theorem ok_splitA3 (h : A.Ok) {c new k : Nat} {sub : SubCell3}
    (hc : c < A.num .d3) (hn : new < A.num .d3) : (A.splitA3 c new k sub).Ok where
  coord := h.coord
  ext := h.ext
  mark := by
    intro d
    by_cases hd : d = .d3
    · subst hd; simpa [splitA3] using h.mark .d3
    · simpa [splitA3, fset_ne _ _ hd] using h.mark d
  act := by
    intro d
    by_cases hd : d = .d3
    · subst hd; simpa [splitA3] using h.act .d3
    · simpa [splitA3, fset_ne _ _ hd] using h.act d
  orig0 := by
    simpa [splitA3, fset] using h.orig0
  orig := by
    intro d hd0
    by_cases hd : d = .d3
    · subst hd; simpa [splitA3] using h.orig .d3 (by simp)
    · simpa [splitA3, fset_ne _ _ hd] using h.orig d hd0
  upd := by
    intro d
    by_cases hd : d = .d3
    · subst hd
      simpa [splitA3] using updOk_updInsert (h.upd .d3) hc hn
    · simpa [splitA3, fset_ne _ _ hd] using h.upd d
  ids := h.ids
  ids_nodup := h.ids_nodup
  props := h.props
  rows := by
    intro l
    have := h.rows l
    cases l <;> simpa [splitA3] using this

private def setMarkA3 (B : AMesh α) (new k : Nat) : AMesh α :=
  { B with mark := fset B.mark .d3 ((B.mark .d3).set new k) }

private def setStateA3 (B : AMesh α) (new k : Nat) : AMesh α :=
  { setMarkA3 B new k with act := fset B.act .d3 ((B.act .d3).set new true) }

private def setUpdA3 (B : AMesh α) (c new k : Nat) : AMesh α :=
  { setStateA3 B new k with
    upd := fset B.upd .d3 (updInsert (B.upd .d3) c new)
    orig := fset B.orig .d3 ((B.orig .d3).set new c) }

theorem splitOne3_conc (h : A.Ok) {c new k : Nat} {sub : SubCell3}
    (hc : c < A.num .d3) (hn : new < A.num .d3) (hne : new ≠ c) (hk : (A.mark .d3)[c]? = some k)
    (hv : ∀ x ∈ sub.vertices, x < A.num .d0) (he : ∀ x ∈ sub.edges, x < A.num .d1)
    (hf : ∀ x ∈ sub.faces, x < A.num .d2) :
    A.conc.splitOne3 c new sub = ok (A.splitA3 c new k sub).conc := by
  unfold Mesh.splitOne3
  have h1 := ok_setRow h .vert3 new sub.vertices
  have h2 := ok_setRow h1 .edge3 new sub.edges
  have hB := ok_setRow h2 .face3 new sub.faces
  rw [addRow_conc h (l := .vert3) hn (by simp) hv, ok_bind,
    addRow_conc h1 (l := .edge3) hn (by simp) he, ok_bind,
    addRow_conc h2 (l := .face3) hn (by simp) hf, ok_bind]
  generalize hBe : ((A.setRow .vert3 new sub.vertices).setRow .edge3 new sub.edges).setRow .face3 new
    sub.faces = B at hB
  have hBn : B.num = A.num := by rw [← hBe]; rfl
  have hBm : B.mark = A.mark := by rw [← hBe]; rfl
  have e1 : B.conc.marker .d3 c = ok k := by
    unfold Mesh.marker
    show (do assert (c < B.num .d3); vget (B.mark .d3) c) = _
    rw [hBn, hBm, assert_true hc, ok_bind]
    exact vget_eq_ok.2 hk
  rw [e1, ok_bind]
  have e2 : B.conc.setMark .d3 new k =
      ok (setMarkA3 B new k).conc := by
    unfold Mesh.setMark
    show (do assert (new < B.num .d3); let l ← vset (B.mark .d3) new k; _) = _
    rw [assert_true (by rw [hBn]; exact hn), ok_bind,
      vset_of_lt _ (by rw [hB.mark, hBn]; exact hn), ok_bind]
    rfl
  rw [e2, ok_bind]
  have e3 : ((setMarkA3 B new k).conc).setAct .d3
      new true = ok (setStateA3 B new k).conc := by
    unfold Mesh.setAct
    show (do assert (new < B.num .d3); let l ← vset (B.act .d3) new true; _) = _
    rw [assert_true (by rw [hBn]; exact hn), ok_bind,
      vset_of_lt _ (by rw [hB.act, hBn]; exact hn), ok_bind]
    rfl
  rw [e3, ok_bind]
  have e4 : ((setStateA3 B new k).conc).insertUpd .d3 c new =
      ok (setUpdA3 B c new k).conc := by
    rw [Mesh.insertUpd_eq]
    show (do assert (c < B.num .d3); assert (new < B.num .d3); _) = _
    rw [assert_true (by rw [hBn]; exact hc), assert_true (by rw [hBn]; exact hn), ok_bind, ok_bind,
      if_neg (by simp)]
    show (do let o ← vset (B.orig .d3) new c; _) = _
    rw [vset_of_lt _ (by rw [hB.orig _ (by simp), hBn]; exact hn), ok_bind]
    rfl
  rw [e4, ok_bind]
  generalize hCe : (setUpdA3 B c new k) = C
  have hCn : C.num = A.num := by rw [← hCe]; exact hBn
  have hCrows : C.rows = B.rows := by rw [← hCe]; rfl
  have hvl : new < (A.rows .vert3).length := by rw [h.rows]; exact hn
  have hel : new < (A.rows .edge3).length := by rw [h.rows]; exact hn
  have hfl : new < (A.rows .face3).length := by rw [h.rows]; exact hn
  have hBrows : ∀ l, B.rows l = if l = .edge3 then (A.rows .edge3).set new sub.edges
      else if l = .vert3 then (A.rows .vert3).set new sub.vertices
      else if l = .face3 then (A.rows .face3).set new sub.faces else A.rows l := by
    intro l
    rw [← hBe]
    simp only [setRow, setRows, fset]
    cases l <;> simp
  have hC : C.Ok := by
    rw [← hCe]
    refine ⟨hB.coord, hB.ext, ?_, ?_, ?_, ?_, ?_, hB.ids, hB.ids_nodup, hB.props, hB.rows⟩
    · intro d
      by_cases hd : d = .d3
      · subst hd; simpa [setUpdA3, setStateA3, setMarkA3] using hB.mark .d3
      · simpa [setUpdA3, setStateA3, setMarkA3, fset_ne _ _ hd] using hB.mark d
    · intro d
      by_cases hd : d = .d3
      · subst hd; simpa [setUpdA3, setStateA3, setMarkA3] using hB.act .d3
      · simpa [setUpdA3, setStateA3, setMarkA3, fset_ne _ _ hd] using hB.act d
    · simpa [setUpdA3, setStateA3, setMarkA3, fset] using hB.orig0
    · intro d hd0
      by_cases hd : d = .d3
      · subst hd; simpa [setUpdA3, setStateA3, setMarkA3] using hB.orig .d3 (by simp)
      · simpa [setUpdA3, setStateA3, setMarkA3, fset_ne _ _ hd] using hB.orig d hd0
    · intro d
      by_cases hd : d = .d3
      · subst hd
        simpa [setUpdA3, setStateA3, setMarkA3] using updOk_updInsert (hB.upd .d3) (by rw [hBn]; exact hc) (by rw [hBn]; exact hn)
      · simpa [setUpdA3, setStateA3, setMarkA3, fset_ne _ _ hd] using hB.upd d
  have hCv : (C.rows .vert3)[new]? = some sub.vertices := by
    rw [hCrows, hBrows]; simp [hvl]
  rw [replaceAround_conc (b := .vert3) hC (by simp) hCv
    (by intro x hx; rw [hCn]; exact hv x hx) hne (by rw [hCn]; exact hc) (by rw [hCn]; exact hn), ok_bind]
  have hD := ok_mapRows hC .nb03 (fun x r => if x ∈ sub.vertices then repl c new r else r)
  have hDe : ((C.mapRows .nb03 fun x r => if x ∈ sub.vertices then repl c new r else r).rows
      .edge3)[new]? = some sub.edges := by
    unfold mapRows
    rw [setRows_rows_ne _ _ (by simp), hCrows, hBrows]; simp [hel]
  rw [replaceAround_conc (b := .edge3) hD (by simp) hDe
    (by intro x hx; show _ < C.num _; rw [hCn]; exact he x hx) hne (by show _ < C.num _; rw [hCn]; exact hc)
      (by show _ < C.num _; rw [hCn]; exact hn), ok_bind]
  have hE := ok_mapRows hD .nb13 (fun x r => if x ∈ sub.edges then repl c new r else r)
  generalize hEe : (C.mapRows .nb03 fun x r => if x ∈ sub.vertices then repl c new r else r).mapRows
    .nb13 (fun x r => if x ∈ sub.edges then repl c new r else r) = E at hE
  have hEn : E.num = A.num := by rw [← hEe]; exact hCn
  have hEr : (E.rows .face3)[new]? = some sub.faces := by
    rw [← hEe]
    unfold mapRows
    rw [setRows_rows_ne _ _ (by simp), setRows_rows_ne _ _ (by simp), hCrows, hBrows]
    simp [hfl]
  rw [replaceAround_conc (b := .face3) hE (by simp) hEr
    (by intro x hx; rw [hEn]; exact hf x hx) hne (by rw [hEn]; exact hc) (by rw [hEn]; exact hn)]
  congr 2
  rw [← hEe, ← hCe, ← hBe]
  simp only [setUpdA3, setStateA3, setMarkA3, setRow, setRows, mapRows, splitA3, AMesh.mk.injEq, true_and]
  funext l
  cases l <;> simp [fset]

/-- The loop over the sub-cells. -/
def splitAll3 (A : AMesh α) (c k : Nat) : Nat → List SubCell3 → AMesh α
  | _, [] => A
  | new, s :: ss => splitAll3 (A.splitA3 c new k s) c k (new + 1) ss

theorem splitAll3_num (A : AMesh α) (c k : Nat) (new : Nat)
    (ss : List SubCell3) : (A.splitAll3 c k new ss).num = A.num := by
  induction ss generalizing A new with
  | nil => rfl
  | cons s ss ih => rw [splitAll3, ih]; rfl

theorem splitFrom3_conc {c k : Nat} {ss : List SubCell3} {new : Nat}
    {A : AMesh α} (h : A.Ok) (hc : c < new) (hn : new + ss.length = A.num .d3)
    (hk : (A.mark .d3)[c]? = some k)
    (hs : ∀ s ∈ ss, (∀ x ∈ s.vertices, x < A.num .d0) ∧ (∀ x ∈ s.edges, x < A.num .d1) ∧
      ∀ x ∈ s.faces, x < A.num .d2) :
    A.conc.splitFrom3 c new ss = ok (A.splitAll3 c k new ss).conc ∧ (A.splitAll3 c k new ss).Ok := by
  induction ss generalizing A new with
  | nil => exact ⟨rfl, h⟩
  | cons s ss ih =>
    simp only [List.length_cons] at hn
    obtain ⟨s1, s2, s3⟩ := hs s (by simp)
    rw [Mesh.splitFrom3, splitAll3, splitOne3_conc h (by omega) (by omega) (by omega) hk s1 s2 s3, ok_bind]
    apply ih (ok_splitA3 h (by omega) (by omega)) (by omega)
    · show _ = A.num .d3
      omega
    · show (fset A.mark .d3 ((A.mark .d3).set new k) .d3)[c]? = some k
      rw [fset_self, List.getElem?_set_ne (by omega), hk]
    · intro s' hs'
      exact hs s' (by simp [hs'])

/-! Fields after the loop. -/

section fields

variable (c k : Nat)

theorem splitAll3_frame (A : AMesh α) (new : Nat) (ss : List SubCell3) :
    (A.splitAll3 c k new ss).dimension = A.dimension ∧ (A.splitAll3 c k new ss).coord = A.coord ∧
    (A.splitAll3 c k new ss).ext = A.ext ∧ (A.splitAll3 c k new ss).ids = A.ids ∧
    (A.splitAll3 c k new ss).props = A.props ∧
    (∀ d, d ≠ .d3 → (A.splitAll3 c k new ss).mark d = A.mark d ∧
      (A.splitAll3 c k new ss).act d = A.act d ∧ (A.splitAll3 c k new ss).upd d = A.upd d ∧
      (A.splitAll3 c k new ss).orig d = A.orig d) ∧
    ∀ l, l ≠ .vert3 → l ≠ .edge3 → l ≠ .face3 → l ≠ .nb03 → l ≠ .nb13 → l ≠ .nb23 →
      (A.splitAll3 c k new ss).rows l = A.rows l := by
  induction ss generalizing A new with
  | nil => simp [splitAll3]
  | cons s ss ih =>
    rw [splitAll3]
    obtain ⟨h1, h2, h3, h4, h5, h6, h7⟩ := ih (A.splitA3 c new k s) (new + 1)
    refine ⟨h1, h2, h3, h4, h5, ?_, ?_⟩
    · intro d hd
      obtain ⟨a1, a2, a3, a4⟩ := h6 d hd
      rw [a1, a2, a3, a4]
      simp [splitA3, fset_ne _ _ hd]
    · intro l l1 l2 l3 l4 l5 l6
      rw [h7 l l1 l2 l3 l4 l5 l6]
      cases l <;> first | rfl | contradiction

theorem splitAll3_mark (A : AMesh α) (new : Nat) (ss : List SubCell3)
    (hl : new + ss.length ≤ (A.mark .d3).length) (i : Nat) :
    ((A.splitAll3 c k new ss).mark .d3)[i]? =
      if new ≤ i ∧ i < new + ss.length then some k else (A.mark .d3)[i]? := by
  induction ss generalizing A new with
  | nil => rw [if_neg (by simp)]; rfl
  | cons s ss ih =>
    simp only [List.length_cons] at hl ⊢
    rw [splitAll3, ih _ _ (by simp [splitA3]; omega)]
    simp only [splitA3, fset_self]
    by_cases h1 : new + 1 ≤ i ∧ i < new + 1 + ss.length
    · rw [if_pos h1, if_pos (by omega)]
    · rw [if_neg h1]
      by_cases h2 : new = i
      · subst h2
        rw [if_pos (by omega), List.getElem?_set_self (by omega)]
      · rw [if_neg (by omega), List.getElem?_set_ne h2]

theorem splitAll3_act (A : AMesh α) (new : Nat) (ss : List SubCell3)
    (hl : new + ss.length ≤ (A.act .d3).length) (i : Nat) :
    ((A.splitAll3 c k new ss).act .d3)[i]? =
      if new ≤ i ∧ i < new + ss.length then some true else (A.act .d3)[i]? := by
  induction ss generalizing A new with
  | nil => rw [if_neg (by simp)]; rfl
  | cons s ss ih =>
    simp only [List.length_cons] at hl ⊢
    rw [splitAll3, ih _ _ (by simp [splitA3]; omega)]
    simp only [splitA3, fset_self]
    by_cases h1 : new + 1 ≤ i ∧ i < new + 1 + ss.length
    · rw [if_pos h1, if_pos (by omega)]
    · rw [if_neg h1]
      by_cases h2 : new = i
      · subst h2
        rw [if_pos (by omega), List.getElem?_set_self (by omega)]
      · rw [if_neg (by omega), List.getElem?_set_ne h2]

theorem splitAll3_orig (A : AMesh α) (new : Nat) (ss : List SubCell3)
    (hl : new + ss.length ≤ (A.orig .d3).length) (i : Nat) :
    ((A.splitAll3 c k new ss).orig .d3)[i]? =
      if new ≤ i ∧ i < new + ss.length then some c else (A.orig .d3)[i]? := by
  induction ss generalizing A new with
  | nil => rw [if_neg (by simp)]; rfl
  | cons s ss ih =>
    simp only [List.length_cons] at hl ⊢
    rw [splitAll3, ih _ _ (by simp [splitA3]; omega)]
    simp only [splitA3, fset_self]
    by_cases h1 : new + 1 ≤ i ∧ i < new + 1 + ss.length
    · rw [if_pos h1, if_pos (by omega)]
    · rw [if_neg h1]
      by_cases h2 : new = i
      · subst h2
        rw [if_pos (by omega), List.getElem?_set_self (by omega)]
      · rw [if_neg (by omega), List.getElem?_set_ne h2]

theorem splitAll3_vert3 (A : AMesh α) (new : Nat) (ss : List SubCell3)
    (hl : new + ss.length ≤ (A.rows .vert3).length) :
    (∀ i s, ss[i]? = some s →
      ((A.splitAll3 c k new ss).rows .vert3)[new + i]? = some s.vertices) ∧
    ∀ i, i < new → ((A.splitAll3 c k new ss).rows .vert3)[i]? = (A.rows .vert3)[i]? := by
  induction ss generalizing A new with
  | nil => simp [splitAll3]
  | cons s ss ih =>
    simp only [List.length_cons] at hl
    obtain ⟨h1, h2⟩ := ih (A.splitA3 c new k s) (new + 1) (by simp [splitA3]; omega)
    rw [splitAll3]
    constructor
    · intro i t ht
      cases i with
      | zero =>
        rw [h2 (new + 0) (by omega)]
        simp only [List.getElem?_cons_zero, Option.some.injEq] at ht
        subst ht
        simp only [splitA3]
        exact List.getElem?_set_self (by omega)
      | succ i =>
        rw [show new + (i + 1) = new + 1 + i by omega]
        exact h1 i t (by simpa using ht)
    · intro i hi
      rw [h2 i (by omega)]
      simp only [splitA3]
      rw [List.getElem?_set_ne (by omega)]

theorem splitAll3_edge3 (A : AMesh α) (new : Nat) (ss : List SubCell3)
    (hl : new + ss.length ≤ (A.rows .edge3).length) :
    (∀ i s, ss[i]? = some s →
      ((A.splitAll3 c k new ss).rows .edge3)[new + i]? = some s.edges) ∧
    ∀ i, i < new → ((A.splitAll3 c k new ss).rows .edge3)[i]? = (A.rows .edge3)[i]? := by
  induction ss generalizing A new with
  | nil => simp [splitAll3]
  | cons s ss ih =>
    simp only [List.length_cons] at hl
    obtain ⟨h1, h2⟩ := ih (A.splitA3 c new k s) (new + 1) (by simp [splitA3]; omega)
    rw [splitAll3]
    constructor
    · intro i t ht
      cases i with
      | zero =>
        rw [h2 (new + 0) (by omega)]
        simp only [List.getElem?_cons_zero, Option.some.injEq] at ht
        subst ht
        simp only [splitA3]
        exact List.getElem?_set_self (by omega)
      | succ i =>
        rw [show new + (i + 1) = new + 1 + i by omega]
        exact h1 i t (by simpa using ht)
    · intro i hi
      rw [h2 i (by omega)]
      simp only [splitA3]
      rw [List.getElem?_set_ne (by omega)]

theorem splitAll3_face3 (A : AMesh α) (new : Nat) (ss : List SubCell3)
    (hl : new + ss.length ≤ (A.rows .face3).length) :
    (∀ i s, ss[i]? = some s →
      ((A.splitAll3 c k new ss).rows .face3)[new + i]? = some s.faces) ∧
    ∀ i, i < new → ((A.splitAll3 c k new ss).rows .face3)[i]? = (A.rows .face3)[i]? := by
  induction ss generalizing A new with
  | nil => simp [splitAll3]
  | cons s ss ih =>
    simp only [List.length_cons] at hl
    obtain ⟨h1, h2⟩ := ih (A.splitA3 c new k s) (new + 1) (by simp [splitA3]; omega)
    rw [splitAll3]
    constructor
    · intro i t ht
      cases i with
      | zero =>
        rw [h2 (new + 0) (by omega)]
        simp only [List.getElem?_cons_zero, Option.some.injEq] at ht
        subst ht
        simp only [splitA3]
        exact List.getElem?_set_self (by omega)
      | succ i =>
        rw [show new + (i + 1) = new + 1 + i by omega]
        exact h1 i t (by simpa using ht)
    · intro i hi
      rw [h2 i (by omega)]
      simp only [splitA3]
      rw [List.getElem?_set_ne (by omega)]

theorem splitAll3_nb03 (A : AMesh α) (new : Nat) (hc : c < new) (ss : List SubCell3) (x : Nat)
    (r : List Nat) (hr : (A.rows .nb03)[x]? = some r) :
    ((A.splitAll3 c k new ss).rows .nb03)[x]? =
      some (r.map fun y => if y = c then heir c new (ss.map SubCell3.vertices) x else y) := by
  induction ss generalizing A new r with
  | nil =>
    rw [splitAll3, hr]
    have : ∀ y, (if y = c then heir c new (([] : List SubCell3).map SubCell3.vertices) x
      else y) = y := by
      intro y; split
      · rename_i h; rw [h]; rfl
      · rfl
    simp only [this, List.map_id']
  | cons s ss ih =>
    rw [splitAll3, ih _ (new + 1) (by omega)
      (if x ∈ s.vertices then repl c new r else r) (by simp [splitA3, hr]), List.map_cons,
      repl_heir c (by omega)]

theorem splitAll3_nb13 (A : AMesh α) (new : Nat) (hc : c < new) (ss : List SubCell3) (x : Nat)
    (r : List Nat) (hr : (A.rows .nb13)[x]? = some r) :
    ((A.splitAll3 c k new ss).rows .nb13)[x]? =
      some (r.map fun y => if y = c then heir c new (ss.map SubCell3.edges) x else y) := by
  induction ss generalizing A new r with
  | nil =>
    rw [splitAll3, hr]
    have : ∀ y, (if y = c then heir c new (([] : List SubCell3).map SubCell3.edges) x
      else y) = y := by
      intro y; split
      · rename_i h; rw [h]; rfl
      · rfl
    simp only [this, List.map_id']
  | cons s ss ih =>
    rw [splitAll3, ih _ (new + 1) (by omega)
      (if x ∈ s.edges then repl c new r else r) (by simp [splitA3, hr]), List.map_cons,
      repl_heir c (by omega)]

theorem splitAll3_nb23 (A : AMesh α) (new : Nat) (hc : c < new) (ss : List SubCell3) (x : Nat)
    (r : List Nat) (hr : (A.rows .nb23)[x]? = some r) :
    ((A.splitAll3 c k new ss).rows .nb23)[x]? =
      some (r.map fun y => if y = c then heir c new (ss.map SubCell3.faces) x else y) := by
  induction ss generalizing A new r with
  | nil =>
    rw [splitAll3, hr]
    have : ∀ y, (if y = c then heir c new (([] : List SubCell3).map SubCell3.faces) x
      else y) = y := by
      intro y; split
      · rename_i h; rw [h]; rfl
      · rfl
    simp only [this, List.map_id']
  | cons s ss ih =>
    rw [splitAll3, ih _ (new + 1) (by omega)
      (if x ∈ s.faces then repl c new r else r) (by simp [splitA3, hr]), List.map_cons,
      repl_heir c (by omega)]

theorem splitAll3_upd (A : AMesh α) (h : A.Ok) (new : Nat) (ss : List SubCell3)
    (hc : c < new) (hl : new + ss.length = A.num .d3) :
    (∀ x, x ≠ c → mapFind ((A.splitAll3 c k new ss).upd .d3) x = mapFind (A.upd .d3) x) ∧
    ∀ j, j ∈ (mapFind ((A.splitAll3 c k new ss).upd .d3) c).getD [] ↔
      j ∈ (mapFind (A.upd .d3) c).getD [] ∨ new ≤ j ∧ j < new + ss.length := by
  induction ss generalizing A new with
  | nil =>
    simp only [splitAll3, implies_true, List.length_nil, Nat.add_zero, true_and]
    intro j
    constructor
    · exact Or.inl
    · rintro (h | h)
      · exact h
      · omega
  | cons s ss ih =>
    simp only [List.length_cons] at hl ⊢
    obtain ⟨h1, h2⟩ := ih (A.splitA3 c new k s) (ok_splitA3 h (by omega) (by omega)) (new + 1)
      (by omega) (by show _ = A.num .d3; omega)
    rw [splitAll3]
    have hu : (A.splitA3 c new k s).upd .d3 = updInsert (A.upd .d3) c new := by
      simp [splitA3]
    constructor
    · intro x hx
      rw [h1 x hx, hu, mapFind_updInsert (h.upd .d3).keys, if_neg hx]
    · intro j
      rw [h2, hu, mapFind_updInsert (h.upd .d3).keys, if_pos rfl]
      simp only [Option.getD_some, mem_setInsert]
      constructor
      · rintro ((h | h) | h)
        · exact Or.inl h
        · right; omega
        · right; omega
      · rintro (h | h)
        · exact Or.inl (Or.inl h)
        · by_cases hj : j = new
          · exact Or.inl (Or.inr hj)
          · right; omega

end fields

end AMesh

theorem subCells_getElem? {vs es fs : List (List Nat)} {subs : List SubCell3} (he : es.length = vs.length)
    (hf : fs.length = vs.length)
    (h : subs = List.zipWith (fun v (p : List Nat × List Nat) => SubCell3.mk v p.1 p.2) vs (es.zip fs))
    (i : Nat) (s : SubCell3) :
    subs[i]? = some s ↔ vs[i]? = some s.vertices ∧ es[i]? = some s.edges ∧ fs[i]? = some s.faces := by
  subst h
  obtain ⟨v, e, f⟩ := s
  by_cases hi : i < vs.length
  · rw [List.getElem?_eq_getElem (by simp; omega), List.getElem?_eq_getElem hi,
      List.getElem?_eq_getElem (by omega : i < es.length), List.getElem?_eq_getElem (by omega : i < fs.length)]
    simp
  · rw [List.getElem?_eq_none (by simp; omega), List.getElem?_eq_none (by omega)]
    simp

theorem subCells_map {vs es fs : List (List Nat)} {subs : List SubCell3} (he : es.length = vs.length)
    (hf : fs.length = vs.length)
    (h : subs = List.zipWith (fun v (p : List Nat × List Nat) => SubCell3.mk v p.1 p.2) vs (es.zip fs)) :
    subs.map SubCell3.vertices = vs ∧ subs.map SubCell3.edges = es ∧ subs.map SubCell3.faces = fs := by
  subst h
  refine ⟨?_, ?_, ?_⟩ <;> apply List.ext_getElem <;> simp <;> omega

end Verif
