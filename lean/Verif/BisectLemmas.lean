import Verif.BisectModel
import Verif.BisectSpec
import Verif.CutProps

/-
Helper lemmas: what the mesh reports after the single steps of a bisection.
-/
namespace Verif

open Res

variable {α : Type}

namespace AMesh

variable {A : AMesh α}

theorem active_iff (h : A.Ok) {d : Dim} {i : Nat} {b : Bool} :
    A.conc.active d i = ok b ↔ (A.act d)[i]? = some b := by
  unfold Mesh.active
  show (do assert (i < A.num d); vget (A.act d) i) = ok b ↔ _
  by_cases hi : i < A.num d
  · rw [assert_true hi, ok_bind, vget_eq_ok]
  · rw [assert_false hi]
    constructor
    · intro e; cases e
    · intro e
      have := (List.getElem?_eq_some_iff.1 e).1
      rw [h.act] at this
      exact absurd this hi

theorem row_iff (h : A.Ok) {l : Lst} {i : Nat} {r : List Nat} :
    A.conc.row l i = ok r ↔ (A.rows l)[i]? = some r :=
  ⟨row_eq_ok h, row_conc h⟩

theorem extremes_conc_iff (h : A.Ok) {i a b : Nat} :
    A.conc.extremes i = ok (a, b) ↔ A.ext[2 * i]? = some a ∧ A.ext[2 * i + 1]? = some b := by
  constructor
  · intro e
    unfold Mesh.extremes at e
    obtain ⟨u, _, e⟩ := bind_eq_ok.1 e
    obtain ⟨x, hx, e⟩ := bind_eq_ok.1 e
    obtain ⟨y, hy, e⟩ := bind_eq_ok.1 e
    cases e
    exact ⟨vget_eq_ok.1 hx, vget_eq_ok.1 hy⟩
  · rintro ⟨h1, h2⟩
    have := (List.getElem?_eq_some_iff.1 h2).1
    rw [h.ext] at this
    exact extremes_conc (by omega) h1 h2

theorem updated_iff {d : Dim} {i : Nat} {u : Option (List Nat)} :
    A.conc.updated d i = ok u ↔ i < A.num d ∧ mapFind (A.upd d) i = u := by
  unfold Mesh.updated
  show (do assert (i < A.num d); ok (mapFind (A.upd d) i)) = ok u ↔ _
  by_cases hi : i < A.num d
  · rw [assert_true hi, ok_bind]
    constructor
    · intro e; cases e; exact ⟨hi, rfl⟩
    · rintro ⟨-, rfl⟩; rfl
  · rw [assert_false hi]
    constructor
    · intro e; cases e
    · intro e; exact absurd e.1 hi

theorem coordinates_iff (h : A.Ok) {i : Nat} {x y z : α} :
    A.conc.coordinates i = ok (x, y, z) ↔
      A.coord[3 * i]? = some x ∧ A.coord[3 * i + 1]? = some y ∧ A.coord[3 * i + 2]? = some z := by
  unfold Mesh.coordinates
  show (do assert (i < A.num .d0); let x ← vget A.coord (3 * i); let y ← vget A.coord (3 * i + 1)
           let z ← vget A.coord (3 * i + 2); ok (x, y, z)) = _ ↔ _
  constructor
  · intro e
    obtain ⟨u, _, e⟩ := bind_eq_ok.1 e
    obtain ⟨x, hx, e⟩ := bind_eq_ok.1 e
    obtain ⟨y, hy, e⟩ := bind_eq_ok.1 e
    obtain ⟨z, hz, e⟩ := bind_eq_ok.1 e
    cases e
    exact ⟨vget_eq_ok.1 hx, vget_eq_ok.1 hy, vget_eq_ok.1 hz⟩
  · rintro ⟨h1, h2, h3⟩
    have := (List.getElem?_eq_some_iff.1 h3).1
    rw [h.coord] at this
    rw [assert_true (by omega), ok_bind, vget_eq_ok.2 h1, ok_bind, vget_eq_ok.2 h2, ok_bind,
      vget_eq_ok.2 h3, ok_bind]

end AMesh

/-- The number of a cell that has a row is below the number of cells. -/
theorem lt_of_row {m : Mesh α} {l : Lst} {i : Nat} {r : List Nat} (h : m.row l i = ok r) :
    i < m.num l.owner := by
  unfold Mesh.row at h
  by_cases hi : i < m.num l.owner
  · exact hi
  · rw [assert_false hi] at h; cases h

theorem lt_of_active {m : Mesh α} {d : Dim} {i : Nat} {b : Bool} (h : m.active d i = ok b) :
    i < m.num d := by
  unfold Mesh.active at h
  by_cases hi : i < m.num d
  · exact hi
  · rw [assert_false hi] at h; cases h

theorem lt_of_extremes {m : Mesh α} {i : Nat} {p : Nat × Nat} (h : m.extremes i = ok p) :
    i < m.num .d1 := by
  unfold Mesh.extremes at h
  by_cases hi : i < m.num .d1
  · exact hi
  · rw [assert_false hi] at h; cases h

/-- What is reported about the old cells stays. -/
structure Keeps (m m' : Mesh α) : Prop where
  num : ∀ d, m.num d ≤ m'.num d
  coordinates : ∀ i, i < m.num .d0 → m'.coordinates i = m.coordinates i
  extremes : ∀ i, i < m.num .d1 → m'.extremes i = m.extremes i
  marker : ∀ d i, i < m.num d → m'.marker d i = m.marker d i
  active : ∀ d i, i < m.num d → m'.active d i = m.active d i
  updated : ∀ d i, i < m.num d → m'.updated d i = m.updated d i
  original : ∀ i, i < m.num .d2 → m'.original .d2 i = m.original .d2 i
  rows : ∀ l i, i < m.num l.owner → m'.row l i = m.row l i

theorem AMesh.keeps_conc {A B : AMesh α} (hA : A.Ok) (hB : B.Ok) (hn : ∀ d, A.num d ≤ B.num d)
    (hc : ∀ j, j < 3 * A.num .d0 → B.coord[j]? = A.coord[j]?)
    (he : ∀ j, j < 2 * A.num .d1 → B.ext[j]? = A.ext[j]?)
    (hm : ∀ d i, i < A.num d → (B.mark d)[i]? = (A.mark d)[i]?)
    (ha : ∀ d i, i < A.num d → (B.act d)[i]? = (A.act d)[i]?)
    (hu : ∀ d, B.upd d = A.upd d) (hn2 : B.num .d2 = A.num .d2) (ho : B.orig .d2 = A.orig .d2)
    (hr : ∀ l i, i < A.num l.owner → (B.rows l)[i]? = (A.rows l)[i]?) : Keeps A.conc B.conc := by
  constructor
  · exact hn
  · intro i hi
    replace hi : i < A.num .d0 := hi
    have hl := hA.coord
    have h1 : 3 * i < A.coord.length := by omega
    have h2 : 3 * i + 1 < A.coord.length := by omega
    have h3 : 3 * i + 2 < A.coord.length := by omega
    rw [(AMesh.coordinates_iff hA).2 ⟨List.getElem?_eq_getElem h1, List.getElem?_eq_getElem h2,
        List.getElem?_eq_getElem h3⟩]
    exact (AMesh.coordinates_iff hB).2 ⟨(hc _ (by omega)).trans (List.getElem?_eq_getElem h1),
      (hc _ (by omega)).trans (List.getElem?_eq_getElem h2),
      (hc _ (by omega)).trans (List.getElem?_eq_getElem h3)⟩
  · intro i hi
    replace hi : i < A.num .d1 := hi
    have hl := hA.ext
    have h1 : 2 * i < A.ext.length := by omega
    have h2 : 2 * i + 1 < A.ext.length := by omega
    rw [(AMesh.extremes_conc_iff hA).2 ⟨List.getElem?_eq_getElem h1, List.getElem?_eq_getElem h2⟩]
    exact (AMesh.extremes_conc_iff hB).2 ⟨(he _ (by omega)).trans (List.getElem?_eq_getElem h1),
      (he _ (by omega)).trans (List.getElem?_eq_getElem h2)⟩
  · intro d i hi
    replace hi : i < A.num d := hi
    have h1 : i < (A.mark d).length := by rw [hA.mark]; exact hi
    rw [AMesh.marker_conc hi (List.getElem?_eq_getElem h1)]
    exact AMesh.marker_conc (lt_of_lt_of_le hi (hn d)) ((hm d i hi).trans (List.getElem?_eq_getElem h1))
  · intro d i hi
    replace hi : i < A.num d := hi
    have h1 : i < (A.act d).length := by rw [hA.act]; exact hi
    rw [(AMesh.active_iff hA).2 (List.getElem?_eq_getElem h1)]
    exact (AMesh.active_iff hB).2 ((ha d i hi).trans (List.getElem?_eq_getElem h1))
  · intro d i hi
    replace hi : i < A.num d := hi
    rw [AMesh.updated_iff.2 ⟨hi, rfl⟩]
    exact AMesh.updated_iff.2 ⟨lt_of_lt_of_le hi (hn d), by rw [hu d]⟩
  · intro i hi
    unfold Mesh.original
    rw [show B.conc.num .d2 = A.conc.num .d2 from hn2, show B.conc.orig .d2 = A.conc.orig .d2 from ho]
  · intro l i hi
    replace hi : i < A.num l.owner := hi
    obtain ⟨r, h1⟩ := AMesh.getElem?_row hA hi
    rw [AMesh.row_conc hA h1]
    exact AMesh.row_conc hB ((hr l i hi).trans h1)

/-- What the new vertex of an edge changes. -/
theorem newVertex_spec [Zero α] {m : Mesh α} (h : m.WF) (x y z : α) (e : Nat) (he : e < m.num .d1) :
    ∃ m', Keeps m m' ∧ m'.WF ∧ m'.num .d0 = m.num .d0 + 1 ∧ (∀ d, d ≠ .d0 → m'.num d = m.num d) ∧
      m'.coordinates (m.num .d0) = ok (x, y, z) ∧ m'.active .d0 (m.num .d0) = ok true ∧
      m'.marker .d0 (m.num .d0) = m.marker .d1 e ∧
      (do let (m, w) ← m.append .d0 1
          let m ← m.insertCoord w x y z
          let k ← m.marker .d1 e
          let m ← m.setMark .d0 w k
          let m ← m.setAct .d0 w true
          ok (m, w)) = ok (m', m.num .d0) := by
  obtain ⟨A, hA, rfl⟩ := AMesh.exists_conc h
  replace he : e < A.num .d1 := he
  have hk1 : e < (A.mark .d1).length := by rw [hA.mark]; exact he
  obtain ⟨k, hk⟩ : ∃ k, (A.mark .d1)[e]? = some k := ⟨_, List.getElem?_eq_getElem hk1⟩
  set n := A.num .d0 with hn
  have o1 := AMesh.ok_append hA .d0 1
  have o2 := AMesh.ok_withCoord o1 n x y z
  have o3 := AMesh.ok_withMark o2 .d0 n k
  have o4 := AMesh.ok_withAct o3 .d0 n true
  have n1 : (A.append .d0 1).num .d0 = n + 1 := by simp [AMesh.append, hn]
  have nd : ∀ d, d ≠ .d0 → (A.append .d0 1).num d = A.num d := by
    intro d hd; simp [AMesh.append, fset_ne _ _ hd]
  have lc : A.coord.length = 3 * n := hA.coord
  have hlen : (A.append .d0 1).coord.length = 3 * n + 3 := by
    simp [AMesh.append, lc]
  refine ⟨_, AMesh.keeps_conc hA o4 ?_ ?_ ?_ ?_ ?_ ?_ (nd .d2 (by simp)) ?_ ?_, AMesh.wf_conc o4, ?_, ?_, ?_, ?_, ?_, ?_⟩
  · intro d
    by_cases hd : d = .d0
    · subst hd; show _ ≤ (A.append .d0 1).num .d0; omega
    · show _ ≤ (A.append .d0 1).num d; rw [nd d hd]
  · intro j hj
    show ((((A.append .d0 1).coord.set (3 * n) x).set (3 * n + 1) y).set (3 * n + 2) z)[j]? = _
    rw [List.getElem?_set_ne (by omega), List.getElem?_set_ne (by omega),
      List.getElem?_set_ne (by omega)]
    simp only [AMesh.append, if_true]
    rw [List.getElem?_append_left (by omega)]
  · intro j hj
    show (A.append .d0 1).ext[j]? = _
    simp [AMesh.append]
  · intro d i hi
    show ((fset (A.append .d0 1).mark .d0 (((A.append .d0 1).mark .d0).set n k)) d)[i]? = _
    by_cases hd : d = .d0
    · subst hd
      rw [fset_self, List.getElem?_set_ne (by omega)]
      simp only [AMesh.append, fset_self]
      rw [List.getElem?_append_left (by rw [hA.mark]; exact hi)]
    · rw [fset_ne _ _ hd]
      simp only [AMesh.append, fset_ne _ _ hd]
  · intro d i hi
    show ((fset (A.append .d0 1).act .d0 (((A.append .d0 1).act .d0).set n true)) d)[i]? = _
    by_cases hd : d = .d0
    · subst hd
      rw [fset_self, List.getElem?_set_ne (by omega)]
      simp only [AMesh.append, fset_self]
      rw [List.getElem?_append_left (by rw [hA.act]; exact hi)]
    · rw [fset_ne _ _ hd]
      simp only [AMesh.append, fset_ne _ _ hd]
  · intro d; rfl
  · rfl
  · intro l i hi
    show ((A.append .d0 1).rows l)[i]? = _
    simp only [AMesh.append]
    split
    · rw [List.getElem?_append_left (by rw [hA.rows]; exact hi)]
    · rfl
  · exact n1
  · exact nd
  · refine (AMesh.coordinates_iff o4).2 ?_
    show ((((A.append .d0 1).coord.set (3 * n) x).set (3 * n + 1) y).set (3 * n + 2) z)[3 * n]? = _ ∧
      ((((A.append .d0 1).coord.set (3 * n) x).set (3 * n + 1) y).set (3 * n + 2) z)[3 * n + 1]? = _ ∧
      ((((A.append .d0 1).coord.set (3 * n) x).set (3 * n + 1) y).set (3 * n + 2) z)[3 * n + 2]? = _
    refine ⟨?_, ?_, ?_⟩
    · rw [List.getElem?_set_ne (by omega), List.getElem?_set_ne (by omega), List.getElem?_set_self]
      omega
    · rw [List.getElem?_set_ne (by omega), List.getElem?_set_self]
      simp; omega
    · rw [List.getElem?_set_self]
      simp; omega
  · refine (AMesh.active_iff o4).2 ?_
    show ((fset (A.append .d0 1).act .d0 (((A.append .d0 1).act .d0).set n true)) .d0)[n]? = _
    rw [fset_self, List.getElem?_set_self]
    rw [o1.act, n1]; omega
  · rw [AMesh.marker_conc he hk]
    apply AMesh.marker_conc
    · show n < (A.append .d0 1).num .d0; omega
    · show ((fset (A.append .d0 1).mark .d0 (((A.append .d0 1).mark .d0).set n k)) .d0)[n]? = _
      rw [fset_self, List.getElem?_set_self]
      rw [o1.mark, n1]; omega
  · rw [AMesh.append_conc hA .d0, ok_bind]
    show (do let m ← (A.append .d0 1).conc.insertCoord n x y z
             let k ← m.marker .d1 e
             let m ← m.setMark .d0 n k
             let m ← m.setAct .d0 n true
             ok (m, n)) = _
    rw [AMesh.insertCoord_with o1 (by omega), ok_bind,
      AMesh.marker_conc (A := (A.append .d0 1).withCoord n x y z) (i := e) (d := .d1) (k := k)
        (by show e < (A.append .d0 1).num .d1; rw [nd _ (by simp)]; exact he)
        (by show ((A.append .d0 1).mark .d1)[e]? = _
            simp only [AMesh.append, fset_ne A.mark (A.mark .d0 ++ List.replicate 1 0)
              (show Dim.d1 ≠ .d0 by simp)]
            exact hk),
      ok_bind, AMesh.setMark_with o2 (by show n < (A.append .d0 1).num .d0; omega), ok_bind,
      AMesh.setAct_with o3 (by show n < (A.append .d0 1).num .d0; omega), ok_bind]
    rfl

/-- What the new edge inside a triangle changes, before the triangle is split. -/
theorem newEdge_spec [Zero α] {m : Mesh α} (h : m.WF) (a b : Nat) (ha : a < m.num .d0)
    (hb : b < m.num .d0) :
    ∃ m', Keeps m m' ∧ m'.WF ∧ m'.num .d1 = m.num .d1 + 1 ∧ (∀ d, d ≠ .d1 → m'.num d = m.num d) ∧
      m'.extremes (m.num .d1) = ok (a, b) ∧ m'.active .d1 (m.num .d1) = ok true ∧
      m'.marker .d1 (m.num .d1) = ok 0 ∧
      m'.row .nb12 (m.num .d1) = ok (vresize [] 2 Lst.nb12.fillOne) ∧
      (do let (m, e) ← m.append .d1 1
          let m ← m.insertExt e a b
          let m ← m.setMark .d1 e 0
          let m ← m.setAct .d1 e true
          let m ← m.resizeRowOf .nb12 e 2
          ok (m, e)) = ok (m', m.num .d1) := by
  obtain ⟨A, hA, rfl⟩ := AMesh.exists_conc h
  set n := A.num .d1 with hn
  have o1 := AMesh.ok_append hA .d1 1
  have o2 := AMesh.ok_withExt o1 n a b
  have o3 := AMesh.ok_withMark o2 .d1 n 0
  have o4 := AMesh.ok_withAct o3 .d1 n true
  have o5 := AMesh.ok_setRow o4 .nb12 n (vresize [] 2 Lst.nb12.fillOne)
  have n1 : (A.append .d1 1).num .d1 = n + 1 := by simp [AMesh.append, hn]
  have nd : ∀ d, d ≠ .d1 → (A.append .d1 1).num d = A.num d := by
    intro d hd; simp [AMesh.append, fset_ne _ _ hd]
  have le : A.ext.length = 2 * n := hA.ext
  have hlen : (A.append .d1 1).ext.length = 2 * n + 2 := by
    simp [AMesh.append, le]
  have hrow : ∀ l i, i < A.num l.owner → ((A.append .d1 1).rows l)[i]? = (A.rows l)[i]? := by
    intro l i hi
    simp only [AMesh.append]
    split
    · rw [List.getElem?_append_left (by rw [hA.rows]; exact hi)]
    · rfl
  have hnew : ((A.append .d1 1).rows .nb12)[n]? = some [] := by
    have hll := hA.rows .nb12
    simp only [AMesh.append]
    rw [if_pos (show Lst.nb12.owner = .d1 from rfl), List.getElem?_append_right
      (by rw [hll]; exact le_refl _), hll]
    rw [List.getElem?_replicate, if_pos]
    show n - A.num .d1 < 1
    omega
  have hl12 : n < (((((A.append .d1 1).withExt n a b).withMark .d1 n 0).withAct .d1 n true).rows
      .nb12).length := by
    rw [o4.rows]; show n < (A.append .d1 1).num .d1; omega
  refine ⟨_, AMesh.keeps_conc hA o5 ?_ ?_ ?_ ?_ ?_ ?_ (nd .d2 (by simp)) ?_ ?_, AMesh.wf_conc o5, ?_, ?_, ?_, ?_, ?_, ?_, ?_⟩
  · intro d
    by_cases hd : d = .d1
    · subst hd; show _ ≤ (A.append .d1 1).num .d1; omega
    · show _ ≤ (A.append .d1 1).num d; rw [nd d hd]
  · intro j hj
    show (A.append .d1 1).coord[j]? = _
    simp [AMesh.append]
  · intro j hj
    show (((A.append .d1 1).ext.set (2 * n) a).set (2 * n + 1) b)[j]? = _
    rw [List.getElem?_set_ne (by omega), List.getElem?_set_ne (by omega)]
    simp only [AMesh.append, if_true]
    rw [List.getElem?_append_left (by omega)]
  · intro d i hi
    show ((fset (A.append .d1 1).mark .d1 (((A.append .d1 1).mark .d1).set n 0)) d)[i]? = _
    by_cases hd : d = .d1
    · subst hd
      rw [fset_self, List.getElem?_set_ne (by omega)]
      simp only [AMesh.append, fset_self]
      rw [List.getElem?_append_left (by rw [hA.mark]; exact hi)]
    · rw [fset_ne _ _ hd]
      simp only [AMesh.append, fset_ne _ _ hd]
  · intro d i hi
    show ((fset (A.append .d1 1).act .d1 (((A.append .d1 1).act .d1).set n true)) d)[i]? = _
    by_cases hd : d = .d1
    · subst hd
      rw [fset_self, List.getElem?_set_ne (by omega)]
      simp only [AMesh.append, fset_self]
      rw [List.getElem?_append_left (by rw [hA.act]; exact hi)]
    · rw [fset_ne _ _ hd]
      simp only [AMesh.append, fset_ne _ _ hd]
  · intro d; rfl
  · rfl
  · intro l i hi
    rw [AMesh.setRow_rows _ _ _ _ _ _ hl12, if_neg]
    · exact hrow l i hi
    · rintro ⟨rfl, rfl⟩
      replace hi : n < A.num .d1 := hi
      omega
  · exact n1
  · exact nd
  · refine (AMesh.extremes_conc_iff o5).2 ?_
    show (((A.append .d1 1).ext.set (2 * n) a).set (2 * n + 1) b)[2 * n]? = _ ∧
      (((A.append .d1 1).ext.set (2 * n) a).set (2 * n + 1) b)[2 * n + 1]? = _
    refine ⟨?_, ?_⟩
    · rw [List.getElem?_set_ne (by omega), List.getElem?_set_self]
      omega
    · rw [List.getElem?_set_self]
      simp; omega
  · refine (AMesh.active_iff o5).2 ?_
    show ((fset (A.append .d1 1).act .d1 (((A.append .d1 1).act .d1).set n true)) .d1)[n]? = _
    rw [fset_self, List.getElem?_set_self]
    rw [o1.act, n1]; omega
  · apply AMesh.marker_conc
    · show n < (A.append .d1 1).num .d1; omega
    · show ((fset (A.append .d1 1).mark .d1 (((A.append .d1 1).mark .d1).set n 0)) .d1)[n]? = _
      rw [fset_self, List.getElem?_set_self]
      rw [o1.mark, n1]; omega
  · refine (AMesh.row_iff o5).2 ?_
    exact AMesh.setRow_row hl12
  · rw [AMesh.append_conc hA .d1, ok_bind]
    show (do let m ← (A.append .d1 1).conc.insertExt n a b
             let m ← m.setMark .d1 n 0
             let m ← m.setAct .d1 n true
             let m ← m.resizeRowOf .nb12 n 2
             ok (m, n)) = _
    rw [AMesh.insertExt_with o1 (by omega), ok_bind,
      AMesh.setMark_with o2 (by show n < (A.append .d1 1).num .d1; omega), ok_bind,
      AMesh.setAct_with o3 (by show n < (A.append .d1 1).num .d1; omega), ok_bind,
      AMesh.resizeRowOf_conc o4 (r := []) hnew (by intro h; cases h), ok_bind]
    rfl

end Verif
