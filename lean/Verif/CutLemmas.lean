import Verif.CutModel
import Verif.CutSpec
import Verif.SplitLemmas

/-
Helper lemmas: the split of an edge on the mesh of plain rows.
-/
namespace Verif

open Res

namespace AMesh

variable {α : Type} {A : AMesh α}

/-! Single calls. -/

/-- The marker of one cell is changed. -/
def withMark (B : AMesh α) (d : Dim) (i k : Nat) : AMesh α :=
  { B with mark := fset B.mark d ((B.mark d).set i k) }

/-- The state of one cell is changed. -/
def withAct (B : AMesh α) (d : Dim) (i : Nat) (b : Bool) : AMesh α :=
  { B with act := fset B.act d ((B.act d).set i b) }

/-- One cell is recorded as new cell of another one. -/
def withUpd (B : AMesh α) (d : Dim) (c new : Nat) : AMesh α :=
  { B with
    upd := fset B.upd d (updInsert (B.upd d) c new)
    orig := fset B.orig d ((B.orig d).set new c) }

/-- The vertices of one edge are changed. -/
def withExt (B : AMesh α) (i a b : Nat) : AMesh α :=
  { B with ext := (B.ext.set (2 * i) a).set (2 * i + 1) b }

/-- The coordinates of one vertex are changed. -/
def withCoord (B : AMesh α) (i : Nat) (x y z : α) : AMesh α :=
  { B with coord := ((B.coord.set (3 * i) x).set (3 * i + 1) y).set (3 * i + 2) z }

theorem ok_withMark (h : A.Ok) (d : Dim) (i k : Nat) : (A.withMark d i k).Ok := by
  refine ⟨h.coord, h.ext, ?_, h.act, h.orig0, h.orig, h.upd, h.ids, h.ids_nodup, h.props, h.rows⟩
  intro d'
  by_cases hd : d' = d
  · subst hd; simpa [withMark] using h.mark d'
  · simpa [withMark, fset_ne _ _ hd] using h.mark d'

theorem ok_withAct (h : A.Ok) (d : Dim) (i : Nat) (b : Bool) : (A.withAct d i b).Ok := by
  refine ⟨h.coord, h.ext, h.mark, ?_, h.orig0, h.orig, h.upd, h.ids, h.ids_nodup, h.props, h.rows⟩
  intro d'
  by_cases hd : d' = d
  · subst hd; simpa [withAct] using h.act d'
  · simpa [withAct, fset_ne _ _ hd] using h.act d'

theorem ok_withUpd (h : A.Ok) {d : Dim} {c new : Nat} (hd : d ≠ .d0) (hc : c < A.num d)
    (hn : new < A.num d) : (A.withUpd d c new).Ok := by
  refine ⟨h.coord, h.ext, h.mark, h.act, ?_, ?_, ?_, h.ids, h.ids_nodup, h.props, h.rows⟩
  · simpa [withUpd, fset_ne _ _ (Ne.symm hd)] using h.orig0
  · intro d' hd0
    by_cases hd : d' = d
    · subst hd; simpa [withUpd] using h.orig d' hd0
    · simpa [withUpd, fset_ne _ _ hd] using h.orig d' hd0
  · intro d'
    by_cases hd : d' = d
    · subst hd; simpa [withUpd] using updOk_updInsert (h.upd d') hc hn
    · simpa [withUpd, fset_ne _ _ hd] using h.upd d'

theorem ok_withExt (h : A.Ok) (i a b : Nat) : (A.withExt i a b).Ok :=
  ⟨h.coord, by simpa [withExt] using h.ext, h.mark, h.act, h.orig0, h.orig, h.upd, h.ids,
    h.ids_nodup, h.props, h.rows⟩

theorem ok_withCoord (h : A.Ok) (i : Nat) (x y z : α) : (A.withCoord i x y z).Ok :=
  ⟨by simpa [withCoord] using h.coord, h.ext, h.mark, h.act, h.orig0, h.orig, h.upd, h.ids,
    h.ids_nodup, h.props, h.rows⟩

theorem marker_conc {d : Dim} {i k : Nat} (hi : i < A.num d)
    (hk : (A.mark d)[i]? = some k) : A.conc.marker d i = ok k := by
  unfold Mesh.marker
  show (do assert (i < A.num d); vget (A.mark d) i) = _
  rw [assert_true hi, ok_bind]
  exact vget_eq_ok.2 hk

theorem setMark_with (h : A.Ok) {d : Dim} {i k : Nat} (hi : i < A.num d) :
    A.conc.setMark d i k = ok (A.withMark d i k).conc := by
  unfold Mesh.setMark
  show (do assert (i < A.num d); let l ← vset (A.mark d) i k; _) = _
  rw [assert_true hi, ok_bind, vset_of_lt _ (by rw [h.mark]; exact hi), ok_bind]
  rfl

theorem setAct_with (h : A.Ok) {d : Dim} {i : Nat} {b : Bool} (hi : i < A.num d) :
    A.conc.setAct d i b = ok (A.withAct d i b).conc := by
  unfold Mesh.setAct
  show (do assert (i < A.num d); let l ← vset (A.act d) i b; _) = _
  rw [assert_true hi, ok_bind, vset_of_lt _ (by rw [h.act]; exact hi), ok_bind]
  rfl

theorem insertUpd_conc (h : A.Ok) {d : Dim} {c new : Nat} (hd : d ≠ .d0) (hc : c < A.num d)
    (hn : new < A.num d) : A.conc.insertUpd d c new = ok (A.withUpd d c new).conc := by
  rw [Mesh.insertUpd_eq]
  show (do assert (c < A.num d); assert (new < A.num d); _) = _
  rw [assert_true hc, assert_true hn, ok_bind, ok_bind, if_neg hd]
  show (do let o ← vset (A.orig d) new c; _) = _
  rw [vset_of_lt _ (by rw [h.orig _ hd]; exact hn), ok_bind]
  rfl

theorem insertExt_with (h : A.Ok) {i a b : Nat} (hi : i < A.num .d1) :
    A.conc.insertExt i a b = ok (A.withExt i a b).conc := by
  have := h.ext
  unfold Mesh.insertExt
  show (do assert (i < A.num .d1); let c ← vset A.ext (2 * i) a; _) = _
  rw [assert_true hi, ok_bind, vset_of_lt _ (by omega), ok_bind,
    vset_of_lt _ (by simp; omega), ok_bind]
  rfl

theorem insertCoord_with (h : A.Ok) {i : Nat} {x y z : α} (hi : i < A.num .d0) :
    A.conc.insertCoord i x y z = ok (A.withCoord i x y z).conc := by
  have := h.coord
  unfold Mesh.insertCoord
  show (do assert (i < A.num .d0); let c ← vset A.coord (3 * i) x; _) = _
  rw [assert_true hi, ok_bind, vset_of_lt _ (by omega), ok_bind,
    vset_of_lt _ (by simp; omega), ok_bind, vset_of_lt _ (by simp; omega), ok_bind]
  rfl

theorem extremes_conc {i a b : Nat} (hi : i < A.num .d1) (ha : A.ext[2 * i]? = some a)
    (hb : A.ext[2 * i + 1]? = some b) : A.conc.extremes i = ok (a, b) := by
  unfold Mesh.extremes
  show (do assert (i < A.num .d1); let a ← vget A.ext (2 * i); let b ← vget A.ext (2 * i + 1); ok (a, b)) = _
  rw [assert_true hi, ok_bind, vget_eq_ok.2 ha, ok_bind, vget_eq_ok.2 hb, ok_bind]

theorem extremes_withExt (h : A.Ok) {i a b : Nat} (hi : i < A.num .d1) :
    (A.withExt i a b).conc.extremes i = ok (a, b) := by
  have := h.ext
  apply extremes_conc (A := A.withExt i a b) hi
  · simp only [withExt]
    rw [List.getElem?_set_ne (by omega), List.getElem?_set_self (by omega)]
  · simp only [withExt]
    rw [List.getElem?_set_self (by simp; omega)]

/-- The neighbours of an edge become neighbours of another one. -/
theorem inheritNeighbours_conc (h : A.Ok) {l : Lst} {c new : Nat} {par old : List Nat}
    (hs : l ≠ .sub2) (hf : l.fillOne = UINT_MAX)
    (hp : (A.rows l)[c]? = some par) (ho : (A.rows l)[new]? = some old) (hne : new ≠ c) :
    A.conc.inheritNeighbours l c new =
      ok (if par.length = 0 then A
        else A.setRow l new (inherit (A.num l.target) old par)).conc := by
  have hnew := lt_of_getElem? ho
  unfold Mesh.inheritNeighbours
  rw [rowSize_conc h hp, ok_bind]
  by_cases h0 : par.length = 0
  · rw [if_pos h0, if_pos h0]
  · rw [if_neg h0, if_neg h0, resizeRowOf_conc h ho (fun e => absurd e hs), ok_bind]
    have hB : (A.setRow l new (vresize old par.length (Lst.fillOne l))).Ok := ok_setRow h _ _ _
    have hBr : ((A.setRow l new (vresize old par.length (Lst.fillOne l))).rows l)[new]? =
        some (vresize old par.length (Lst.fillOne l)) := setRow_row hnew
    have := foldRow_conc (g := inherit (A.num l.target) old par) (fun (m : Mesh α) k => do
      let has ← m.hasEntry l c k
      if has then do
        let y ← m.entry l c k
        m.insertEntry l new k y
      else ok m) hBr (by simp [inherit]) (by
        intro k hk r' hl hk'
        rw [setRow_setRow, setRow_setRow]
        have hkp : k < par.length := by
          simp [inherit] at hk
          omega
        have hC : (A.setRow l new r').Ok := ok_setRow h _ _ _
        have hCc : ((A.setRow l new r').rows l)[c]? = some par := by
          rw [setRow_rows _ _ _ _ _ _ hnew, if_neg (by simp [Ne.symm hne])]; exact hp
        have hCn : ((A.setRow l new r').rows l)[new]? = some r' := setRow_row hnew
        have hkr : k < r'.length := by rw [hl]; simpa using hkp
        rw [hasEntry_conc hC hCc hkp, entry_conc hC hCc]
        simp only [agetD, List.getElem?_eq_getElem hkp, ok_bind]
        have hgk : (inherit (A.num l.target) old par)[k] =
            if par[k] < A.num l.target then par[k] else r'[k] := by
          simp only [inherit, List.getElem_zipWith]
          have hkv : k < (vresize old par.length (Lst.fillOne l)).length := by simpa using hkp
          rw [List.getElem?_eq_getElem hkr, List.getElem?_eq_getElem hkv] at hk'
          simp only [Option.some.injEq] at hk'
          simp only [hf] at hk'
          rw [hk']
        rw [hgk]
        by_cases hlt : par[k] < A.num l.target
        · rw [if_pos (by rw [decide_eq_true_iff]; exact hlt), if_pos hlt, insertEntry_conc hC hCn hkr hlt, setRow_setRow]
        · rw [if_neg (by rw [decide_eq_true_iff]; exact hlt), if_neg hlt, List.set_getElem_self hkr])
    rw [length_vresize, setRow_setRow] at this
    exact this

/-! The loop. -/

/-- One round of `SplitCell1D`; `k` is the marker, `p2` and `p3` are the lists of polygons and
polyhedra of the edge. -/
def cutA (A : AMesh α) (c new k : Nat) (p2 p3 : List Nat) (sub : Nat × Nat) : AMesh α :=
  { A with
    ext := (A.ext.set (2 * new) sub.1).set (2 * new + 1) sub.2
    mark := fset A.mark .d1 ((A.mark .d1).set new k)
    act := fset A.act .d1 ((A.act .d1).set new true)
    upd := fset A.upd .d1 (updInsert (A.upd .d1) c new)
    orig := fset A.orig .d1 ((A.orig .d1).set new c)
    rows := fun l => match l with
      | .nb01 => (A.rows .nb01).mapIdx fun x r => if x ∈ [sub.1, sub.2] then repl c new r else r
      | .nb12 => (A.rows .nb12).set new (inherit (A.num .d2) [] p2)
      | .nb13 => (A.rows .nb13).set new (inherit (A.num .d3) [] p3)
      | l => A.rows l }

theorem ok_cutA (h : A.Ok) {c new k : Nat} {p2 p3 : List Nat} {sub : Nat × Nat}
    (hc : c < A.num .d1) (hn : new < A.num .d1) : (A.cutA c new k p2 p3 sub).Ok where
  coord := h.coord
  ext := by simpa [cutA] using h.ext
  mark := by
    intro d
    by_cases hd : d = .d1
    · subst hd; simpa [cutA] using h.mark .d1
    · simpa [cutA, fset_ne _ _ hd] using h.mark d
  act := by
    intro d
    by_cases hd : d = .d1
    · subst hd; simpa [cutA] using h.act .d1
    · simpa [cutA, fset_ne _ _ hd] using h.act d
  orig0 := by
    simpa [cutA, fset] using h.orig0
  orig := by
    intro d hd0
    by_cases hd : d = .d1
    · subst hd; simpa [cutA] using h.orig .d1 (by simp)
    · simpa [cutA, fset_ne _ _ hd] using h.orig d hd0
  upd := by
    intro d
    by_cases hd : d = .d1
    · subst hd
      simpa [cutA] using updOk_updInsert (h.upd .d1) hc hn
    · simpa [cutA, fset_ne _ _ hd] using h.upd d
  ids := h.ids
  ids_nodup := h.ids_nodup
  props := h.props
  rows := by
    intro l
    have := h.rows l
    cases l <;> simpa [cutA] using this

/-- The two loops over the edges of the vertices. -/
theorem replaceTwo (h : A.Ok) {c new a b : Nat} (ha : a < A.num .d0) (hb : b < A.num .d0)
    (hne : new ≠ c) (hc : c < A.num .d1) (hn : new < A.num .d1) :
    ∃ B : AMesh α, A.conc.replaceNeighbours .nb01 a c new = ok B.conc ∧ B.num = A.num ∧
      B.ext = A.ext ∧
      B.conc.replaceNeighbours .nb01 b c new =
        ok (A.mapRows .nb01 fun x r => if x ∈ [a, b] then repl c new r else r).conc := by
  obtain ⟨ra, hra⟩ := getElem?_row h (l := .nb01) ha
  obtain ⟨rb, hrb⟩ := getElem?_row h (l := .nb01) hb
  have hla := lt_of_getElem? hra
  have hlb := lt_of_getElem? hrb
  have hB := ok_setRow h .nb01 a (repl c new ra)
  refine ⟨A.setRow .nb01 a (repl c new ra), replaceNeighbours_conc h hra hc hn, rfl, rfl, ?_⟩
  have hrb' : ((A.setRow .nb01 a (repl c new ra)).rows .nb01)[b]? =
      some (if b = a then repl c new ra else rb) := by
    by_cases hab : b = a
    · subst hab
      rw [if_pos rfl]; exact setRow_row hla
    · rw [if_neg hab, setRow_rows _ _ _ _ _ _ hla, if_neg (by simp [hab])]; exact hrb
  rw [replaceNeighbours_conc hB hrb' hc hn]
  congr 2
  unfold setRow mapRows
  rw [setRows_rows_self, setRows_setRows]
  congr 1
  apply List.ext_getElem
  · simp
  · intro j h1 h2
    simp only [List.length_set] at h1
    rw [List.getElem?_eq_getElem hla, Option.some.injEq] at hra
    rw [List.getElem?_eq_getElem hlb, Option.some.injEq] at hrb
    rw [List.getElem_set, List.getElem_mapIdx]
    by_cases hjb : b = j
    · subst hjb
      rw [if_pos rfl, if_pos (show b ∈ [a, b] by simp)]
      by_cases hab : b = a
      · subst hab
        rw [if_pos rfl, repl_repl hne, hra]
      · rw [if_neg hab, hrb]
    · rw [if_neg hjb, List.getElem_set]
      by_cases hja : a = j
      · subst hja
        rw [if_pos rfl, if_pos (show a ∈ [a, b] by simp), hra]
      · rw [if_neg hja, if_neg (show ¬ j ∈ [a, b] by
          simp; exact ⟨fun e => hja e.symm, fun e => hjb e.symm⟩)]

theorem cutOne_conc (h : A.Ok) {c new k : Nat} {p2 p3 : List Nat} {sub : Nat × Nat}
    (hc : c < A.num .d1) (hn : new < A.num .d1) (hne : new ≠ c) (hk : (A.mark .d1)[c]? = some k)
    (hp2 : (A.rows .nb12)[c]? = some p2) (ho2 : (A.rows .nb12)[new]? = some [])
    (hp3 : (A.rows .nb13)[c]? = some p3) (ho3 : (A.rows .nb13)[new]? = some [])
    (hs : sub.1 < A.num .d0 ∧ sub.2 < A.num .d0) :
    A.conc.cutOne c new sub = ok (A.cutA c new k p2 p3 sub).conc := by
  obtain ⟨a, b⟩ := sub
  simp only at hs
  unfold Mesh.cutOne
  rw [insertExt_with h hn, ok_bind, marker_conc (A := A.withExt new a b) hc hk, ok_bind,
    setMark_with (ok_withExt h _ _ _) hn, ok_bind,
    setAct_with (ok_withMark (ok_withExt h _ _ _) _ _ _) hn, ok_bind,
    insertUpd_conc (ok_withAct (ok_withMark (ok_withExt h _ _ _) _ _ _) _ _ _) (by simp) hc hn, ok_bind]
  have hB := ok_withUpd (d := .d1) (c := c) (new := new)
    (ok_withAct (ok_withMark (ok_withExt h new a b) .d1 new k) .d1 new true) (by simp) hc hn
  generalize hBe : (((A.withExt new a b).withMark .d1 new k).withAct .d1 new true).withUpd .d1 c new = B
    at hB
  have hBn : B.num = A.num := by rw [← hBe]; rfl
  have hBx : B.ext = (A.withExt new a b).ext := by rw [← hBe]; rfl
  have hBr : B.rows = A.rows := by rw [← hBe]; rfl
  have hx : ∀ C : AMesh α, C.num = A.num → C.ext = B.ext → C.conc.extremes new = ok (a, b) := by
    intro C h1 h2
    rw [← extremes_withExt h (a := a) (b := b) hn]
    exact extremes_congr h1 (h2.trans hBx)
  rw [hx B hBn rfl, ok_bind]
  obtain ⟨C, hC1, hC2, hC3, hC4⟩ := replaceTwo (a := a) (b := b) hB (by rw [hBn]; exact hs.1)
    (by rw [hBn]; exact hs.2) hne (by rw [hBn]; exact hc) (by rw [hBn]; exact hn)
  rw [hC1, ok_bind, hx C (hC2.trans hBn) hC3, ok_bind, hC4, ok_bind]
  have hD := ok_mapRows hB .nb01 (fun x r => if x ∈ [a, b] then repl c new r else r)
  generalize hDe : (B.mapRows .nb01 fun x r => if x ∈ [a, b] then repl c new r else r) = D at hD
  have hDr : ∀ l, l ≠ .nb01 → D.rows l = A.rows l := by
    intro l hl
    rw [← hDe]
    unfold mapRows
    rw [setRows_rows_ne _ _ hl, hBr]
  have hDn : D.num = A.num := by rw [← hDe]; exact hBn
  rw [inheritNeighbours_conc hD (l := .nb12) (by simp) rfl (by rw [hDr _ (by simp)]; exact hp2)
    (by rw [hDr _ (by simp)]; exact ho2) hne, ok_bind]
  have key2 : (if p2.length = 0 then D else D.setRow .nb12 new (inherit (D.num .d2) [] p2)) =
      D.setRow .nb12 new (inherit (A.num .d2) [] p2) := by
    rw [hDn]
    split
    · rename_i h0
      have : p2 = [] := List.eq_nil_of_length_eq_zero h0
      subst this
      rw [setRow_self]
      rw [hDr _ (by simp)]; simpa [inherit] using ho2
    · rfl
  rw [show Lst.nb12.target = Dim.d2 from rfl, key2]
  have hE := ok_setRow hD .nb12 new (inherit (A.num .d2) [] p2)
  have hnl : new < (D.rows .nb12).length := by
    rw [hDr _ (by simp)]; exact lt_of_getElem? ho2
  generalize hEe : D.setRow .nb12 new (inherit (A.num .d2) [] p2) = E at hE
  have hEr : E.rows .nb13 = A.rows .nb13 := by
    rw [← hEe]
    unfold setRow
    rw [setRows_rows_ne _ _ (by simp), hDr _ (by simp)]
  have hEn : E.num = A.num := by rw [← hEe]; exact hDn
  rw [inheritNeighbours_conc hE (l := .nb13) (by simp) rfl (by rw [hEr]; exact hp3)
    (by rw [hEr]; exact ho3) hne]
  have key3 : (if p3.length = 0 then E else E.setRow .nb13 new (inherit (E.num .d3) [] p3)) =
      E.setRow .nb13 new (inherit (A.num .d3) [] p3) := by
    rw [hEn]
    split
    · rename_i h0
      have : p3 = [] := List.eq_nil_of_length_eq_zero h0
      subst this
      rw [setRow_self]
      rw [hEr]; simpa [inherit] using ho3
    · rfl
  rw [show Lst.nb13.target = Dim.d3 from rfl, key3]
  congr 2
  rw [← hEe, ← hDe, ← hBe]
  simp only [withUpd, withAct, withMark, withExt, setRow, setRows, mapRows, cutA, AMesh.mk.injEq,
    true_and]
  funext l
  cases l <;> simp [fset]

/-- The loop over the sub-edges. -/
def cutAll (A : AMesh α) (c k : Nat) (p2 p3 : List Nat) : Nat → List (Nat × Nat) → AMesh α
  | _, [] => A
  | new, s :: ss => cutAll (A.cutA c new k p2 p3 s) c k p2 p3 (new + 1) ss

theorem cutAll_num (A : AMesh α) (c k : Nat) (p2 p3 : List Nat) (new : Nat)
    (ss : List (Nat × Nat)) : (A.cutAll c k p2 p3 new ss).num = A.num := by
  induction ss generalizing A new with
  | nil => rfl
  | cons s ss ih => rw [cutAll, ih]; rfl

theorem cutFrom_conc {c k : Nat} {p2 p3 : List Nat} {ss : List (Nat × Nat)} {new : Nat}
    {A : AMesh α} (h : A.Ok) (hc : c < new) (hn : new + ss.length = A.num .d1)
    (hk : (A.mark .d1)[c]? = some k) (hp2 : (A.rows .nb12)[c]? = some p2)
    (hp3 : (A.rows .nb13)[c]? = some p3)
    (ho2 : ∀ j, new ≤ j → j < A.num .d1 → (A.rows .nb12)[j]? = some [])
    (ho3 : ∀ j, new ≤ j → j < A.num .d1 → (A.rows .nb13)[j]? = some [])
    (hs : ∀ s ∈ ss, s.1 < A.num .d0 ∧ s.2 < A.num .d0) :
    A.conc.cutFrom c new ss = ok (A.cutAll c k p2 p3 new ss).conc ∧
      (A.cutAll c k p2 p3 new ss).Ok := by
  induction ss generalizing A new with
  | nil => exact ⟨rfl, h⟩
  | cons s ss ih =>
    simp only [List.length_cons] at hn
    rw [Mesh.cutFrom, cutAll, cutOne_conc h (by omega) (by omega) (by omega) hk hp2
      (ho2 new (Nat.le_refl _) (by omega)) hp3 (ho3 new (Nat.le_refl _) (by omega))
      (hs s (by simp)), ok_bind]
    apply ih (ok_cutA h (by omega) (by omega)) (by omega)
    · show _ = A.num .d1
      omega
    · show (fset A.mark .d1 ((A.mark .d1).set new k) .d1)[c]? = some k
      rw [fset_self, List.getElem?_set_ne (by omega), hk]
    · show ((A.rows .nb12).set new _)[c]? = some p2
      rw [List.getElem?_set_ne (by omega), hp2]
    · show ((A.rows .nb13).set new _)[c]? = some p3
      rw [List.getElem?_set_ne (by omega), hp3]
    · intro j h1 h2
      show ((A.rows .nb12).set new _)[j]? = some []
      rw [List.getElem?_set_ne (by omega), ho2 j (by omega) h2]
    · intro j h1 h2
      show ((A.rows .nb13).set new _)[j]? = some []
      rw [List.getElem?_set_ne (by omega), ho3 j (by omega) h2]
    · intro s' hs'
      exact hs s' (by simp [hs'])

/-! Fields after the loop. -/

section fields

variable (c k : Nat) (p2 p3 : List Nat)

theorem cutAll_frame (A : AMesh α) (new : Nat) (ss : List (Nat × Nat)) :
    (A.cutAll c k p2 p3 new ss).dimension = A.dimension ∧
    (A.cutAll c k p2 p3 new ss).coord = A.coord ∧ (A.cutAll c k p2 p3 new ss).ids = A.ids ∧
    (A.cutAll c k p2 p3 new ss).props = A.props ∧
    (∀ d, d ≠ .d1 → (A.cutAll c k p2 p3 new ss).mark d = A.mark d ∧
      (A.cutAll c k p2 p3 new ss).act d = A.act d ∧ (A.cutAll c k p2 p3 new ss).upd d = A.upd d ∧
      (A.cutAll c k p2 p3 new ss).orig d = A.orig d) ∧
    ∀ l, l ≠ .nb01 → l ≠ .nb12 → l ≠ .nb13 → (A.cutAll c k p2 p3 new ss).rows l = A.rows l := by
  induction ss generalizing A new with
  | nil => simp [cutAll]
  | cons s ss ih =>
    rw [cutAll]
    obtain ⟨h1, h2, h3, h4, h6, h7⟩ := ih (A.cutA c new k p2 p3 s) (new + 1)
    refine ⟨h1, h2, h3, h4, ?_, ?_⟩
    · intro d hd
      obtain ⟨a1, a2, a3, a4⟩ := h6 d hd
      rw [a1, a2, a3, a4]
      simp [cutA, fset_ne _ _ hd]
    · intro l l1 l2 l3
      rw [h7 l l1 l2 l3]
      cases l <;> first | rfl | contradiction

theorem cutAll_mark (A : AMesh α) (new : Nat) (ss : List (Nat × Nat))
    (hl : new + ss.length ≤ (A.mark .d1).length) (i : Nat) :
    ((A.cutAll c k p2 p3 new ss).mark .d1)[i]? =
      if new ≤ i ∧ i < new + ss.length then some k else (A.mark .d1)[i]? := by
  induction ss generalizing A new with
  | nil => rw [if_neg (by simp)]; rfl
  | cons s ss ih =>
    simp only [List.length_cons] at hl ⊢
    rw [cutAll, ih _ _ (by simp [cutA]; omega)]
    simp only [cutA, fset_self]
    by_cases h1 : new + 1 ≤ i ∧ i < new + 1 + ss.length
    · rw [if_pos h1, if_pos (by omega)]
    · rw [if_neg h1]
      by_cases h2 : new = i
      · subst h2
        rw [if_pos (by omega), List.getElem?_set_self (by omega)]
      · rw [if_neg (by omega), List.getElem?_set_ne h2]

theorem cutAll_act (A : AMesh α) (new : Nat) (ss : List (Nat × Nat))
    (hl : new + ss.length ≤ (A.act .d1).length) (i : Nat) :
    ((A.cutAll c k p2 p3 new ss).act .d1)[i]? =
      if new ≤ i ∧ i < new + ss.length then some true else (A.act .d1)[i]? := by
  induction ss generalizing A new with
  | nil => rw [if_neg (by simp)]; rfl
  | cons s ss ih =>
    simp only [List.length_cons] at hl ⊢
    rw [cutAll, ih _ _ (by simp [cutA]; omega)]
    simp only [cutA, fset_self]
    by_cases h1 : new + 1 ≤ i ∧ i < new + 1 + ss.length
    · rw [if_pos h1, if_pos (by omega)]
    · rw [if_neg h1]
      by_cases h2 : new = i
      · subst h2
        rw [if_pos (by omega), List.getElem?_set_self (by omega)]
      · rw [if_neg (by omega), List.getElem?_set_ne h2]

theorem cutAll_orig (A : AMesh α) (new : Nat) (ss : List (Nat × Nat))
    (hl : new + ss.length ≤ (A.orig .d1).length) (i : Nat) :
    ((A.cutAll c k p2 p3 new ss).orig .d1)[i]? =
      if new ≤ i ∧ i < new + ss.length then some c else (A.orig .d1)[i]? := by
  induction ss generalizing A new with
  | nil => rw [if_neg (by simp)]; rfl
  | cons s ss ih =>
    simp only [List.length_cons] at hl ⊢
    rw [cutAll, ih _ _ (by simp [cutA]; omega)]
    simp only [cutA, fset_self]
    by_cases h1 : new + 1 ≤ i ∧ i < new + 1 + ss.length
    · rw [if_pos h1, if_pos (by omega)]
    · rw [if_neg h1]
      by_cases h2 : new = i
      · subst h2
        rw [if_pos (by omega), List.getElem?_set_self (by omega)]
      · rw [if_neg (by omega), List.getElem?_set_ne h2]

theorem cutAll_nb12 (A : AMesh α) (new : Nat) (ss : List (Nat × Nat))
    (hl : new + ss.length ≤ (A.rows .nb12).length) (i : Nat) :
    ((A.cutAll c k p2 p3 new ss).rows .nb12)[i]? =
      if new ≤ i ∧ i < new + ss.length then some (inherit (A.num .d2) [] p2)
      else (A.rows .nb12)[i]? := by
  induction ss generalizing A new with
  | nil => rw [if_neg (by simp)]; rfl
  | cons s ss ih =>
    simp only [List.length_cons] at hl ⊢
    rw [cutAll, ih _ _ (by simp [cutA]; omega)]
    simp only [cutA]
    by_cases h1 : new + 1 ≤ i ∧ i < new + 1 + ss.length
    · rw [if_pos h1, if_pos (by omega)]
    · rw [if_neg h1]
      by_cases h2 : new = i
      · subst h2
        rw [if_pos (by omega), List.getElem?_set_self (by omega)]
      · rw [if_neg (by omega), List.getElem?_set_ne h2]

theorem cutAll_nb13 (A : AMesh α) (new : Nat) (ss : List (Nat × Nat))
    (hl : new + ss.length ≤ (A.rows .nb13).length) (i : Nat) :
    ((A.cutAll c k p2 p3 new ss).rows .nb13)[i]? =
      if new ≤ i ∧ i < new + ss.length then some (inherit (A.num .d3) [] p3)
      else (A.rows .nb13)[i]? := by
  induction ss generalizing A new with
  | nil => rw [if_neg (by simp)]; rfl
  | cons s ss ih =>
    simp only [List.length_cons] at hl ⊢
    rw [cutAll, ih _ _ (by simp [cutA]; omega)]
    simp only [cutA]
    by_cases h1 : new + 1 ≤ i ∧ i < new + 1 + ss.length
    · rw [if_pos h1, if_pos (by omega)]
    · rw [if_neg h1]
      by_cases h2 : new = i
      · subst h2
        rw [if_pos (by omega), List.getElem?_set_self (by omega)]
      · rw [if_neg (by omega), List.getElem?_set_ne h2]

theorem cutAll_ext (A : AMesh α) (new : Nat) (ss : List (Nat × Nat))
    (hl : 2 * (new + ss.length) ≤ A.ext.length) :
    (∀ i s, ss[i]? = some s →
      (A.cutAll c k p2 p3 new ss).ext[2 * (new + i)]? = some s.1 ∧
      (A.cutAll c k p2 p3 new ss).ext[2 * (new + i) + 1]? = some s.2) ∧
    ∀ i, i < 2 * new → (A.cutAll c k p2 p3 new ss).ext[i]? = A.ext[i]? := by
  induction ss generalizing A new with
  | nil => simp [cutAll]
  | cons s ss ih =>
    simp only [List.length_cons] at hl
    obtain ⟨h1, h2⟩ := ih (A.cutA c new k p2 p3 s) (new + 1) (by simp [cutA]; omega)
    rw [cutAll]
    constructor
    · intro i t ht
      cases i with
      | zero =>
        rw [h2 _ (by omega), h2 _ (by omega)]
        simp only [List.getElem?_cons_zero, Option.some.injEq] at ht
        subst ht
        simp only [cutA, Nat.add_zero]
        rw [List.getElem?_set_ne (by omega), List.getElem?_set_self (by omega),
          List.getElem?_set_self (by simp; omega)]
        exact ⟨rfl, rfl⟩
      | succ i =>
        rw [show new + (i + 1) = new + 1 + i by omega]
        exact h1 i t (by simpa using ht)
    · intro i hi
      rw [h2 i (by omega)]
      simp only [cutA]
      rw [List.getElem?_set_ne (by omega), List.getElem?_set_ne (by omega)]

theorem cutAll_nb01 (A : AMesh α) (new : Nat) (hc : c < new) (ss : List (Nat × Nat)) (x : Nat)
    (r : List Nat) (hr : (A.rows .nb01)[x]? = some r) :
    ((A.cutAll c k p2 p3 new ss).rows .nb01)[x]? =
      some (r.map fun y => if y = c then heir c new (ss.map fun s => [s.1, s.2]) x else y) := by
  induction ss generalizing A new r with
  | nil =>
    rw [cutAll, hr]
    have : ∀ y, (if y = c then
        heir c new (([] : List (Nat × Nat)).map fun s => [s.1, s.2]) x else y) = y := by
      intro y; split
      · rename_i h; rw [h]; rfl
      · rfl
    simp only [this, List.map_id']
  | cons s ss ih =>
    rw [cutAll, ih _ (new + 1) (by omega)
      (if x ∈ [s.1, s.2] then repl c new r else r) (by simp [cutA, hr]), List.map_cons,
      repl_heir c (by omega)]

theorem cutAll_upd (A : AMesh α) (h : A.Ok) (new : Nat) (ss : List (Nat × Nat))
    (hc : c < new) (hl : new + ss.length = A.num .d1) :
    (∀ x, x ≠ c → mapFind ((A.cutAll c k p2 p3 new ss).upd .d1) x = mapFind (A.upd .d1) x) ∧
    ∀ j, j ∈ (mapFind ((A.cutAll c k p2 p3 new ss).upd .d1) c).getD [] ↔
      j ∈ (mapFind (A.upd .d1) c).getD [] ∨ new ≤ j ∧ j < new + ss.length := by
  induction ss generalizing A new with
  | nil =>
    simp only [cutAll, implies_true, List.length_nil, Nat.add_zero, true_and]
    intro j
    constructor
    · exact Or.inl
    · rintro (h | h)
      · exact h
      · omega
  | cons s ss ih =>
    simp only [List.length_cons] at hl ⊢
    obtain ⟨h1, h2⟩ := ih (A.cutA c new k p2 p3 s) (ok_cutA h (by omega) (by omega)) (new + 1)
      (by omega) (by show _ = A.num .d1; omega)
    rw [cutAll]
    have hu : (A.cutA c new k p2 p3 s).upd .d1 = updInsert (A.upd .d1) c new := by
      simp [cutA]
    constructor
    · intro x hx
      rw [h1 x hx, hu, mapFind_updInsert (h.upd .d1).keys, if_neg hx]
    · intro j
      rw [h2, hu, mapFind_updInsert (h.upd .d1).keys, if_pos rfl]
      simp only [Option.getD_some, mem_setInsert]
      constructor
      · rintro ((h | h) | h)
        · exact Or.inl h
        · right; omega
        · right; omega
      · rintro (h | h)
        · exact Or.inl (Or.inl h)
        · by_cases hj : j = new
          · exact Or.inl (Or.inr hj)
          · right; omega

end fields

theorem inherit_nil (n : Nat) (par : List Nat) :
    inherit n [] par = par.map fun y => if y < n then y else UINT_MAX := by
  unfold inherit
  apply List.ext_getElem
  · simp
  · intro j h1 h2
    simp only [List.length_map] at h2
    simp [vresize]

end AMesh
end Verif
