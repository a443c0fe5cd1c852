import Verif.FanMeshModel
import Verif.FanMeshSpec
import Verif.FanLemmas
import Verif.MergeLemmas

/-
Lemmas for groups of triangles that are put together.
-/
namespace Verif

open Res

namespace AMesh

variable {α : Type} {A : AMesh α}

/-- Triangles become inactive and get the new polygon. -/
def takeAll (A : AMesh α) (new : Nat) : List Nat → AMesh α
  | [] => A
  | c :: cs => ((A.withAct .d2 c false).withUpd .d2 c new).takeAll new cs

theorem takeAll_frame (A : AMesh α) (new : Nat) (cs : List Nat) :
    (A.takeAll new cs).dimension = A.dimension ∧ (A.takeAll new cs).num = A.num ∧ (A.takeAll new cs).coord = A.coord ∧
    (A.takeAll new cs).ext = A.ext ∧ (A.takeAll new cs).mark = A.mark ∧ (A.takeAll new cs).ids = A.ids ∧
    (A.takeAll new cs).props = A.props ∧ (A.takeAll new cs).rows = A.rows ∧
    (A.takeAll new cs).act = (A.offAll .d2 cs).act ∧ (∀ d, d ≠ .d2 → (A.takeAll new cs).orig d = A.orig d) ∧
    (∀ d, d ≠ .d2 → (A.takeAll new cs).upd d = A.upd d) ∧
    ∀ i, i ≠ new → ((A.takeAll new cs).orig .d2)[i]? = (A.orig .d2)[i]? := by
  induction cs generalizing A with
  | nil => exact ⟨rfl, rfl, rfl, rfl, rfl, rfl, rfl, rfl, rfl, fun _ _ => rfl, fun _ _ => rfl, fun _ _ => rfl⟩
  | cons c cs ih =>
    obtain ⟨h1, h2, h3, h4, h5, h6, h7, h8, h9, h10, h11, h12⟩ := ih ((A.withAct .d2 c false).withUpd .d2 c new)
    refine ⟨h1, h2, h3, h4, h5, h6, h7, h8, ?_, ?_, ?_, ?_⟩
    · refine h9.trans ?_
      have key : ∀ (B C : AMesh α), B.act = C.act → (B.offAll .d2 cs).act = (C.offAll .d2 cs).act := by
        clear h1 h2 h3 h4 h5 h6 h7 h8 h9 h10 h11 h12 ih
        induction cs with
        | nil => intro B C h; exact h
        | cons x xs ih =>
          intro B C h
          exact ih (B.withAct .d2 x false) (C.withAct .d2 x false) (by simp only [withAct, h])
      exact key _ _ rfl
    · intro d hd
      rw [show (A.takeAll new (c :: cs)).orig d = _ from h10 d hd]
      simp only [withUpd, fset_ne _ _ hd]
      rfl
    · intro d hd
      rw [show (A.takeAll new (c :: cs)).upd d = _ from h11 d hd]
      simp only [withUpd, fset_ne _ _ hd]
      rfl
    · intro i hi
      rw [show ((A.takeAll new (c :: cs)).orig .d2)[i]? = _ from h12 i hi]
      simp only [withUpd, fset_self]
      rw [List.getElem?_set_ne (Ne.symm hi)]
      rfl

theorem takeAll_ok (h : A.Ok) {new : Nat} (hn : new < A.num .d2) {cs : List Nat} (hc : ∀ c ∈ cs, c < A.num .d2) :
    (A.takeAll new cs).Ok := by
  induction cs generalizing A with
  | nil => exact h
  | cons c cs ih =>
    exact ih (ok_withUpd (ok_withAct h .d2 c false) (by simp) (hc c (by simp)) hn) hn
      fun c' h' => hc c' (by simp [h'])

theorem takeAll_orig (h : A.Ok) {new : Nat} (hn : new < A.num .d2) {cs : List Nat} (hc : ∀ c ∈ cs, c < A.num .d2) {t : Nat}
    (ht : cs.getLast? = some t) : ((A.takeAll new cs).orig .d2)[new]? = some t := by
  induction cs generalizing A with
  | nil => simp at ht
  | cons c cs ih =>
    have h' := ok_withUpd (ok_withAct h .d2 c false) (by simp) (hc c (by simp)) hn
    cases cs with
    | nil =>
      simp only [List.getLast?_singleton, Option.some.injEq] at ht
      subst ht
      show (((A.withAct .d2 c false).withUpd .d2 c new).orig .d2)[new]? = _
      simp only [withUpd, fset_self]
      rw [List.getElem?_set_self]
      show new < (A.orig .d2).length
      rw [h.orig .d2 (by simp)]; exact hn
    | cons d ds => exact ih h' hn (fun c' h' => hc c' (by simp [h'])) (by simpa [List.getLast?_cons_cons] using ht)

theorem takeAll_upd (h : A.Ok) {new : Nat} (hn : new < A.num .d2) {cs : List Nat} (hc : ∀ c ∈ cs, c < A.num .d2)
    (hd : cs.Nodup) (x : Nat) : mapFind ((A.takeAll new cs).upd .d2) x =
      if x ∈ cs then some (setInsert ((mapFind (A.upd .d2) x).getD []) new) else mapFind (A.upd .d2) x := by
  induction cs generalizing A with
  | nil => simp [takeAll]
  | cons c cs ih =>
    have h' := ok_withUpd (ok_withAct h .d2 c false) (by simp) (hc c (by simp)) hn
    rw [takeAll, ih h' hn (fun c' h' => hc c' (by simp [h'])) (List.nodup_cons.1 hd).2]
    have e : ((A.withAct .d2 c false).withUpd .d2 c new).upd .d2 = updInsert (A.upd .d2) c new := by
      simp only [withUpd, fset_self]; rfl
    rw [e, mapFind_updInsert (h.upd .d2).keys]
    by_cases hx : x = c
    · subst hx
      simp [(List.nodup_cons.1 hd).1]
    · simp [hx]

theorem active_conc' {d : Dim} {i : Nat} {b : Bool} (hi : i < A.num d) (hb : (A.act d)[i]? = some b) :
    A.conc.active d i = ok b := by
  unfold Mesh.active
  show (do assert (i < A.num d); vget (A.act d) i) = _
  rw [assert_true hi, ok_bind, vget_eq_ok]
  exact hb

theorem active_eq_ok {d : Dim} {i : Nat} {b : Bool} (h : A.conc.active d i = ok b) :
    i < A.num d ∧ (A.act d)[i]? = some b := by
  unfold Mesh.active at h
  by_cases hi : i < A.conc.num d
  · rw [assert_true hi, ok_bind, vget_eq_ok] at h
    exact ⟨hi, h⟩
  · rw [assert_false hi] at h; cases h

theorem takeTriangles_conc (h : A.Ok) {new : Nat} (hn : new < A.num .d2) {cs : List Nat} (hc : ∀ c ∈ cs, c < A.num .d2)
    (hd : cs.Nodup) (ha : ∀ c ∈ cs, (A.act .d2)[c]? = some true) :
    A.conc.takeTriangles new cs = ok (A.takeAll new cs).conc := by
  induction cs generalizing A with
  | nil => rfl
  | cons c cs ih =>
    unfold Mesh.takeTriangles at ih ⊢
    have h' := ok_withUpd (ok_withAct h .d2 c false) (by simp) (hc c (by simp)) hn
    rw [foldRes_cons, active_conc' (hc c (by simp)) (ha c (by simp)), ok_bind, assert_true rfl, ok_bind,
      setAct_with h (hc c (by simp)), ok_bind, insertUpd_conc (ok_withAct h .d2 c false) (by simp) (hc c (by simp)) hn,
      ok_bind]
    refine ih h' hn (fun c' h' => hc c' (by simp [h'])) (List.nodup_cons.1 hd).2 ?_
    intro c' hc'
    have hne : c ≠ c' := fun e => (List.nodup_cons.1 hd).1 (e ▸ hc')
    show ((A.withAct .d2 c false).act .d2)[c']? = _
    simp only [withAct, fset_self]
    rw [List.getElem?_set_ne hne]
    exact ha c' (by simp [hc'])

theorem takeEdges_conc (h : A.Ok) {cs : List Nat} (hc : ∀ c ∈ cs, c < A.num .d1)
    (hd : cs.Nodup) (ha : ∀ c ∈ cs, (A.act .d1)[c]? = some true) :
    A.conc.takeEdges cs = ok (A.offAll .d1 cs).conc := by
  induction cs generalizing A with
  | nil => rfl
  | cons c cs ih =>
    unfold Mesh.takeEdges at ih ⊢
    rw [foldRes_cons, active_conc' (hc c (by simp)) (ha c (by simp)), ok_bind, assert_true rfl, ok_bind,
      setAct_with h (hc c (by simp)), ok_bind]
    refine ih (ok_withAct h .d1 c false) (fun c' h' => hc c' (by simp [h'])) (List.nodup_cons.1 hd).2 ?_
    intro c' hc'
    have hne : c ≠ c' := fun e => (List.nodup_cons.1 hd).1 (e ▸ hc')
    show ((A.withAct .d1 c false).act .d1)[c']? = _
    simp only [withAct, fset_self]
    rw [List.getElem?_set_ne hne]
    exact ha c' (by simp [hc'])

theorem takeTriangles_abort (h : A.Ok) {new : Nat} (hn : new < A.num .d2) {cs : List Nat} (hc : ∀ c ∈ cs, c < A.num .d2)
    (ha : ∃ c ∈ cs, (A.act .d2)[c]? = some false) : A.conc.takeTriangles new cs = abort := by
  induction cs generalizing A with
  | nil => obtain ⟨c, hc, -⟩ := ha; simp at hc
  | cons c cs ih =>
    unfold Mesh.takeTriangles at ih ⊢
    obtain ⟨b, hb⟩ : ∃ b, (A.act .d2)[c]? = some b :=
      ⟨_, List.getElem?_eq_getElem (by rw [h.act]; exact hc c (by simp))⟩
    have h' := ok_withUpd (ok_withAct h .d2 c false) (by simp) (hc c (by simp)) hn
    rw [foldRes_cons, active_conc' (hc c (by simp)) hb, ok_bind]
    cases b with
    | false => rfl
    | true =>
      rw [assert_true rfl, ok_bind,
        setAct_with h (hc c (by simp)), ok_bind, insertUpd_conc (ok_withAct h .d2 c false) (by simp) (hc c (by simp)) hn,
        ok_bind]
      refine ih h' hn (fun c' h' => hc c' (by simp [h'])) ?_
      obtain ⟨t, ht, hf⟩ := ha
      have hne : c ≠ t := by rintro rfl; rw [hb] at hf; cases hf
      refine ⟨t, (List.mem_cons.1 ht).resolve_left (Ne.symm hne), ?_⟩
      show ((A.withAct .d2 c false).act .d2)[t]? = _
      simp only [withAct, fset_self]
      rw [List.getElem?_set_ne hne]
      exact hf

theorem takeEdges_abort (h : A.Ok) {cs : List Nat} (hc : ∀ c ∈ cs, c < A.num .d1)
    (ha : ∃ c ∈ cs, (A.act .d1)[c]? = some false) : A.conc.takeEdges cs = abort := by
  induction cs generalizing A with
  | nil => obtain ⟨c, hc, -⟩ := ha; simp at hc
  | cons c cs ih =>
    unfold Mesh.takeEdges at ih ⊢
    obtain ⟨b, hb⟩ : ∃ b, (A.act .d1)[c]? = some b :=
      ⟨_, List.getElem?_eq_getElem (by rw [h.act]; exact hc c (by simp))⟩
    rw [foldRes_cons, active_conc' (hc c (by simp)) hb, ok_bind]
    cases b with
    | false => rfl
    | true =>
      rw [assert_true rfl, ok_bind, setAct_with h (hc c (by simp)), ok_bind]
      refine ih (ok_withAct h .d1 c false) (fun c' h' => hc c' (by simp [h'])) ?_
      obtain ⟨t, ht, hf⟩ := ha
      have hne : c ≠ t := by rintro rfl; rw [hb] at hf; cases hf
      refine ⟨t, (List.mem_cons.1 ht).resolve_left (Ne.symm hne), ?_⟩
      show ((A.withAct .d1 c false).act .d1)[t]? = _
      simp only [withAct, fset_self]
      rw [List.getElem?_set_ne hne]
      exact hf

/-- The mesh with the new polygon. -/
def fanCellA [Zero α] (A : AMesh α) (vs es : List Nat) : AMesh α :=
  ((((A.append .d2 1).setRow .vert2 (A.num .d2) vs).setRow .edge2 (A.num .d2) es).withMark .d2 (A.num .d2) 0).withAct .d2
    (A.num .d2) true

/-- The mesh after one round. -/
def fanRoundA [Zero α] (A : AMesh α) (vs es ts inner : List Nat) : AMesh α :=
  ((A.fanCellA vs es).takeAll (A.num .d2) ts).offAll .d1 inner

section
variable [Zero α]

theorem fanCellA_num (A : AMesh α) (vs es : List Nat) : (A.fanCellA vs es).num = fset A.num .d2 (A.num .d2 + 1) := rfl

theorem ok_fanCellA (h : A.Ok) (vs es : List Nat) : (A.fanCellA vs es).Ok :=
  ok_withAct (ok_withMark (ok_setRow (ok_setRow (ok_append h .d2 1) _ _ _) _ _ _) _ _ _) _ _ _

theorem fanCellA_rows (h : A.Ok) (vs es : List Nat) (l : Lst) (i : Nat) : ((A.fanCellA vs es).rows l)[i]? =
    if l = .edge2 ∧ i = A.num .d2 then some es else if l = .vert2 ∧ i = A.num .d2 then some vs
    else ((A.append .d2 1).rows l)[i]? := by
  have h0 := ok_append h .d2 1
  have h1 := ok_setRow h0 .vert2 (A.num .d2) vs
  have hn : A.num .d2 < (A.append .d2 1).num .d2 := by rw [(append_one h .d2).2.1]; omega
  show ((((A.append .d2 1).setRow .vert2 (A.num .d2) vs).setRow .edge2 (A.num .d2) es).rows l)[i]? = _
  rw [setRow_rows _ _ _ _ _ _ (by rw [h1.rows]; exact hn), setRow_rows _ _ _ _ _ _ (by rw [h0.rows]; exact hn)]

theorem fanCellA_act (h : A.Ok) (vs es : List Nat) (e : Dim) (i : Nat) : ((A.fanCellA vs es).act e)[i]? =
    if e = .d2 ∧ i = A.num .d2 then some true else ((A.append .d2 1).act e)[i]? := by
  have h0 := ok_append h .d2 1
  have hn : A.num .d2 < ((A.append .d2 1).act .d2).length := by rw [h0.act, (append_one h .d2).2.1]; omega
  show (fset (A.append .d2 1).act .d2 (((A.append .d2 1).act .d2).set (A.num .d2) true) e)[i]? = _
  by_cases he : e = .d2
  · subst he
    rw [fset_self, List.getElem?_set]
    by_cases hi : i = A.num .d2
    · subst hi; simp [hn]
    · simp [hi, Ne.symm hi]
  · rw [fset_ne _ _ he]; simp [he]

theorem fanCellA_mark (h : A.Ok) (vs es : List Nat) (e : Dim) (i : Nat) : ((A.fanCellA vs es).mark e)[i]? =
    if e = .d2 ∧ i = A.num .d2 then some 0 else ((A.append .d2 1).mark e)[i]? := by
  have h0 := ok_append h .d2 1
  have hn : A.num .d2 < ((A.append .d2 1).mark .d2).length := by rw [h0.mark, (append_one h .d2).2.1]; omega
  show (fset (A.append .d2 1).mark .d2 (((A.append .d2 1).mark .d2).set (A.num .d2) 0) e)[i]? = _
  by_cases he : e = .d2
  · subst he
    rw [fset_self, List.getElem?_set]
    by_cases hi : i = A.num .d2
    · subst hi; simp [hn]
    · simp [hi, Ne.symm hi]
  · rw [fset_ne _ _ he]; simp [he]

theorem fanRound_start (h : A.Ok) {g : FanGroup} (hg : g.In A.conc) (s : FanMesh α) (hs : s.mesh = A.conc) :
    Mesh.fanMeshRound s g.triangles = (do
      let m ← (A.fanCellA g.vertices g.edges).conc.takeTriangles (A.num .d2) g.triangles
      let m ← m.takeEdges g.inner
      ok (FanMesh.mk m (s.cells ++ [(A.num .d2, g.triangles)]) (s.edges ++ g.inner) (s.polygons ++ g.triangles))) := by
  have h0 := ok_append h .d2 1
  obtain ⟨n0, n2, -, -, -, a0⟩ := append_one h .d2
  have hn : A.num .d2 < (A.append .d2 1).num .d2 := by omega
  have h1 := ok_setRow h0 .vert2 (A.num .d2) g.vertices
  have h2 := ok_setRow h1 .edge2 (A.num .d2) g.edges
  have h3 := ok_withMark h2 .d2 (A.num .d2) 0
  unfold Mesh.fanMeshRound
  rw [hs, fan_run (wf_conc h) hg.fan hg.three, ok_bind, append_conc h, ok_bind]
  show (do
    let m ← (A.append .d2 1).conc.addRow .vert2 (A.num .d2) g.vertices
    let m ← m.addRow .edge2 (A.num .d2) g.edges
    let m ← m.setMark .d2 (A.num .d2) 0
    let m ← m.setAct .d2 (A.num .d2) true
    let m ← m.takeTriangles (A.num .d2) g.triangles
    let m ← m.takeEdges g.inner
    ok (FanMesh.mk m (s.cells ++ [(A.num .d2, g.triangles)]) (s.edges ++ g.inner) (s.polygons ++ g.triangles))) = _
  rw [addRow_conc h0 (show A.num .d2 < (A.append .d2 1).num (Lst.owner .vert2) from hn) (by simp)
      (fun v hv => by rw [show Lst.target .vert2 = .d0 from rfl, n0 _ (by simp)]; exact hg.vertices v hv), ok_bind,
    addRow_conc h1 (show A.num .d2 < (A.append .d2 1).num (Lst.owner .edge2) from hn) (by simp)
      (fun v hv => by
        show v < (A.append .d2 1).num .d1
        rw [n0 _ (by simp)]; exact hg.edges v hv), ok_bind,
    setMark_with h2 hn, ok_bind, setAct_with h3 hn, ok_bind]
  rfl

theorem fanRound_conc (h : A.Ok) {g : FanGroup} (hg : g.In A.conc) (s : FanMesh α) (hs : s.mesh = A.conc)
    (hd : g.triangles.Nodup) (hd' : g.inner.Nodup) (ha : ∀ t ∈ g.triangles, A.conc.active .d2 t = ok true)
    (ha' : ∀ t ∈ g.inner, A.conc.active .d1 t = ok true) :
    (A.fanRoundA g.vertices g.edges g.triangles g.inner).Ok ∧
    Mesh.fanMeshRound s g.triangles = ok ⟨(A.fanRoundA g.vertices g.edges g.triangles g.inner).conc,
      s.cells ++ [(A.num .d2, g.triangles)], s.edges ++ g.inner, s.polygons ++ g.triangles⟩ := by
  obtain ⟨n0, n2, -, -, -, a0⟩ := append_one h .d2
  have h4 := ok_fanCellA h g.vertices g.edges
  have hc4 : ∀ c ∈ g.triangles, c < (A.fanCellA g.vertices g.edges).num .d2 := by
    intro c hc
    have := (active_eq_ok (ha c hc)).1
    rw [fanCellA_num, fset_self]; omega
  have hn4 : A.num .d2 < (A.fanCellA g.vertices g.edges).num .d2 := by rw [fanCellA_num, fset_self]; omega
  have h5 := takeAll_ok h4 hn4 hc4
  obtain ⟨-, f2, -, -, -, -, -, -, f9, -⟩ := takeAll_frame (A.fanCellA g.vertices g.edges) (A.num .d2) g.triangles
  refine ⟨ok_offAll h5 _ _, ?_⟩
  rw [fanRound_start h hg s hs]
  rw [takeTriangles_conc h4 hn4 hc4 hd, ok_bind, takeEdges_conc h5 _ hd', ok_bind]
  · rfl
  · intro c hc
    obtain ⟨c1, c2⟩ := active_eq_ok (ha' c hc)
    rw [f9, offAll_act, if_neg (by simp), fanCellA_act h, if_neg (by simp), a0 _ _ c1]
    exact c2
  · intro c hc
    obtain ⟨c1, c2⟩ := active_eq_ok (ha' c hc)
    rw [f2, fanCellA_num, fset_ne _ _ (by simp)]
    exact c1
  · intro c hc
    obtain ⟨c1, c2⟩ := active_eq_ok (ha c hc)
    rw [fanCellA_act h, if_neg (by simp; omega), a0 _ _ c1]
    exact c2

theorem fanRound_abort (h : A.Ok) {g : FanGroup} (hg : g.In A.conc) (s : FanMesh α) (hs : s.mesh = A.conc)
    (hd : g.triangles.Nodup) (hlt : ∀ t ∈ g.triangles, t < A.num .d2) (hlt' : ∀ t ∈ g.inner, t < A.num .d1)
    (ha : (∃ t ∈ g.triangles, A.conc.active .d2 t = ok false) ∨ ∃ t ∈ g.inner, A.conc.active .d1 t = ok false) :
    Mesh.fanMeshRound s g.triangles = abort := by
  obtain ⟨n0, n2, -, -, -, a0⟩ := append_one h .d2
  have h4 := ok_fanCellA h g.vertices g.edges
  have hc4 : ∀ c ∈ g.triangles, c < (A.fanCellA g.vertices g.edges).num .d2 := by
    intro c hc
    have := hlt c hc
    rw [fanCellA_num, fset_self]; omega
  have hn4 : A.num .d2 < (A.fanCellA g.vertices g.edges).num .d2 := by rw [fanCellA_num, fset_self]; omega
  have h5 := takeAll_ok h4 hn4 hc4
  obtain ⟨-, f2, -, -, -, -, -, -, f9, -⟩ := takeAll_frame (A.fanCellA g.vertices g.edges) (A.num .d2) g.triangles
  have act4 : ∀ t ∈ g.triangles, ((A.fanCellA g.vertices g.edges).act .d2)[t]? = (A.act .d2)[t]? := by
    intro t ht
    have := hlt t ht
    rw [fanCellA_act h, if_neg (by simp; omega), a0 _ _ this]
  rw [fanRound_start h hg s hs]
  by_cases hb : ∃ t ∈ g.triangles, A.conc.active .d2 t = ok false
  · rw [takeTriangles_abort h4 hn4 hc4 ?_]
    · rfl
    · obtain ⟨t, ht, hf⟩ := hb
      exact ⟨t, ht, by rw [act4 t ht]; exact (active_eq_ok hf).2⟩
  · rw [takeTriangles_conc h4 hn4 hc4 hd, ok_bind, takeEdges_abort h5]
    · rfl
    · intro c hc
      rw [f2, fanCellA_num, fset_ne _ _ (by simp)]
      exact hlt' c hc
    · obtain ⟨t, ht, hf⟩ := ha.resolve_left hb
      obtain ⟨c1, c2⟩ := active_eq_ok hf
      refine ⟨t, ht, ?_⟩
      rw [f9, offAll_act, if_neg (by simp), fanCellA_act h, if_neg (by simp), a0 _ _ c1]
      exact c2
    · intro c hc
      rw [act4 c hc]
      obtain ⟨b, hb'⟩ : ∃ b, (A.act .d2)[c]? = some b :=
        ⟨_, List.getElem?_eq_getElem (by rw [h.act]; exact hlt c hc)⟩
      cases b with
      | true => exact hb'
      | false => exact absurd ⟨c, hc, active_conc' (hlt c hc) hb'⟩ hb

theorem takenOut_one {g : FanGroup} {e : Dim} {i : Nat} : TakenOut [g] e i ↔
    (e = .d2 ∧ i ∈ g.triangles) ∨ (e = .d1 ∧ i ∈ g.inner) := by
  simp [TakenOut]

theorem isAgglomerated_one (h : A.Ok) {g : FanGroup} (hd : g.triangles.Nodup)
    (ha : ∀ t ∈ g.triangles, A.conc.active .d2 t = ok true) (ha' : ∀ t ∈ g.inner, A.conc.active .d1 t = ok true)
    (hF : (A.fanRoundA g.vertices g.edges g.triangles g.inner).Ok) :
    IsAgglomerated A.conc (A.fanRoundA g.vertices g.edges g.triangles g.inner).conc [g] := by
  obtain ⟨n0, n2, r0, r1, m0, a0⟩ := append_one h .d2
  have hold := sameOldCells_append h .d2 1
  have blank := blankCell_append h .d2 1 le_rfl (Nat.lt_succ_self _)
  have h4 := ok_fanCellA h g.vertices g.edges
  have hlt : ∀ c ∈ g.triangles, c < A.num .d2 := fun c hc => (active_eq_ok (ha c hc)).1
  have hc4 : ∀ c ∈ g.triangles, c < (A.fanCellA g.vertices g.edges).num .d2 := by
    intro c hc
    have := hlt c hc
    rw [fanCellA_num, fset_self]; omega
  have hn4 : A.num .d2 < (A.fanCellA g.vertices g.edges).num .d2 := by rw [fanCellA_num, fset_self]; omega
  obtain ⟨f1, f2, f3, f4, f5, f6, f7, f8, f9, f10, f11, f12⟩ :=
    takeAll_frame (A.fanCellA g.vertices g.edges) (A.num .d2) g.triangles
  have fo := fun t => takeAll_orig h4 hn4 hc4 (t := t)
  have fu := takeAll_upd h4 hn4 hc4 hd
  obtain ⟨o1, o2, o3, o4, o5, o6, o7, o8, o9, o10⟩ :=
    offAll_frame ((A.fanCellA g.vertices g.edges).takeAll (A.num .d2) g.triangles) .d1 g.inner
  have oa := offAll_act ((A.fanCellA g.vertices g.edges).takeAll (A.num .d2) g.triangles) .d1 g.inner
  generalize hFe : A.fanRoundA g.vertices g.edges g.triangles g.inner = F at *
  unfold fanRoundA at hFe
  rw [hFe] at o1 o2 o3 o4 o5 o6 o7 o8 o9 o10 oa
  have hnum : F.num = (A.append .d2 1).num := by rw [o2, f2]; rfl
  have hFl : ∀ e i, i < A.num e → i < F.num e := by
    intro e i hi
    rw [hnum]
    by_cases he : e = .d2
    · subst he; omega
    · rw [n0 e he]; exact hi
  have hBl : ∀ e i, i < A.num e → i < (A.append .d2 1).num e := by
    intro e i hi; rw [← hnum]; exact hFl e i hi
  have hnew : A.num .d2 < F.num .d2 := by rw [hnum, n2]; omega
  have hprops : F.conc.props = (A.append .d2 1).conc.props := by
    show (fun d => (F.props d).map Csr.ofRows) = fun e => ((A.append .d2 1).props e).map Csr.ofRows
    rw [o9, f7]; rfl
  have hids : F.ids = (A.append .d2 1).ids := by rw [o8, f6]; rfl
  have hrows : ∀ l i, (F.rows l)[i]? = if l = .edge2 ∧ i = A.num .d2 then some g.edges
      else if l = .vert2 ∧ i = A.num .d2 then some g.vertices else ((A.append .d2 1).rows l)[i]? := by
    intro l i; rw [o10, f8, fanCellA_rows h]
  have hmark : ∀ e i, (F.mark e)[i]? = if e = .d2 ∧ i = A.num .d2 then some 0 else ((A.append .d2 1).mark e)[i]? := by
    intro e i; rw [o5, f5, fanCellA_mark h]
  have hact : ∀ e i, i < A.num e → (F.act e)[i]? = if (e = .d2 ∧ i ∈ g.triangles) ∨ (e = .d1 ∧ i ∈ g.inner) then some false else (A.act e)[i]? := by
    intro e i hi
    have hl5 : i < (((A.fanCellA g.vertices g.edges).takeAll (A.num .d2) g.triangles).act e).length := by
      rw [(takeAll_ok h4 hn4 hc4).act, f2, fanCellA_num]; exact hFl e i hi |> fun q => by rw [hnum] at q; exact q
    have hl4 : i < ((A.fanCellA g.vertices g.edges).act e).length := by
      rw [h4.act, fanCellA_num]; exact hFl e i hi |> fun q => by rw [hnum] at q; exact q
    have hold' : ((A.fanCellA g.vertices g.edges).act e)[i]? = (A.act e)[i]? := by
      rw [fanCellA_act h, if_neg (by rintro ⟨rfl, q⟩; omega), a0 e i hi]
    rw [oa, f9, offAll_act, hold']
    rw [f9] at hl5
    by_cases he : e = .d2
    · subst he; simp [hl4]
    · by_cases he1 : e = .d1
      · subst he1; simp [hl5]
      · simp [he, he1]
  have hupd : ∀ x, mapFind (F.upd .d2) x = if x ∈ g.triangles then
      some (setInsert ((mapFind (A.upd .d2) x).getD []) (A.num .d2)) else mapFind (A.upd .d2) x := by
    intro x
    rw [o7, fu x]
    rfl
  have hfresh : mapFind (A.upd .d2) (A.num .d2) = none := by
    rw [mapFind_eq_none]
    intro s hs
    exact absurd ((h.upd .d2).key_lt _ hs) (lt_irrefl _)
  have hnt : A.num .d2 ∉ g.triangles := fun q => absurd (hlt _ q) (lt_irrefl _)
  constructor
  · exact wf_conc hF
  · exact (o1.trans f1).trans hold.dimension
  · show F.num .d2 = A.num .d2 + 1
    rw [hnum, n2]
  · intro e he
    show F.num e = A.num e
    rw [hnum, n0 e he]
  · intro k g' hk
    obtain ⟨rfl, rfl⟩ : k = 0 ∧ g' = g := by
      match k, hk with
      | 0, hk => exact ⟨rfl, by simpa using hk.symm⟩
    show IsFanCell F.conc g' (A.num .d2)
    constructor
    · exact row_conc hF (by rw [hrows, if_neg (by simp), if_pos ⟨rfl, rfl⟩])
    · exact row_conc hF (by rw [hrows, if_pos ⟨rfl, rfl⟩])
    · intro l hl hl1 hl2
      exact row_conc hF (by rw [hrows, if_neg (by simp [hl2]), if_neg (by simp [hl1])]; exact r1 l hl)
    · exact marker_conc hnew (by rw [hmark, if_pos ⟨rfl, rfl⟩])
    · refine active_conc' hnew ?_
      rw [oa, if_neg (by simp), f9, offAll_act, if_neg (by simp [hnt]), fanCellA_act h, if_pos ⟨rfl, rfl⟩]
    · intro t ht
      unfold Mesh.original
      rw [assert_true (show A.num .d2 < F.conc.num .d2 from hnew), ok_bind]
      have : (F.conc.orig .d2)[A.num .d2]? = some t := by
        show (F.orig .d2)[A.num .d2]? = some t
        rw [o6]; exact fo t ht
      rw [this]
    · unfold Mesh.updated
      rw [assert_true (show A.num .d2 < F.conc.num .d2 from hnew), ok_bind]
      show ok (mapFind (F.upd .d2) (A.num .d2)) = _
      rw [hupd, if_neg hnt, hfresh]
    · intro p hp
      refine Eq.trans ?_ (blank.propSize p ?_)
      · exact propSize_congr (show F.num = _ from hnum) hids hprops
      · have : F.conc.ids = (A.append .d2 1).conc.ids := hids
        rw [← this]; exact hp
  · intro i hi
    rw [← hold.coordinates i hi]
    exact coordinates_congr hnum ((o3.trans f3).trans rfl)
  · intro i hi
    rw [← hold.extremes i hi]
    exact extremes_congr hnum ((o4.trans f4).trans rfl)
  · intro e i hi
    have hi' : i < A.num e := hi
    exact marker_congr hi (hFl e i hi) (by
      show (F.mark e)[i]? = (A.mark e)[i]?
      rw [hmark, if_neg (by rintro ⟨rfl, q⟩; omega), m0 e i hi])
  · intro e i hi hne
    exact active_congr hi (hFl e i hi) (by
      show (F.act e)[i]? = (A.act e)[i]?
      rw [hact e i hi, if_neg (fun q => hne (takenOut_one.2 q))])
  · intro e i hi hh
    exact active_conc' (hFl e i hi) (by rw [hact e i hi, if_pos (takenOut_one.1 hh)])
  · intro e i hi
    have hi' : i < A.num e := hi
    rw [← hold.original e i hi]
    apply original_congr (hBl e i hi) (hFl e i hi)
    show (F.orig e)[i]? = ((A.append .d2 1).orig e)[i]?
    rw [o6]
    by_cases he : e = .d2
    · subst he; rw [f12 i (by omega)]; rfl
    · rw [f10 e he]; rfl
  · intro e i hi hne
    rw [← hold.updated e i hi]
    apply updated_congr (hBl e i hi) (hFl e i hi)
    show mapFind (F.upd e) i = mapFind (A.upd e) i
    by_cases he : e = .d2
    · subst he
      rw [hupd, if_neg (hne rfl g (by simp))]
    · rw [o7, f11 e he]; rfl
  · intro k g' t hk ht hu
    obtain ⟨rfl, rfl⟩ : k = 0 ∧ g' = g := by
      match k, hk with
      | 0, hk => exact ⟨rfl, by simpa using hk.symm⟩
    have htl := hlt t ht
    unfold Mesh.updated at hu ⊢
    rw [assert_true (show t < A.conc.num .d2 from htl), ok_bind] at hu
    rw [assert_true (show t < F.conc.num .d2 from hFl _ t htl), ok_bind]
    have hu' : mapFind (A.upd .d2) t = none := by injection hu
    show ok (mapFind (F.upd .d2) t) = ok (some [A.num .d2])
    rw [hupd, if_pos ht, hu']
    rfl
  · show F.ids = _
    rw [hids]
    rfl
  · intro e i p hi
    rw [← hold.propSize e i p hi]
    exact propSize_congr hnum hids hprops
  · intro e i p t hi
    rw [← hold.propValue e i p t hi]
    exact propValue_congr hnum hids hprops
  · intro l i hi
    have hi' : i < A.num l.owner := hi
    obtain ⟨r, hr'⟩ := getElem?_row h (l := l) (j := i) hi
    rw [row_conc h hr']
    apply row_conc hF
    rw [hrows, if_neg, if_neg, r0 l i hi, hr']
    · rintro ⟨rfl, rfl⟩; exact absurd hi' (lt_irrefl _)
    · rintro ⟨rfl, rfl⟩; exact absurd hi' (lt_irrefl _)

end

end AMesh

section
variable {α : Type}

theorem takenOut_cons {g : FanGroup} {gs : List FanGroup} {e : Dim} {i : Nat} :
    TakenOut (g :: gs) e i ↔ TakenOut [g] e i ∨ TakenOut gs e i := by
  simp [TakenOut]

theorem IsAgglomerated.nil {m : Mesh α} (h : m.WF) : IsAgglomerated m m [] where
  wf := h
  dimension := rfl
  num2 := rfl
  num := fun _ _ => rfl
  cells := by intro k g h; simp at h
  coordinates := fun _ _ => rfl
  extremes := fun _ _ => rfl
  marker := fun _ _ _ => rfl
  active := fun _ _ _ _ => rfl
  inactive := by rintro e i - ⟨g, hg, -⟩; simp at hg
  original := fun _ _ _ => rfl
  updated := fun _ _ _ _ => rfl
  joined := by intro k g t h; simp at h
  ids := rfl
  propSize := fun _ _ _ _ => rfl
  propValue := fun _ _ _ _ _ => rfl
  rows := fun _ _ _ => rfl

theorem IsAgglomerated.cons {m m1 m' : Mesh α} {g : FanGroup} {gs : List FanGroup} (h1 : IsAgglomerated m m1 [g])
    (h2 : IsAgglomerated m1 m' gs) (ht : ∀ g' ∈ g :: gs, ∀ t ∈ g'.triangles, t < m.num .d2)
    (hd : ∀ t ∈ g.triangles, ∀ g' ∈ gs, t ∉ g'.triangles) : IsAgglomerated m m' (g :: gs) := by
  have hn2 : m1.num .d2 = m.num .d2 + 1 := h1.num2
  have hl : ∀ e i, i < m.num e → i < m1.num e := by
    intro e i hi
    by_cases he : e = .d2
    · subst he; omega
    · rw [h1.num e he]; exact hi
  have hnew : ∀ g' ∈ gs, m.num .d2 ∉ g'.triangles := fun g' hg' q =>
    absurd (ht g' (by simp [hg']) _ q) (lt_irrefl _)
  have c1 := h1.cells 0 g rfl
  have hids : m'.ids = m1.ids := h2.ids
  constructor
  · exact h2.wf
  · exact h2.dimension.trans h1.dimension
  · rw [h2.num2, hn2, List.length_cons]; omega
  · intro e he; rw [h2.num e he, h1.num e he]
  · intro k g' hk
    match k, hk with
    | 0, hk =>
      simp only [List.getElem?_cons_zero, Option.some.injEq] at hk
      subst hk
      have hi : m.num .d2 < m1.num .d2 := by omega
      have hnt : ¬ TakenOut gs .d2 (m.num .d2) := by
        rintro ⟨g', hg', ⟨-, q⟩ | ⟨q, -⟩⟩
        · exact hnew g' hg' q
        · cases q
      show IsFanCell m' g (m.num .d2)
      constructor
      · rw [h2.rows _ _ hi]; exact c1.vertices
      · rw [h2.rows _ _ hi]; exact c1.edges
      · intro l hl1 hl2 hl3
        rw [h2.rows _ _ (by rw [hl1]; exact hi)]; exact c1.lists l hl1 hl2 hl3
      · rw [h2.marker _ _ hi]; exact c1.marker
      · rw [h2.active _ _ hi hnt]; exact c1.active
      · intro t q; rw [h2.original _ _ hi]; exact c1.original t q
      · rw [h2.updated _ _ hi (fun _ => hnew)]; exact c1.updated
      · intro p hp; rw [h2.propSize _ _ _ hi]; exact c1.noProperties p (by rw [← hids]; exact hp)
    | k + 1, hk =>
      have := h2.cells k g' (by simpa using hk)
      rw [hn2] at this
      rw [show m.num .d2 + (k + 1) = m.num .d2 + 1 + k by omega]
      exact this
  · intro i hi; rw [h2.coordinates i (hl _ i hi), h1.coordinates i hi]
  · intro i hi; rw [h2.extremes i (hl _ i hi), h1.extremes i hi]
  · intro e i hi; rw [h2.marker e i (hl _ i hi), h1.marker e i hi]
  · intro e i hi hne
    rw [takenOut_cons, not_or] at hne
    rw [h2.active e i (hl _ i hi) hne.2, h1.active e i hi hne.1]
  · intro e i hi hh
    by_cases q : TakenOut gs e i
    · exact h2.inactive e i (hl _ i hi) q
    · rw [h2.active e i (hl _ i hi) q]
      exact h1.inactive e i hi ((takenOut_cons.1 hh).resolve_right q)
  · intro e i hi; rw [h2.original e i (hl _ i hi), h1.original e i hi]
  · intro e i hi hne
    rw [h2.updated e i (hl _ i hi) (fun he g' hg' => hne he g' (by simp [hg'])),
      h1.updated e i hi (fun he g' hg' => hne he g' (by simp at hg'; simp [hg']))]
  · intro k g' t hk htg hu
    match k, hk with
    | 0, hk =>
      simp only [List.getElem?_cons_zero, Option.some.injEq] at hk
      subst hk
      rw [h2.updated _ _ (hl _ t (ht g (by simp) t htg)) (fun _ => hd t htg)]
      exact h1.joined 0 g t rfl htg hu
    | k + 1, hk =>
      have hk' : gs[k]? = some g' := by simpa using hk
      have hg' : g' ∈ gs := List.mem_of_getElem? hk'
      rw [show m.num .d2 + (k + 1) = m1.num .d2 + k by omega]
      refine h2.joined k g' t hk' htg ?_
      rw [h1.updated _ _ (ht g' (by simp [hg']) t htg) ?_]
      · exact hu
      · intro _ g'' hg'' q
        simp only [List.mem_singleton] at hg''
        subst hg''
        exact hd t q g' hg' htg
  · rw [hids, h1.ids]
  · intro e i p hi; rw [h2.propSize e i p (hl _ i hi), h1.propSize e i p hi]
  · intro e i p k hi; rw [h2.propValue e i p k (hl _ i hi), h1.propValue e i p k hi]
  · intro l i hi; rw [h2.rows l i (hl _ i hi), h1.rows l i hi]

theorem fanRow_lt {m : Mesh α} {l : Lst} {i : Nat} {r : List Nat} (h : m.WF) (hr : m.row l i = ok r) : i < m.num l.owner := by
  obtain ⟨A, hA, rfl⟩ := AMesh.exists_conc h
  have := AMesh.lt_of_getElem? (AMesh.row_eq_ok hA hr)
  rw [hA.rows] at this
  exact this

theorem FanGroup.In.lt {m : Mesh α} {g : FanGroup} (hw : m.WF) (h : g.In m) {t : Nat} (ht : t ∈ g.triangles) :
    t < m.num .d2 := by
  obtain ⟨i, hi⟩ := List.mem_iff_getElem?.1 ht
  obtain ⟨t', b, c, e, f, k, ht', -, -, -, -, -, hT⟩ := h.fan.at (List.getElem?_eq_some_iff.1 hi).1
  rw [hi] at ht'
  cases ht'
  obtain ⟨r, hr, -⟩ := hT.vertexRow
  exact fanRow_lt hw hr

theorem FanGroup.In.after {m m1 : Mesh α} {g g' : FanGroup} (hw : m.WF) (h : g'.In m) (h1 : IsAgglomerated m m1 [g]) :
    g'.In m1 := by
  constructor
  · refine ⟨h.fan.rimLength, h.fan.spokesLength, h.fan.outerLength, ?_, h.fan.center, h.fan.vertices, h.fan.edges⟩
    intro i t b c e f k ht hb hc he hf hk
    have := h.lt hw (List.mem_of_getElem? ht)
    unfold IsTriangle
    rw [h1.rows .vert2 t this, h1.rows .edge2 t this]
    exact h.fan.triangles i t b c e f k ht hb hc he hf hk
  · exact h.three
  · intro v hv; rw [h1.num _ (by simp)]; exact h.vertices v hv
  · intro v hv; rw [h1.num _ (by simp)]; exact h.edges v hv

theorem Separate.parts {m : Mesh α} {g : FanGroup} {gs : List FanGroup} (h : Separate m (g :: gs)) :
    g.triangles.Nodup ∧ g.inner.Nodup ∧ (∀ t ∈ g.triangles, ∀ g' ∈ gs, t ∉ g'.triangles) ∧
    (∀ t ∈ g.inner, ∀ g' ∈ gs, t ∉ g'.inner) ∧ (∀ t ∈ g.triangles, m.active .d2 t = ok true) ∧
    (∀ t ∈ g.inner, m.active .d1 t = ok true) := by
  have h1 := h.triangles
  have h2 := h.edges
  rw [List.flatMap_cons, List.nodup_append] at h1 h2
  refine ⟨h1.1, h2.1, ?_, ?_, ?_, ?_⟩
  · intro t ht g' hg' q
    exact h1.2.2 t ht t (List.mem_flatMap.2 ⟨g', hg', q⟩) rfl
  · intro t ht g' hg' q
    exact h2.2.2 t ht t (List.mem_flatMap.2 ⟨g', hg', q⟩) rfl
  · exact fun t ht => h.active _ _ ⟨g, by simp, Or.inl ⟨rfl, ht⟩⟩
  · exact fun t ht => h.active _ _ ⟨g, by simp, Or.inr ⟨rfl, ht⟩⟩

theorem active_lt {m : Mesh α} {e : Dim} {i : Nat} {b : Bool} (h : m.active e i = ok b) : i < m.num e := by
  unfold Mesh.active at h
  by_cases hi : i < m.num e
  · exact hi
  · rw [assert_false hi] at h; cases h

theorem Separate.after {m m1 : Mesh α} {g : FanGroup} {gs : List FanGroup} (h : Separate m (g :: gs))
    (h1 : IsAgglomerated m m1 [g]) : Separate m1 gs := by
  obtain ⟨-, -, p3, p4, -, -⟩ := h.parts
  have q1 := h.triangles
  have q2 := h.edges
  rw [List.flatMap_cons, List.nodup_append] at q1 q2
  refine ⟨q1.2.1, q2.2.1, ?_⟩
  intro e i hi
  have ha := h.active e i (takenOut_cons.2 (Or.inr hi))
  rw [h1.active e i (active_lt ha) ?_]
  · exact ha
  · intro hg
    obtain ⟨g', hg', q⟩ := hi
    rcases AMesh.takenOut_one.1 hg with ⟨rfl, r⟩ | ⟨rfl, r⟩
    · rcases q with ⟨-, q⟩ | ⟨q, -⟩
      · exact p3 i r g' hg' q
      · cases q
    · rcases q with ⟨q, -⟩ | ⟨-, q⟩
      · cases q
      · exact p4 i r g' hg' q

variable [Zero α]

theorem fanMesh_one {g : FanGroup} {s : FanMesh α} (hw : s.mesh.WF) (hg : g.In s.mesh) (hs : Separate s.mesh [g]) :
    ∃ m1, Mesh.fanMeshRound s g.triangles = ok ⟨m1, s.cells ++ [(s.mesh.num .d2, g.triangles)], s.edges ++ g.inner,
      s.polygons ++ g.triangles⟩ ∧ IsAgglomerated s.mesh m1 [g] := by
  obtain ⟨A, hA, hm⟩ := AMesh.exists_conc hw
  obtain ⟨p1, p2, -, -, p5, p6⟩ := hs.parts
  rw [hm] at hg p5 p6 ⊢
  obtain ⟨hF, hrun⟩ := AMesh.fanRound_conc hA hg s hm p1 p2 p5 p6
  exact ⟨_, hrun, AMesh.isAgglomerated_one hA p1 p5 p6 hF⟩

theorem Separate.head {m : Mesh α} {g : FanGroup} {gs : List FanGroup} (h : Separate m (g :: gs)) : Separate m [g] := by
  obtain ⟨p1, p2, -, -, -, -⟩ := h.parts
  refine ⟨by simpa using p1, by simpa using p2, fun e i hi => h.active e i (takenOut_cons.2 (Or.inl hi))⟩

theorem fanMesh_fold (gs : List FanGroup) (s : FanMesh α) (hw : s.mesh.WF) (hg : ∀ g ∈ gs, g.In s.mesh)
    (hs : Separate s.mesh gs) :
    ∃ m', foldRes Mesh.fanMeshRound s (gs.map FanGroup.triangles) = ok ⟨m',
        s.cells ++ gs.mapIdx (fun k g => (s.mesh.num .d2 + k, g.triangles)), s.edges ++ gs.flatMap FanGroup.inner,
        s.polygons ++ gs.flatMap FanGroup.triangles⟩ ∧
      IsAgglomerated s.mesh m' gs := by
  induction gs generalizing s with
  | nil => exact ⟨s.mesh, by simp, .nil hw⟩
  | cons g gs ih =>
    obtain ⟨m1, hrun, h1⟩ := fanMesh_one hw (hg g (by simp)) hs.head
    obtain ⟨m', hrun', h2⟩ := ih ⟨m1, s.cells ++ [(s.mesh.num .d2, g.triangles)], s.edges ++ g.inner,
      s.polygons ++ g.triangles⟩ h1.wf (fun g' hg' => (hg g' (by simp [hg'])).after hw h1) (hs.after h1)
    refine ⟨m', ?_, h1.cons h2 (fun g' hg' t ht => (hg g' hg').lt hw ht) hs.parts.2.2.1⟩
    rw [List.map_cons, foldRes_cons, hrun, ok_bind, hrun']
    have hn : m1.num .d2 = s.mesh.num .d2 + 1 := h1.num2
    simp only [hn, List.mapIdx_cons, List.append_assoc, List.singleton_append, List.flatMap_cons, Nat.add_zero]
    congr 5
    funext k g'
    rw [show s.mesh.num .d2 + 1 + k = s.mesh.num .d2 + (k + 1) by omega]

omit [Zero α] in
theorem IsFan.nodup_triangles {m : Mesh α} {ts rim spokes outer : List Nat} {a : Nat}
    (h : IsFan m ts a rim spokes outer) : ts.Nodup := by
  rw [List.nodup_iff_getElem?_ne_getElem?]
  intro i j hij hj hEq
  obtain ⟨t, b, c, e, f, g, ht, -, -, he, hf, hg, hT⟩ := h.at (i := i) (by omega)
  obtain ⟨t', b', c', e', f', g', ht', -, -, he', hf', hg', hT'⟩ := h.at (i := j) (by omega)
  rw [ht, ht'] at hEq
  cases hEq
  obtain ⟨r, hr, hp⟩ := hT.edgeRow
  obtain ⟨r', hr', hp'⟩ := hT'.edgeRow
  rw [hr] at hr'
  cases hr'
  have := hp'.mem_iff.1 (hp.mem_iff.2 (show f ∈ [e, f, g] by simp))
  simp only [List.mem_cons, List.not_mem_nil, or_false] at this
  rcases this with q | q | q
  · exact h.cross_ne he' hf q.symm
  · exact h.outer_ne hf hf' (by omega) q
  · exact h.cross_ne hg' hf q.symm

theorem fanMesh_refused {pre post : List FanGroup} {g : FanGroup} {m : Mesh α} (hw : m.WF)
    (hg : ∀ g' ∈ pre ++ [g], g'.In m) (hs : Separate m pre) (hi : ∀ x ∈ g.inner, x < m.num .d1)
    (hbad : ∃ e i, TakenOut [g] e i ∧ (TakenOut pre e i ∨ m.active e i = ok false)) :
    m.agglomerateFans ((pre ++ g :: post).map FanGroup.triangles) = abort := by
  obtain ⟨m1, hrun, h1⟩ := fanMesh_fold pre ⟨m, [], [], []⟩ hw (fun g' h' => hg g' (by simp [h'])) hs
  simp only at h1
  have hgm := hg g (by simp)
  have hlt : ∀ e i, i < m.num e → i < m1.num e := by
    intro e i hi
    by_cases he : e = .d2
    · subst he; rw [h1.num2]; omega
    · rw [h1.num e he]; exact hi
  have hgm1 : g.In m1 := by
    constructor
    · refine ⟨hgm.fan.rimLength, hgm.fan.spokesLength, hgm.fan.outerLength, ?_, hgm.fan.center, hgm.fan.vertices,
        hgm.fan.edges⟩
      intro i t b c e f k ht hb hc he hf hk
      have := hgm.lt hw (List.mem_of_getElem? ht)
      unfold IsTriangle
      rw [h1.rows .vert2 t this, h1.rows .edge2 t this]
      exact hgm.fan.triangles i t b c e f k ht hb hc he hf hk
    · exact hgm.three
    · intro v hv; exact hlt _ _ (hgm.vertices v hv)
    · intro v hv; exact hlt _ _ (hgm.edges v hv)
  obtain ⟨A, hA, rfl⟩ := AMesh.exists_conc h1.wf
  unfold Mesh.agglomerateFans
  rw [List.map_append, List.map_cons, foldRes_append, hrun, ok_bind, foldRes_cons]
  rw [AMesh.fanRound_abort hA hgm1 _ rfl hgm1.fan.nodup_triangles (fun t ht => hgm1.lt h1.wf ht)
    (fun t ht => hlt .d1 t (hi t ht)) ?_]
  · rfl
  · obtain ⟨e, i, hb, hc⟩ := hbad
    have hil : i < m.num e := by
      rcases AMesh.takenOut_one.1 hb with ⟨rfl, q⟩ | ⟨rfl, q⟩
      · exact hgm.lt hw q
      · exact hi i q
    have hoff : A.conc.active e i = ok false := by
      by_cases q : TakenOut pre e i
      · exact h1.inactive e i hil q
      · rw [h1.active e i hil q]; exact hc.resolve_left q
    rcases AMesh.takenOut_one.1 hb with ⟨rfl, q⟩ | ⟨rfl, q⟩
    · exact Or.inl ⟨i, q, hoff⟩
    · exact Or.inr ⟨i, q, hoff⟩

end

end Verif
