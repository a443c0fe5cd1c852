import Verif.FillModel
import Verif.FillSpec
import Verif.DataLemmas

/-
The loops of the fill functions write down explicit lists of cells.
-/
namespace Verif

open Res

/-! ### Loops over the indices of a vector -/

/-- A loop over the indices below `k` that overwrites one item after the other. -/
theorem foldRange_take {σ β : Type} (step : σ → Nat → Res σ) (G : List β → σ) (f : Nat → β → β)
    (cells : List β) (k : Nat) (hk : k ≤ cells.length)
    (hstep : ∀ cs i b, i < k → cs.length = cells.length → cells[i]? = some b → cs[i]? = some b →
      step (G cs) i = ok (G (cs.set i (f i b)))) :
    foldRes step (G cells) (List.range k) =
      ok (G ((cells.mapIdx f).take k ++ cells.drop k)) := by
  induction k with
  | zero => simp
  | succ k ih =>
    have hk' : k < cells.length := by omega
    have ih := ih (by omega) fun cs i b hi => hstep cs i b (by omega)
    rw [List.range_succ, foldRes_append, ih, ok_bind, foldRes_cons,
      hstep _ k cells[k] (by omega) (by simp; omega) (by simp [hk']) (by
        rw [List.getElem?_append_right (by simp)]
        simp [hk', Nat.min_eq_left hk'.le])]
    simp only [ok_bind, foldRes_nil]
    congr 2
    have hl : ((cells.mapIdx f).take k).length = k := by simp; omega
    rw [List.drop_eq_getElem_cons hk', List.set_append_right _ _ (by omega), hl, Nat.sub_self,
      List.set_cons_zero, List.take_add_one]
    simp [hk']

theorem foldRange {σ β : Type} (step : σ → Nat → Res σ) (G : List β → σ) (f : Nat → β → β)
    (cells : List β)
    (hstep : ∀ cs i b, i < cells.length → cs.length = cells.length → cells[i]? = some b →
      cs[i]? = some b → step (G cs) i = ok (G (cs.set i (f i b)))) :
    foldRes step (G cells) (List.range cells.length) = ok (G (cells.mapIdx f)) := by
  rw [foldRange_take step G f cells cells.length (Nat.le_refl _) hstep]
  simp [List.take_of_length_le]

/-- The same loop when the step of some index stops at an assertion. -/
theorem foldRange_abort {σ β : Type} (step : σ → Nat → Res σ) (G : List β → σ) (f : Nat → β → β)
    (bad : Nat → Prop) (cells : List β) (hbad : ∃ i, i < cells.length ∧ bad i)
    (hstep : ∀ cs i b, i < cells.length → ¬ bad i → cs.length = cells.length → cells[i]? = some b →
      cs[i]? = some b → step (G cs) i = ok (G (cs.set i (f i b))))
    (habort : ∀ cs i b, i < cells.length → bad i → cs.length = cells.length → cells[i]? = some b →
      cs[i]? = some b → step (G cs) i = abort) :
    foldRes step (G cells) (List.range cells.length) = abort := by
  classical
  let k := Nat.find hbad
  obtain ⟨hk, hb⟩ : k < cells.length ∧ bad k := Nat.find_spec hbad
  have hmin : ∀ i, i < k → ¬ bad i := fun i hi hbi => Nat.find_min hbad hi ⟨by omega, hbi⟩
  have e : List.range cells.length =
      List.range k ++ k :: (List.range (cells.length - k - 1)).map (k + 1 + ·) := by
    have h1 := List.range_add (n := k) (m := cells.length - k)
    rw [show k + (cells.length - k) = cells.length by omega] at h1
    rw [h1]
    congr 1
    obtain ⟨n, hn⟩ : ∃ n, cells.length - k = n + 1 := ⟨cells.length - k - 1, by omega⟩
    rw [hn, List.range_succ_eq_map, List.map_cons, List.map_map]
    simp only [Nat.add_zero, Nat.add_sub_cancel]
    congr 1
    apply List.map_congr_left
    intro a _
    simp only [Function.comp]
    omega
  rw [e, foldRes_append, foldRange_take step G f cells k (by omega)
    fun cs i b hi => hstep cs i b (by omega) (hmin i hi), ok_bind, foldRes_cons,
    habort _ k cells[k] hk hb (by simp; omega) (by simp [hk]) (by
        rw [List.getElem?_append_right (by simp)]
        simp [hk, Nat.min_eq_left hk.le])]
  rfl

theorem mapIdx_replicate {β : Type} (f : Nat → β → β) (n : Nat) (b : β) :
    (List.replicate n b).mapIdx f = (List.range n).map fun i => f i b := by
  apply List.ext_getElem
  · simp
  · intro i h1 h2; simp

theorem range_map_getElem {β γ : Type} (L : List β) (g : β → γ) (f : Nat → γ)
    (h : ∀ i b, L[i]? = some b → f i = g b) : (List.range L.length).map f = L.map g := by
  apply List.ext_getElem
  · simp
  · intro i h1 h2
    simp only [List.length_map] at h2
    simp [h i L[i] (by simp [h2])]

namespace Mesh

variable {α : Type}

theorem insertEntry_target {m m' : Mesh α} {l : Lst} {i k v : Nat}
    (h : m.insertEntry l i k v = ok m') : v < m.num l.target ∧ m'.num = m.num := by
  unfold insertEntry at h
  obtain ⟨_, _, h⟩ := bind_eq_ok.1 h
  obtain ⟨_, _, h⟩ := bind_eq_ok.1 h
  obtain ⟨_, _, h⟩ := bind_eq_ok.1 h
  obtain ⟨_, hv, h⟩ := bind_eq_ok.1 h
  obtain ⟨c, _, h⟩ := bind_eq_ok.1 h
  refine ⟨?_, ?_⟩
  · by_contra hn
    rw [assert_false hn] at hv
    cases hv
  · cases h; rfl

/-- Entries that were accepted name existing cells. -/
theorem insertFrom_target {m m' : Mesh α} {l : Lst} {i k : Nat} {vs : List Nat}
    (h : m.insertFrom l i k vs = ok m') : ∀ v ∈ vs, v < m.num l.target := by
  induction vs generalizing m k with
  | nil => simp
  | cons v vs ih =>
    unfold insertFrom at h
    obtain ⟨m1, h1, h⟩ := bind_eq_ok.1 h
    obtain ⟨hv, hn⟩ := insertEntry_target h1
    have := ih h
    rw [hn] at this
    simpa using ⟨hv, this⟩

theorem insertFrom_bad {m : Mesh α} (h : m.WF) {l : Lst} {i k : Nat} {vs : List Nat}
    (hv : ∃ v ∈ vs, ¬ v < m.num l.target) : m.insertFrom l i k vs = abort := by
  rcases insertFrom_cases h (l := l) (i := i) (k := k) (vs := vs) with h' | ⟨m', h', _⟩
  · exact h'
  · obtain ⟨v, hv, hn⟩ := hv
    exact absurd (insertFrom_target h' v hv) hn

end Mesh

namespace MeshData

variable {α : Type} {D : MeshData α}

/-- A stored point, active and without marker. -/
def pointOf (p : V3 α) : VCell α := ⟨p.x, p.y, p.z, 0, true⟩

/-- A stored edge, active and without marker. -/
def edgeOf (e : Nat × Nat) : ECell := ⟨e.1, e.2, 0, true, []⟩

/-- A stored polygon, active and without marker. -/
def polygonOf (f : List (Nat × Nat)) : PCell := ⟨f.map Prod.fst, f.map Prod.snd, 0, true⟩

/-- A stored polyhedron, active and without marker. -/
def polyhedronOf (c : Mesh.Polyhedron) : CCell := ⟨c.verts, c.edges, c.faces, 0, true⟩

theorem fillPoints_eq [Zero α] (hV : D.V = []) (ps : List (V3 α)) :
    D.mesh.fillPoints ps = ok ({ D with V := ps.map pointOf } : MeshData α).mesh := by
  unfold Mesh.fillPoints Mesh.insertCoords Mesh.activateAll
  rw [init_V hV]
  have e : ∀ V : List (VCell α), ({ D with V := V } : MeshData α).mesh.num .d0 = V.length :=
    fun _ => rfl
  simp only [e, List.length_replicate]
  rw [assert_true trivial, ok_bind]
  have h1 := foldRange (fun (s : Mesh α) c => do
      let p ← vget ps c
      s.insertCoord c p.x p.y p.z) (fun V => ({ D with V := V } : MeshData α).mesh)
    (fun i v => match ps[i]? with
      | some p => { v with x := p.x, y := p.y, z := p.z }
      | none => v) (List.replicate ps.length ⟨0, 0, 0, 0, false⟩) (by
      intro cs i b hi hl _ hb
      simp only [List.length_replicate] at hi
      simp only [vget_of_lt hi, ok_bind, List.getElem?_eq_getElem hi]
      rw [insertCoord_V (D := { D with V := cs }) hb])
  simp only [List.length_replicate] at h1
  rw [h1, ok_bind]
  have e2 : List.mapIdx (fun i (v : VCell α) => match ps[i]? with
      | some p => { v with x := p.x, y := p.y, z := p.z }
      | none => v) (List.replicate ps.length ⟨0, 0, 0, 0, false⟩) =
      ps.map fun p => ⟨p.x, p.y, p.z, 0, false⟩ := by
    rw [mapIdx_replicate]
    apply range_map_getElem
    intro i p hp
    simp [hp]
  rw [e2]
  have h2 := foldRange (fun (s : Mesh α) c => s.setAct .d0 c true)
    (fun V => ({ D with V := V } : MeshData α).mesh) (fun _ v => { v with act := true })
    (ps.map fun p => ⟨p.x, p.y, p.z, 0, false⟩) (by
      intro cs i b hi hl _ hb
      rw [setAct_V (D := { D with V := cs }) hb])
  simp only [List.length_map] at h2
  rw [h2]
  congr 3
  apply List.ext_getElem
  · simp
  · intro i h1 h2; simp [pointOf]

theorem activate_E {es : List (Nat × Nat)} :
    ({ D with E := es.map fun e => ⟨e.1, e.2, 0, false, []⟩ } : MeshData α).mesh.activateAll .d1
      es.length = ok ({ D with E := es.map edgeOf } : MeshData α).mesh := by
  unfold Mesh.activateAll
  have h2 := foldRange (fun (s : Mesh α) c => s.setAct .d1 c true)
    (fun E => ({ D with E := E } : MeshData α).mesh) (fun _ v => { v with act := true })
    (es.map fun e => ⟨e.1, e.2, 0, false, []⟩) (by
      intro cs i b hi hl _ hb
      rw [setAct_E (D := { D with E := cs }) hb])
  simp only [List.length_map] at h2
  rw [h2]
  congr 3
  apply List.ext_getElem
  · simp
  · intro i h1 h2; simp [edgeOf]

/-- One step of the loop of `Cell1DsInsertExtremes`. -/
theorem insertExtremes_step {E : List ECell} {i a b : Nat} {v : ECell} (hv : E[i]? = some v)
    (ha : a < D.V.length) (hb : b < D.V.length) :
    (do
      assert (a < ({ D with E := E } : MeshData α).mesh.num .d0)
      assert (b < ({ D with E := E } : MeshData α).mesh.num .d0)
      let x ← vset ({ D with E := E } : MeshData α).mesh.ext (2 * i) a
      let x ← vset x (2 * i + 1) b
      ok { ({ D with E := E } : MeshData α).mesh with ext := x } : Res (Mesh α)) =
    ok ({ D with E := E.set i { v with origin := a, finish := b } } : MeshData α).mesh := by
  have hi : i < E.length := (List.getElem?_eq_some_iff.1 hv).1
  have h := insertExt_E (D := { D with E := E }) (a := a) (b := b) hv
  unfold Mesh.insertExt at h
  rw [assert_true (show i < ({ D with E := E } : MeshData α).mesh.num .d1 from hi), ok_bind] at h
  rw [assert_true (show a < ({ D with E := E } : MeshData α).mesh.num .d0 from ha), ok_bind,
    assert_true (show b < ({ D with E := E } : MeshData α).mesh.num .d0 from hb), ok_bind]
  exact h

theorem fillEdges_eq [Zero α] (hE : D.E = []) (es : List (Nat × Nat)) :
    D.mesh.fillEdges es = if EdgesInRange D.V.length es then
      ok ({ D with E := es.map edgeOf } : MeshData α).mesh else abort := by
  unfold Mesh.fillEdges Mesh.insertExtremes
  rw [init_E hE]
  have e : ∀ E : List ECell, ({ D with E := E } : MeshData α).mesh.num .d1 = E.length :=
    fun _ => rfl
  simp only [e, List.length_replicate]
  rw [assert_true trivial, ok_bind]
  let f : Nat → ECell → ECell := fun i v => match es[i]? with
      | some p => { v with origin := p.1, finish := p.2 }
      | none => v
  let bad : Nat → Prop := fun i => ∃ p, es[i]? = some p ∧ ¬ (p.1 < D.V.length ∧ p.2 < D.V.length)
  have good : ∀ cs i (b : ECell), i < es.length → ¬ bad i → cs[i]? = some b →
      (do
        let e ← vget es i
        assert (e.1 < ({ D with E := cs } : MeshData α).mesh.num .d0)
        assert (e.2 < ({ D with E := cs } : MeshData α).mesh.num .d0)
        let x ← vset ({ D with E := cs } : MeshData α).mesh.ext (2 * i) e.1
        let x ← vset x (2 * i + 1) e.2
        ok { ({ D with E := cs } : MeshData α).mesh with ext := x } : Res (Mesh α)) =
      ok ({ D with E := cs.set i (f i b) } : MeshData α).mesh := by
    intro cs i b hi hb hc
    have hp : es[i].1 < D.V.length ∧ es[i].2 < D.V.length := by
      by_contra h
      exact hb ⟨es[i], by simp [hi], h⟩
    rw [vget_of_lt hi, ok_bind, insertExtremes_step hc hp.1 hp.2]
    simp only [f, List.getElem?_eq_getElem hi]
  by_cases hr : EdgesInRange D.V.length es
  · rw [if_pos hr]
    have h1 := foldRange (fun (s : Mesh α) c => do
        let e ← vget es c
        assert (e.1 < s.num .d0)
        assert (e.2 < s.num .d0)
        let x ← vset s.ext (2 * c) e.1
        let x ← vset x (2 * c + 1) e.2
        ok { s with ext := x }) (fun E => ({ D with E := E } : MeshData α).mesh) f
      (List.replicate es.length ⟨0, 0, 0, false, []⟩) (by
        intro cs i b hi hl _ hb
        simp only [List.length_replicate] at hi
        refine good cs i b hi ?_ hb
        rintro ⟨p, hp, hn⟩
        exact hn (hr p (List.mem_of_getElem? hp)))
    simp only [List.length_replicate] at h1
    rw [h1, ok_bind]
    have e2 : List.mapIdx f (List.replicate es.length ⟨0, 0, 0, false, []⟩) =
        es.map fun p => ⟨p.1, p.2, 0, false, []⟩ := by
      rw [mapIdx_replicate]
      apply range_map_getElem
      intro i p hp
      simp [f, hp]
    rw [e2, activate_E]
  · rw [if_neg hr]
    have h1 := foldRange_abort (fun (s : Mesh α) c => do
        let e ← vget es c
        assert (e.1 < s.num .d0)
        assert (e.2 < s.num .d0)
        let x ← vset s.ext (2 * c) e.1
        let x ← vset x (2 * c + 1) e.2
        ok { s with ext := x }) (fun E => ({ D with E := E } : MeshData α).mesh) f bad
      (List.replicate es.length ⟨0, 0, 0, false, []⟩) (by
        unfold EdgesInRange at hr
        push Not at hr
        obtain ⟨p, hp, hn⟩ := hr
        obtain ⟨i, hi, rfl⟩ := List.mem_iff_getElem.1 hp
        refine ⟨i, by simpa using hi, es[i], by simp [hi], ?_⟩
        intro h
        exact absurd h.2 (by have := hn h.1; omega))
      (by
        intro cs i b hi hbad hl _ hb
        simp only [List.length_replicate] at hi
        exact good cs i b hi hbad hb)
      (by
        intro cs i b hi hbad hl _ hb
        simp only [List.length_replicate] at hi
        obtain ⟨p, hp, hn⟩ := hbad
        rw [vget_eq_ok.2 hp, ok_bind]
        by_cases ha : p.1 < D.V.length
        · rw [assert_true (show p.1 < ({ D with E := cs } : MeshData α).mesh.num .d0 from ha), ok_bind,
            assert_false (show ¬ p.2 < ({ D with E := cs } : MeshData α).mesh.num .d0 from
              fun hb => hn ⟨ha, hb⟩)]
          rfl
        · rw [assert_false (show ¬ p.1 < ({ D with E := cs } : MeshData α).mesh.num .d0 from ha)]
          rfl)
    simp only [List.length_replicate] at h1
    rw [h1]
    rfl

theorem initRows_P {β : Type} {sizes : List Nat} (k : Mesh α → Res β)
    (hP : D.P = List.replicate sizes.length ⟨[], [], 0, false⟩) :
    (do
      let m ← D.mesh.initRows .vert2 sizes
      let m ← m.initRows .edge2 sizes
      k m) =
      k ({ D with P := sizes.map fun k =>
        ⟨List.replicate k UINT_MAX, List.replicate k UINT_MAX, 0, false⟩ } : MeshData α).mesh := by
  unfold mesh
  rw [initRows_empty D.toA_ok (l := .vert2) (by
      show ∀ r ∈ D.P.map (·.verts), _
      rw [hP]; simp) _ (by simp [toA, num, Lst.owner, hP]), ok_bind,
    setRows_vert2 (by simp [hP]),
    initRows_empty (toA_ok _) (l := .edge2) (by
      intro r hr
      obtain ⟨i, hi, rfl⟩ := List.mem_iff_getElem.1 hr
      simp [toA, hP]) _ (by simp [toA, num, Lst.owner, hP]),
    setRows_edge2 (by simp [hP]), ok_bind]
  congr 3
  simp only [MeshData.mk.injEq, true_and, and_true]
  apply List.ext_getElem
  · simp [hP]
  · intro i h1 h2
    simp [hP, Lst.fillAll]

theorem initRows_C {β : Type} {s1 s2 s3 : List Nat} (k : Mesh α → Res β)
    (hC : D.C = List.replicate s1.length ⟨[], [], [], 0, false⟩) (h2 : s2.length = s1.length)
    (h3 : s3.length = s1.length) :
    (do
      let m ← D.mesh.initRows .vert3 s1
      let m ← m.initRows .edge3 s2
      let m ← m.initRows .face3 s3
      k m) =
      k ({ D with C := (List.range s1.length).map fun i =>
        ⟨List.replicate (s1.getD i 0) UINT_MAX, List.replicate (s2.getD i 0) UINT_MAX,
          List.replicate (s3.getD i 0) UINT_MAX, 0, false⟩ } : MeshData α).mesh := by
  unfold mesh
  rw [initRows_empty D.toA_ok (l := .vert3) (by
      show ∀ r ∈ D.C.map (·.verts), _
      rw [hC]; simp) _ (by simp [toA, num, Lst.owner, hC]), ok_bind,
    setRows_vert3 (by simp [hC]),
    initRows_empty (toA_ok _) (l := .edge3) (by
      intro r hr
      obtain ⟨i, hi, rfl⟩ := List.mem_iff_getElem.1 hr
      simp [toA, hC]) _ (by simp [toA, num, Lst.owner, hC, h2]), ok_bind,
    setRows_edge3 (by simp [hC, h2]),
    initRows_empty (toA_ok _) (l := .face3) (by
      intro r hr
      obtain ⟨i, hi, rfl⟩ := List.mem_iff_getElem.1 hr
      simp [toA, hC]) _ (by simp [toA, num, Lst.owner, hC, h2, h3]),
    setRows_face3 (by simp [hC, h2, h3]), ok_bind]
  congr 3
  simp only [MeshData.mk.injEq, true_and, and_true]
  apply List.ext_getElem
  · simp [hC, h2, h3]
  · intro i g1 g2
    simp only [List.length_map, List.length_range] at g2
    simp [hC, Lst.fillAll, g2, h2, h3]

/-- One step of the loop over the polygons. -/
def putFace (m : Mesh α) (i : Nat) (v e : List Nat) : Res (Mesh α) := do
  let s ← m.insertFrom .vert2 i 0 v
  let s ← s.insertFrom .edge2 i 0 e
  s.setAct .d2 i true

theorem putFace_eq {P : List PCell} {i : Nat} {vs es : List Nat} {v : PCell} (hv : P[i]? = some v)
    (h1 : v.verts.length = vs.length) (h2 : v.edges.length = es.length) :
    putFace ({ D with P := P } : MeshData α).mesh i vs es =
      if (∀ x ∈ vs, x < D.V.length) ∧ ∀ x ∈ es, x < D.E.length then
        ok ({ D with P := P.set i { v with verts := vs, edges := es, act := true } } : MeshData α).mesh
      else abort := by
  have hi : i < P.length := (List.getElem?_eq_some_iff.1 hv).1
  unfold putFace
  by_cases h3 : ∀ x ∈ vs, x < D.V.length
  · rw [insertFrom_vert2 (D := { D with P := P }) hv h1 h3, ok_bind]
    by_cases h4 : ∀ x ∈ es, x < D.E.length
    · rw [if_pos ⟨h3, h4⟩, insertFrom_edge2 (D := { D with P := P.set i { v with verts := vs } })
        (v := { v with verts := vs }) (by simp [hi]) h2 h4, ok_bind, setAct_P (by simp [hi]; rfl)]
      simp [List.set_set]
    · rw [if_neg (fun h => h4 h.2), Mesh.insertFrom_bad (mesh_wf _) (by
        push Not at h4
        obtain ⟨x, hx, hn⟩ := h4
        exact ⟨x, hx, by show ¬ x < D.E.length; omega⟩)]
      rfl
  · rw [if_neg (fun h => h3 h.1), Mesh.insertFrom_bad (mesh_wf _) (by
        push Not at h3
        obtain ⟨x, hx, hn⟩ := h3
        exact ⟨x, hx, by show ¬ x < D.V.length; omega⟩)]
    rfl

/-- The loop over polygons given by their vertices and edges. -/
theorem facesLoop_eq {vs es : List (List Nat)} (hl : vs.map List.length = es.map List.length)
    (step : Mesh α → Nat → Res (Mesh α))
    (hstep : ∀ m i v e, vs[i]? = some v → es[i]? = some e → step m i = putFace m i v e) :
    foldRes step ({ D with P := (vs.map List.length).map fun k =>
        ⟨List.replicate k UINT_MAX, List.replicate k UINT_MAX, 0, false⟩ } : MeshData α).mesh
      (List.range vs.length) =
    if RowsInRange D.V.length vs ∧ RowsInRange D.E.length es then
      ok ({ D with P := List.zipWith (fun v e => ⟨v, e, 0, true⟩) vs es } : MeshData α).mesh
    else abort := by
  have hlen : vs.length = es.length := by simpa using congrArg List.length hl
  have hsz : ∀ i (h : i < vs.length), (es[i]'(by omega)).length = vs[i].length := by
    intro i h
    have := congrArg (fun l => l[i]?) hl
    simp only [List.getElem?_map, List.getElem?_eq_getElem h,
      List.getElem?_eq_getElem (show i < es.length by omega), Option.map_some, Option.some.injEq] at this
    exact this.symm
  let f : Nat → PCell → PCell := fun i c =>
    { c with verts := vs.getD i [], edges := es.getD i [], act := true }
  let bad : Nat → Prop := fun i => ¬ ((∀ x ∈ vs.getD i [], x < D.V.length) ∧
    ∀ x ∈ es.getD i [], x < D.E.length)
  let cells : List PCell := (vs.map List.length).map fun k =>
        ⟨List.replicate k UINT_MAX, List.replicate k UINT_MAX, 0, false⟩
  have hcl : cells.length = vs.length := by simp [cells]
  have base : ∀ cs i (b : PCell), i < vs.length → cells[i]? = some b → cs[i]? = some b →
      step ({ D with P := cs } : MeshData α).mesh i =
      if bad i then abort else ok ({ D with P := cs.set i (f i b) } : MeshData α).mesh := by
    intro cs i b hi hb hc
    have hb' : b.verts.length = vs[i].length ∧ b.edges.length = (es[i]'(by omega)).length := by
      have : cells[i]? = some ⟨List.replicate vs[i].length UINT_MAX, List.replicate vs[i].length UINT_MAX,
          0, false⟩ := by simp [cells, hi]
      rw [this] at hb
      cases hb
      simp [hsz i hi]
    rw [hstep _ i vs[i] (es[i]'(by omega)) (by simp [hi]) (by simp [← hlen, hi]),
      putFace_eq hc hb'.1 hb'.2]
    have g1 : vs.getD i [] = vs[i] := by simp [hi]
    have g2 : es.getD i [] = es[i]'(by omega) := by simp [← hlen, hi]
    simp only [bad, f, g1, g2, ite_not]
  by_cases hr : RowsInRange D.V.length vs ∧ RowsInRange D.E.length es
  · rw [if_pos hr]
    have h1 := foldRange step (fun P => ({ D with P := P } : MeshData α).mesh) f cells (by
      intro cs i b hi hl' hb hc
      rw [hcl] at hi
      rw [base cs i b hi hb hc, if_neg]
      simp only [bad, not_not]
      have g1 : vs.getD i [] = vs[i] := by simp [hi]
      have g2 : es.getD i [] = es[i]'(by omega) := by simp [← hlen, hi]
      rw [g1, g2]
      exact ⟨hr.1 _ (List.getElem_mem _), hr.2 _ (List.getElem_mem _)⟩)
    rw [hcl] at h1
    rw [h1]
    congr 3
    apply List.ext_getElem
    · simp [cells, hlen]
    · intro i h1 h2
      simp only [List.length_zipWith] at h2
      have hi : i < vs.length := by omega
      have hi' : i < es.length := by omega
      simp [f, cells, hi, hi']
  · rw [if_neg hr]
    have h1 := foldRange_abort step (fun P => ({ D with P := P } : MeshData α).mesh) f bad cells (by
      by_contra hno
      push Not at hno
      apply hr
      constructor
      · intro r hr' x hx
        obtain ⟨i, hi, rfl⟩ := List.mem_iff_getElem.1 hr'
        have := hno i (by omega)
        exact this.1 x (by simpa [hi] using hx)
      · intro r hr' x hx
        obtain ⟨i, hi, rfl⟩ := List.mem_iff_getElem.1 hr'
        have := hno i (by omega)
        exact this.2 x (by simpa [hi] using hx))
      (by
        intro cs i b hi hn hl' hb hc
        rw [base cs i b (by omega) hb hc, if_neg hn])
      (by
        intro cs i b hi hn hl' hb hc
        rw [base cs i b (by omega) hb hc, if_pos hn])
    rw [hcl] at h1
    exact h1

theorem fillPolygons_eq [Zero α] (hP : D.P = []) (fs : List (List (Nat × Nat))) :
    D.mesh.fillPolygons fs =
      if RowsInRange D.V.length (fs.map (·.map Prod.fst)) ∧ RowsInRange D.E.length (fs.map (·.map Prod.snd))
      then ok ({ D with P := fs.map polygonOf } : MeshData α).mesh else abort := by
  unfold Mesh.fillPolygons
  rw [init_P hP]
  simp only
  rw [initRows_P (D := { D with P := List.replicate fs.length ⟨[], [], 0, false⟩ })
    (sizes := fs.map List.length) _ (by simp)]
  have h2 := facesLoop_eq (D := D) (vs := fs.map (·.map Prod.fst)) (es := fs.map (·.map Prod.snd))
    (by simp) (fun (s : Mesh α) f => do
      let p ← vget fs f
      let s ← s.insertFrom .vert2 f 0 (p.map Prod.fst)
      let s ← s.insertFrom .edge2 f 0 (p.map Prod.snd)
      s.setAct .d2 f true) (by
      intro m i v e hv he
      simp only [List.getElem?_map, Option.map_eq_some_iff] at hv he
      obtain ⟨p, hp, rfl⟩ := hv
      obtain ⟨q, hq, rfl⟩ := he
      have : q = p := by simpa [hp] using hq.symm
      subst this
      rw [vget_eq_ok.2 hp, ok_bind]
      rfl)
  simp only [List.length_map, List.map_map] at h2 ⊢
  have e1 : (List.length ∘ fun x : List (Nat × Nat) => List.map Prod.fst x) = List.length := by
    funext x; simp
  rw [e1] at h2
  rw [h2]
  congr 4
  simp [List.zipWith_map, polygonOf]

/-- One step of the loop over the polyhedra. -/
def putBody (m : Mesh α) (i : Nat) (c : Mesh.Polyhedron) : Res (Mesh α) := do
  let s ← m.insertFrom .vert3 i 0 c.verts
  let s ← s.insertFrom .edge3 i 0 c.edges
  let s ← s.insertFrom .face3 i 0 c.faces
  s.setAct .d3 i true

/-- A polyhedron that names existing cells. -/
def BodyInRange (D : MeshData α) (c : Mesh.Polyhedron) : Prop :=
  (∀ x ∈ c.verts, x < D.V.length) ∧ (∀ x ∈ c.edges, x < D.E.length) ∧ ∀ x ∈ c.faces, x < D.P.length

open Classical in
theorem putBody_eq {C : List CCell} {i : Nat} {c : Mesh.Polyhedron} {v : CCell} (hv : C[i]? = some v)
    (h1 : v.verts.length = c.verts.length) (h2 : v.edges.length = c.edges.length)
    (h3 : v.faces.length = c.faces.length) :
    putBody ({ D with C := C } : MeshData α).mesh i c =
      if D.BodyInRange c then
        ok ({ D with C := C.set i ⟨c.verts, c.edges, c.faces, v.mark, true⟩ } : MeshData α).mesh
      else abort := by
  have hi : i < C.length := (List.getElem?_eq_some_iff.1 hv).1
  unfold putBody
  by_cases g1 : ∀ x ∈ c.verts, x < D.V.length
  · rw [insertFrom_vert3 (D := { D with C := C }) hv h1 g1, ok_bind]
    by_cases g2 : ∀ x ∈ c.edges, x < D.E.length
    · rw [insertFrom_edge3 (D := { D with C := C.set i { v with verts := c.verts } })
        (v := { v with verts := c.verts }) (by simp [hi]) h2 g2, ok_bind]
      simp only [List.set_set]
      by_cases g3 : ∀ x ∈ c.faces, x < D.P.length
      · rw [if_pos ⟨g1, g2, g3⟩,
          insertFrom_face3 (D := { D with C := C.set i { v with verts := c.verts, edges := c.edges } })
          (v := { v with verts := c.verts, edges := c.edges }) (by simp [hi]) h3 g3, ok_bind,
          setAct_C (by simp [hi]; rfl)]
        simp [List.set_set]
      · rw [if_neg (fun h => g3 h.2.2), Mesh.insertFrom_bad (mesh_wf _) (by
          push Not at g3
          obtain ⟨x, hx, hn⟩ := g3
          exact ⟨x, hx, by show ¬ x < D.P.length; omega⟩)]
        rfl
    · rw [if_neg (fun h => g2 h.2.1), Mesh.insertFrom_bad (mesh_wf _) (by
        push Not at g2
        obtain ⟨x, hx, hn⟩ := g2
        exact ⟨x, hx, by show ¬ x < D.E.length; omega⟩)]
      rfl
  · rw [if_neg (fun h => g1 h.1), Mesh.insertFrom_bad (mesh_wf _) (by
        push Not at g1
        obtain ⟨x, hx, hn⟩ := g1
        exact ⟨x, hx, by show ¬ x < D.V.length; omega⟩)]
    rfl

open Classical in
theorem fillPolyhedra_eq [Zero α] (hC : D.C = []) (cs : List Mesh.Polyhedron) :
    D.mesh.fillPolyhedra cs = if ∀ c ∈ cs, D.BodyInRange c then
      ok ({ D with C := cs.map polyhedronOf } : MeshData α).mesh else abort := by
  unfold Mesh.fillPolyhedra
  rw [init_C hC]
  simp only
  rw [initRows_C (D := { D with C := List.replicate cs.length ⟨[], [], [], 0, false⟩ }) _ (by simp)
    (by simp) (by simp)]
  let cells : List CCell := (List.range cs.length).map fun i =>
        ⟨List.replicate ((cs.map (·.verts.length)).getD i 0) UINT_MAX,
          List.replicate ((cs.map (·.edges.length)).getD i 0) UINT_MAX,
          List.replicate ((cs.map (·.faces.length)).getD i 0) UINT_MAX, 0, false⟩
  have hcl : cells.length = cs.length := by simp [cells]
  let d : Mesh.Polyhedron := ⟨[], [], []⟩
  let f : Nat → CCell → CCell := fun i v => ⟨(cs.getD i d).verts, (cs.getD i d).edges, (cs.getD i d).faces,
    v.mark, true⟩
  let bad : Nat → Prop := fun i => ¬ D.BodyInRange (cs.getD i d)
  let step : Mesh α → Nat → Res (Mesh α) := fun s c => do
      let p ← vget cs c
      let s ← s.insertFrom .vert3 c 0 p.verts
      let s ← s.insertFrom .edge3 c 0 p.edges
      let s ← s.insertFrom .face3 c 0 p.faces
      s.setAct .d3 c true
  have base : ∀ C i (b : CCell), i < cs.length → cells[i]? = some b → C[i]? = some b →
      step ({ D with C := C } : MeshData α).mesh i =
      if bad i then abort else ok ({ D with C := C.set i (f i b) } : MeshData α).mesh := by
    intro C i b hi hb hc
    have e : cells[i]? = some ⟨List.replicate cs[i].verts.length UINT_MAX,
        List.replicate cs[i].edges.length UINT_MAX, List.replicate cs[i].faces.length UINT_MAX, 0, false⟩ := by
      simp [cells, hi]
    rw [e] at hb
    cases hb
    show (do let p ← vget cs i; putBody _ i p) = _
    rw [vget_of_lt hi, ok_bind, putBody_eq hc (by simp) (by simp) (by simp)]
    have g1 : cs.getD i d = cs[i] := by simp [hi]
    simp only [bad, f, g1, ite_not]
  simp only [List.length_map]
  show foldRes step ({ D with C := cells } : MeshData α).mesh (List.range cs.length) = _
  by_cases hr : ∀ c ∈ cs, D.BodyInRange c
  · rw [if_pos hr]
    have h1 := foldRange step (fun C => ({ D with C := C } : MeshData α).mesh) f cells (by
      intro C i b hi hl' hb hc
      rw [hcl] at hi
      rw [base C i b hi hb hc, if_neg]
      simp only [bad, not_not]
      have g1 : cs.getD i d = cs[i] := by simp [hi]
      rw [g1]
      exact hr _ (List.getElem_mem _))
    rw [hcl] at h1
    rw [h1]
    congr 3
    apply List.ext_getElem
    · simp [cells]
    · intro i h1 h2
      simp only [List.length_map] at h2
      simp [f, cells, h2, polyhedronOf]
  · rw [if_neg hr]
    have h1 := foldRange_abort step (fun C => ({ D with C := C } : MeshData α).mesh) f bad cells (by
      push Not at hr
      obtain ⟨c, hc, hn⟩ := hr
      obtain ⟨i, hi, rfl⟩ := List.mem_iff_getElem.1 hc
      refine ⟨i, by omega, ?_⟩
      have g1 : cs.getD i d = cs[i] := by simp [hi]
      simp only [bad, g1]
      exact hn)
      (by
        intro C i b hi hn hl' hb hc
        rw [base C i b (by omega) hb hc, if_neg hn])
      (by
        intro C i b hi hn hl' hb hc
        rw [base C i b (by omega) hb hc, if_pos hn])
    rw [hcl] at h1
    exact h1

theorem fillEdgesVec_eq [Zero α] (hE : D.E = []) (es : List (Nat × Nat)) :
    D.mesh.fillEdgesVec es = ok ({ D with E := es.map edgeOf } : MeshData α).mesh := by
  unfold Mesh.fillEdgesVec
  rw [init_E hE]
  have h1 := foldRange (fun (s : Mesh α) c => do
      let x ← vget es c
      let s ← s.insertExt c x.1 x.2
      s.setAct .d1 c true) (fun E => ({ D with E := E } : MeshData α).mesh)
    (fun i v => match es[i]? with
      | some p => ⟨p.1, p.2, v.mark, true, v.polygons⟩
      | none => v)
    (List.replicate es.length ⟨0, 0, 0, false, []⟩) (by
      intro cs i b hi hl _ hb
      simp only [List.length_replicate] at hi hl
      have hi' : i < cs.length := by omega
      rw [vget_of_lt hi, ok_bind, insertExt_E (D := { D with E := cs }) hb, ok_bind,
        setAct_E (by simp [hi']; rfl)]
      simp only [List.getElem?_eq_getElem hi, List.set_set])
  simp only [List.length_replicate] at h1
  simp only
  rw [h1]
  congr 3
  rw [mapIdx_replicate]
  apply range_map_getElem
  intro i p hp
  simp [hp, edgeOf]

theorem fillPolygonsVec_eq [Zero α] (hP : D.P = []) {vs es : List (List Nat)}
    (hl : vs.map List.length = es.map List.length) :
    D.mesh.fillPolygonsVec vs es =
      if RowsInRange D.V.length vs ∧ RowsInRange D.E.length es
      then ok ({ D with P := List.zipWith (fun v e => ⟨v, e, 0, true⟩) vs es } : MeshData α).mesh
      else abort := by
  have hlen : vs.length = es.length := by simpa using congrArg List.length hl
  unfold Mesh.fillPolygonsVec
  rw [init_P hP, assert_true hlen, ok_bind, assert_true hl]
  simp only [ok_bind]
  rw [initRows_P (D := { D with P := List.replicate vs.length ⟨[], [], 0, false⟩ })
    (sizes := vs.map List.length) _ (by simp)]
  exact facesLoop_eq (D := D) hl _ (by
      intro m i v e hv he
      simp only [vget_eq_ok.2 hv, vget_eq_ok.2 he, ok_bind]
      rfl)

/-! ### What the getters report -/

theorem plain_mesh (h : ∀ e ∈ D.E, e.polygons = []) : D.mesh.Plain where
  neighbours := by
    intro l hl i hi
    refine AMesh.row_conc D.toA_ok ?_
    have hi : i < D.num l.owner := hi
    cases l <;> simp only [Lst.isNeighbour, reduceCtorEq, or_self] at hl <;>
      simp only [toA, Lst.owner, num] at hi ⊢
    case nb12 => simp [hi, h _ (List.getElem_mem _)]
    all_goals simp [hi]
  original := by
    intro d i hd hi
    have hi' : i < D.num d := hi
    unfold Mesh.original
    rw [assert_true hi, ok_bind]
    cases d <;> simp [mesh, AMesh.conc, toA, num] at hd hi' ⊢ <;> simp [hi']
  updated := by
    intro d i hi
    unfold Mesh.updated
    rw [assert_true hi, ok_bind]
    rfl
  properties := fun _ => rfl

theorem allActive_mesh (hV : ∀ c ∈ D.V, c.act = true) (hE : ∀ c ∈ D.E, c.act = true)
    (hP : ∀ c ∈ D.P, c.act = true) (hC : ∀ c ∈ D.C, c.act = true) : D.mesh.AllActive := by
  intro d i hi
  cases d
  · have hi : i < D.V.length := hi
    rw [active_V (List.getElem?_eq_getElem hi), hV _ (List.getElem_mem _)]
  · have hi : i < D.E.length := hi
    rw [active_E (List.getElem?_eq_getElem hi), hE _ (List.getElem_mem _)]
  · have hi : i < D.P.length := hi
    rw [active_P (List.getElem?_eq_getElem hi), hP _ (List.getElem_mem _)]
  · have hi : i < D.C.length := hi
    rw [active_C (List.getElem?_eq_getElem hi), hC _ (List.getElem_mem _)]

theorem unmarked_V (h : ∀ c ∈ D.V, c.mark = 0) : D.mesh.Unmarked .d0 := by
  intro i hi
  have hi : i < D.V.length := hi
  rw [marker_V (List.getElem?_eq_getElem hi), h _ (List.getElem_mem _)]

theorem unmarked_E (h : ∀ c ∈ D.E, c.mark = 0) : D.mesh.Unmarked .d1 := by
  intro i hi
  have hi : i < D.E.length := hi
  rw [marker_E (List.getElem?_eq_getElem hi), h _ (List.getElem_mem _)]

theorem unmarked_P (h : ∀ c ∈ D.P, c.mark = 0) : D.mesh.Unmarked .d2 := by
  intro i hi
  have hi : i < D.P.length := hi
  rw [marker_P (List.getElem?_eq_getElem hi), h _ (List.getElem_mem _)]

theorem unmarked_C (h : ∀ c ∈ D.C, c.mark = 0) : D.mesh.Unmarked .d3 := by
  intro i hi
  have hi : i < D.C.length := hi
  rw [marker_C (List.getElem?_eq_getElem hi), h _ (List.getElem_mem _)]

/-- The mesh with the given cells, all active and without marker. -/
def filled (n : Nat) (ps : List (V3 α)) (es : List (Nat × Nat)) (vs fs : List (List Nat))
    (cs : List Mesh.Polyhedron) : MeshData α :=
  ⟨n, ps.map pointOf, es.map edgeOf, List.zipWith (fun v e => ⟨v, e, 0, true⟩) vs fs, cs.map polyhedronOf⟩

/-- What the getters report on the filled mesh. -/
theorem filled_reports (n : Nat) (ps : List (V3 α)) (es : List (Nat × Nat)) (vs fs : List (List Nat))
    (cs : List Mesh.Polyhedron) (hl : vs.length = fs.length) :
    (filled n ps es vs fs cs).mesh.WF ∧ (filled n ps es vs fs cs).mesh.dimension = n ∧
    (filled n ps es vs fs cs).mesh.ReportsPoints ps ∧ (filled n ps es vs fs cs).mesh.ReportsEdges es ∧
    (filled n ps es vs fs cs).mesh.ReportsPolygons vs fs ∧
    (filled n ps es vs fs cs).mesh.ReportsPolyhedra cs ∧ (filled n ps es vs fs cs).mesh.AllActive ∧
    (∀ d, (filled n ps es vs fs cs).mesh.Unmarked d) ∧ (filled n ps es vs fs cs).mesh.Plain := by
  refine ⟨mesh_wf _, rfl, ⟨by simp [filled, mesh, AMesh.conc, toA, num], ?_⟩,
    ⟨by simp [filled, mesh, AMesh.conc, toA, num], ?_⟩,
    ⟨by simp [filled, mesh, AMesh.conc, toA, num, hl], by simp [filled, mesh, AMesh.conc, toA, num, hl],
      ?_, ?_⟩, ⟨by simp [filled, mesh, AMesh.conc, toA, num], ?_⟩, ?_, ?_, ?_⟩
  · intro i p hp
    rw [coordinates_V (v := pointOf p) (by simp [filled, hp])]; rfl
  · intro i e he
    rw [extremes_E (v := edgeOf e) (by simp [filled, he])]; rfl
  · intro i v hv
    have hi := (List.getElem?_eq_some_iff.1 hv).1
    rw [row_vert2 (v := ⟨v, fs[i]'(by omega), 0, true⟩) (by
      simp [filled, List.getElem?_zipWith, hv, List.getElem?_eq_getElem (show i < fs.length by omega)])]
  · intro i v hv
    have hi := (List.getElem?_eq_some_iff.1 hv).1
    rw [row_edge2 (v := ⟨vs[i]'(by omega), v, 0, true⟩) (by
      simp [filled, List.getElem?_zipWith, hv, List.getElem?_eq_getElem (show i < vs.length by omega)])]
  · intro i c hc
    have : (filled n ps es vs fs cs).C[i]? = some (polyhedronOf c) := by simp [filled, hc]
    exact ⟨row_vert3 this, row_edge3 this, row_face3 this⟩
  · refine allActive_mesh (by simp [filled, pointOf]) (by simp only [filled, List.forall_mem_map]; intros; rfl) ?_
      (by simp [filled, polyhedronOf])
    intro c hc
    obtain ⟨i, hi, rfl⟩ := List.mem_iff_getElem.1 hc
    simp [filled]
  · intro d
    cases d
    · exact unmarked_V (by simp [filled, pointOf])
    · exact unmarked_E (by simp only [filled, List.forall_mem_map]; intros; rfl)
    · refine unmarked_P ?_
      intro c hc
      obtain ⟨i, hi, rfl⟩ := List.mem_iff_getElem.1 hc
      simp [filled]
    · exact unmarked_C (by simp [filled, polyhedronOf])
  · exact plain_mesh (by simp only [filled, List.forall_mem_map]; intros; rfl)

theorem polygonOf_zip (fs : List (List (Nat × Nat))) : fs.map polygonOf =
    List.zipWith (fun v e => ⟨v, e, 0, true⟩) (fs.map (·.map Prod.fst)) (fs.map (·.map Prod.snd)) := by
  simp [List.zipWith_map, polygonOf]

theorem fillMesh2D_eq [Zero α] (ps : List (V3 α)) (es : List (Nat × Nat)) (fs : List (List (Nat × Nat))) :
    Mesh.fillMesh2D ps es fs Mesh.empty =
      if EdgesInRange ps.length es ∧ RowsInRange ps.length (fs.map (·.map Prod.fst)) ∧
        RowsInRange es.length (fs.map (·.map Prod.snd)) then
      ok (filled 2 ps es (fs.map (·.map Prod.fst)) (fs.map (·.map Prod.snd)) []).mesh else abort := by
  unfold Mesh.fillMesh2D
  rw [empty_mesh, initDim_mesh]
  simp only
  rw [fillPoints_eq rfl, ok_bind, fillEdges_eq rfl]
  by_cases h1 : EdgesInRange ps.length es
  · rw [if_pos (by simpa using h1), ok_bind, fillPolygons_eq rfl]
    simp only [List.length_map, h1, true_and]
    unfold filled
    rw [← polygonOf_zip]
    rfl
  · rw [if_neg (by simpa using h1), if_neg (fun h => h1 h.1)]
    rfl

open Classical in
theorem fillMesh3D_eq [Zero α] (ps : List (V3 α)) (es : List (Nat × Nat)) (fs : List (List (Nat × Nat)))
    (cs : List Mesh.Polyhedron) :
    Mesh.fillMesh3D ps es fs cs Mesh.empty =
      if EdgesInRange ps.length es ∧ RowsInRange ps.length (fs.map (·.map Prod.fst)) ∧
        RowsInRange es.length (fs.map (·.map Prod.snd)) ∧
        RowsInRange ps.length (cs.map (·.verts)) ∧ RowsInRange es.length (cs.map (·.edges)) ∧
        RowsInRange fs.length (cs.map (·.faces)) then
      ok (filled 3 ps es (fs.map (·.map Prod.fst)) (fs.map (·.map Prod.snd)) cs).mesh else abort := by
  have s1 : ∀ D : MeshData α, D.V = [] → Mesh.fillWhen (ps.length > 0) (D.mesh.fillPoints ps) D.mesh =
      ok ({ D with V := ps.map pointOf } : MeshData α).mesh := by
    intro D hD
    unfold Mesh.fillWhen
    split
    · exact fillPoints_eq hD ps
    · have : ps = [] := List.length_eq_zero_iff.1 (by omega)
      subst this
      obtain ⟨_, _, _, _, _⟩ := D
      cases hD; rfl
  have s2 : ∀ D : MeshData α, D.E = [] → Mesh.fillWhen (es.length > 0) (D.mesh.fillEdges es) D.mesh =
      if EdgesInRange D.V.length es then ok ({ D with E := es.map edgeOf } : MeshData α).mesh else abort := by
    intro D hD
    unfold Mesh.fillWhen
    split
    · exact fillEdges_eq hD es
    · have : es = [] := List.length_eq_zero_iff.1 (by omega)
      subst this
      obtain ⟨_, _, _, _, _⟩ := D
      cases hD
      rw [if_pos (by simp [EdgesInRange])]; rfl
  have s3 : ∀ D : MeshData α, D.P = [] → Mesh.fillWhen (fs.length > 0) (D.mesh.fillPolygons fs) D.mesh =
      if RowsInRange D.V.length (fs.map (·.map Prod.fst)) ∧ RowsInRange D.E.length (fs.map (·.map Prod.snd))
      then ok ({ D with P := fs.map polygonOf } : MeshData α).mesh else abort := by
    intro D hD
    unfold Mesh.fillWhen
    split
    · exact fillPolygons_eq hD fs
    · have : fs = [] := List.length_eq_zero_iff.1 (by omega)
      subst this
      obtain ⟨_, _, _, _, _⟩ := D
      cases hD
      rw [if_pos (by simp [RowsInRange])]; rfl
  have s4 : ∀ D : MeshData α, D.C = [] → Mesh.fillWhen (cs.length > 0) (D.mesh.fillPolyhedra cs) D.mesh =
      if ∀ c ∈ cs, D.BodyInRange c then
      ok ({ D with C := cs.map polyhedronOf } : MeshData α).mesh else abort := by
    intro D hD
    unfold Mesh.fillWhen
    split
    · exact fillPolyhedra_eq hD cs
    · have : cs = [] := List.length_eq_zero_iff.1 (by omega)
      subst this
      obtain ⟨_, _, _, _, _⟩ := D
      cases hD
      rw [if_pos (by simp)]; rfl
  unfold Mesh.fillMesh3D
  rw [empty_mesh, initDim_mesh]
  simp only
  rw [s1 _ rfl, ok_bind, s2 _ rfl]
  by_cases h1 : EdgesInRange ps.length es
  · rw [if_pos (by simpa using h1), ok_bind, s3 _ rfl]
    simp only [List.length_map, h1, true_and]
    by_cases h2 : RowsInRange ps.length (fs.map (·.map Prod.fst)) ∧
        RowsInRange es.length (fs.map (·.map Prod.snd))
    · rw [if_pos h2, ok_bind, s4 _ rfl]
      unfold filled
      rw [← polygonOf_zip]
      have e : (∀ c ∈ cs, BodyInRange (⟨3, ps.map pointOf, es.map edgeOf, fs.map polygonOf, []⟩ :
          MeshData α) c) ↔ RowsInRange ps.length (fs.map (·.map Prod.fst)) ∧
          RowsInRange es.length (fs.map (·.map Prod.snd)) ∧
          RowsInRange ps.length (cs.map (·.verts)) ∧ RowsInRange es.length (cs.map (·.edges)) ∧
          RowsInRange fs.length (cs.map (·.faces)) := by
        constructor
        · intro h
          refine ⟨h2.1, h2.2, ?_⟩
          simp only [RowsInRange, List.forall_mem_map]
          simp only [BodyInRange, List.length_map] at h
          exact ⟨fun c hc => (h c hc).1, fun c hc => (h c hc).2.1, fun c hc => (h c hc).2.2⟩
        · rintro ⟨-, -, h⟩ c hc
          simp only [RowsInRange, List.forall_mem_map] at h
          simp only [BodyInRange, List.length_map]
          exact ⟨h.1 c hc, h.2.1 c hc, h.2.2 c hc⟩
      simp only [e]
    · rw [if_neg h2, if_neg (fun h => h2 ⟨h.1, h.2.1⟩)]
      rfl
  · rw [if_neg (by simpa using h1), if_neg (fun h => h1 h.1)]
    rfl

open Classical in
theorem fillMesh3DVec_eq [Zero α] (ps : List (V3 α)) (es : List (Nat × Nat)) {vs fs : List (List Nat)}
    (hl : vs.map List.length = fs.map List.length) (cs : List Mesh.Polyhedron) :
    Mesh.fillMesh3DVec ps es vs fs cs Mesh.empty =
      if RowsInRange ps.length vs ∧ RowsInRange es.length fs ∧
        RowsInRange ps.length (cs.map (·.verts)) ∧ RowsInRange es.length (cs.map (·.edges)) ∧
        RowsInRange vs.length (cs.map (·.faces)) then
      ok (filled 3 ps es vs fs cs).mesh else abort := by
  have hlen : vs.length = fs.length := by simpa using congrArg List.length hl
  have s1 : ∀ D : MeshData α, D.V = [] → Mesh.fillWhen (ps.length > 0) (D.mesh.fillPoints ps) D.mesh =
      ok ({ D with V := ps.map pointOf } : MeshData α).mesh := by
    intro D hD
    unfold Mesh.fillWhen
    split
    · exact fillPoints_eq hD ps
    · have : ps = [] := List.length_eq_zero_iff.1 (by omega)
      subst this
      obtain ⟨_, _, _, _, _⟩ := D
      cases hD; rfl
  have s2 : ∀ D : MeshData α, D.E = [] → Mesh.fillWhen (es.length > 0) (D.mesh.fillEdgesVec es) D.mesh =
      ok ({ D with E := es.map edgeOf } : MeshData α).mesh := by
    intro D hD
    unfold Mesh.fillWhen
    split
    · exact fillEdgesVec_eq hD es
    · have : es = [] := List.length_eq_zero_iff.1 (by omega)
      subst this
      obtain ⟨_, _, _, _, _⟩ := D
      cases hD; rfl
  have s3 : ∀ D : MeshData α, D.P = [] →
      Mesh.fillWhen (vs.length > 0 ∧ fs.length > 0) (D.mesh.fillPolygonsVec vs fs) D.mesh =
      if RowsInRange D.V.length vs ∧ RowsInRange D.E.length fs
      then ok ({ D with P := List.zipWith (fun v e => ⟨v, e, 0, true⟩) vs fs } : MeshData α).mesh
      else abort := by
    intro D hD
    unfold Mesh.fillWhen
    split
    · exact fillPolygonsVec_eq hD hl
    · have h1 : vs = [] := List.length_eq_zero_iff.1 (by omega)
      have h2 : fs = [] := List.length_eq_zero_iff.1 (by omega)
      subst h1 h2
      obtain ⟨_, _, _, _, _⟩ := D
      cases hD
      rw [if_pos (by simp [RowsInRange])]; rfl
  have s4 : ∀ D : MeshData α, D.C = [] → Mesh.fillWhen (cs.length > 0) (D.mesh.fillPolyhedra cs) D.mesh =
      if ∀ c ∈ cs, D.BodyInRange c then
      ok ({ D with C := cs.map polyhedronOf } : MeshData α).mesh else abort := by
    intro D hD
    unfold Mesh.fillWhen
    split
    · exact fillPolyhedra_eq hD cs
    · have : cs = [] := List.length_eq_zero_iff.1 (by omega)
      subst this
      obtain ⟨_, _, _, _, _⟩ := D
      cases hD
      rw [if_pos (by simp)]; rfl
  unfold Mesh.fillMesh3DVec
  rw [empty_mesh, initDim_mesh]
  simp only
  rw [s1 _ rfl, ok_bind, s2 _ rfl, ok_bind, s3 _ rfl]
  simp only [List.length_map]
  by_cases h2 : RowsInRange ps.length vs ∧ RowsInRange es.length fs
  · rw [if_pos h2, ok_bind, s4 _ rfl]
    unfold filled
    have e : (∀ c ∈ cs, BodyInRange (⟨3, ps.map pointOf, es.map edgeOf,
        List.zipWith (fun v e => ⟨v, e, 0, true⟩) vs fs, []⟩ : MeshData α) c) ↔
        RowsInRange ps.length vs ∧ RowsInRange es.length fs ∧
        RowsInRange ps.length (cs.map (·.verts)) ∧ RowsInRange es.length (cs.map (·.edges)) ∧
        RowsInRange vs.length (cs.map (·.faces)) := by
      constructor
      · intro h
        refine ⟨h2.1, h2.2, ?_⟩
        simp only [RowsInRange, List.forall_mem_map]
        simp only [BodyInRange, List.length_map, List.length_zipWith, ← hlen, Nat.min_self] at h
        exact ⟨fun c hc => (h c hc).1, fun c hc => (h c hc).2.1, fun c hc => (h c hc).2.2⟩
      · rintro ⟨-, -, h⟩ c hc
        simp only [RowsInRange, List.forall_mem_map] at h
        simp only [BodyInRange, List.length_map, List.length_zipWith, ← hlen, Nat.min_self]
        exact ⟨h.1 c hc, h.2.1 c hc, h.2.2 c hc⟩
    simp only [e]
  · rw [if_neg h2, if_neg (fun h => h2 ⟨h.1, h.2.1⟩)]
    rfl

/-- The mesh of a segment. -/
def segmentData {K : Type} [Field K] (o t : V3 K) (cs : List K) : MeshData K :=
  ⟨1, cs.mapIdx fun i x => ⟨(o.add (V3.smul x t)).x, (o.add (V3.smul x t)).y, (o.add (V3.smul x t)).z,
      if i + 1 = cs.length then 2 else if i = 0 then 1 else 0, true⟩,
    (List.range (cs.length - 1)).map fun e => ⟨e, e + 1, 0, true, []⟩, [], []⟩

theorem fillMesh1D_eq {K : Type} [Field K] (o t : V3 K) {cs : List K} (hc : cs ≠ []) :
    Mesh.fillMesh1D o t cs Mesh.empty = ok (segmentData o t cs).mesh := by
  have hl : 0 < cs.length := List.length_pos_iff.2 hc
  have hu : usub cs.length 1 = cs.length - 1 := by unfold usub; rw [if_pos (by omega)]
  unfold Mesh.fillMesh1D
  rw [if_neg (by omega), hu, empty_mesh, initDim_mesh]
  simp only
  rw [init_V rfl]
  let z : VCell K := ⟨0, 0, 0, 0, false⟩
  let D : MeshData K := ⟨1, [], [], [], []⟩
  let f : Nat → VCell K → VCell K := fun i v => match cs[i]? with
      | some x => ⟨(o.add (V3.smul x t)).x, (o.add (V3.smul x t)).y, (o.add (V3.smul x t)).z, v.mark, true⟩
      | none => v
  have h1 := foldRange (fun (s : Mesh K) c => do
      let s ← s.setAct .d0 c true
      let x ← vget cs c
      s.insertCoord c (o.add (V3.smul x t)).x (o.add (V3.smul x t)).y (o.add (V3.smul x t)).z)
    (fun V => ({ D with V := V } : MeshData K).mesh) f (List.replicate cs.length z) (by
      intro V i b hi hlen _ hb
      simp only [List.length_replicate] at hi hlen
      have hi' : i < V.length := by omega
      rw [setAct_V (D := { D with V := V }) hb, ok_bind, vget_of_lt hi, ok_bind,
        insertCoord_V (by simp [hi']; rfl)]
      simp only [f, List.getElem?_eq_getElem hi, List.set_set])
  simp only [List.length_replicate] at h1
  rw [h1, ok_bind]
  have hv : ∀ i, i < cs.length → (List.mapIdx f (List.replicate cs.length z))[i]? = some (f i z) := by
    intro i hi; simp [hi]
  rw [setMark_V (D := { D with V := List.mapIdx f (List.replicate cs.length z) }) (hv 0 hl), ok_bind]
  obtain ⟨w, hw⟩ : ∃ w, ((List.mapIdx f (List.replicate cs.length z)).set 0 { f 0 z with mark := 1 })[
      cs.length - 1]? = some w := by
    refine ⟨_, List.getElem?_eq_getElem ?_⟩
    simp; omega
  rw [setMark_V hw, ok_bind, init_E rfl]
  have h2 := foldRange (fun (s : Mesh K) e => do
      let s ← s.insertExt e e (e + 1)
      let s ← s.setAct .d1 e true
      s.setMark .d1 e 0) (fun E => ({ D with
        V := ((List.mapIdx f (List.replicate cs.length z)).set 0 { f 0 z with mark := 1 }).set
          (cs.length - 1) { w with mark := 2 }
        E := E } : MeshData K).mesh)
    (fun i v => ⟨i, i + 1, 0, true, v.polygons⟩)
    (List.replicate (cs.length - 1) ⟨0, 0, 0, false, []⟩) (by
      intro E i b hi hlen _ hb
      simp only [List.length_replicate] at hi hlen
      have hi' : i < E.length := by omega
      rw [insertExt_E hb, ok_bind, setAct_E (by simp [hi']; rfl), ok_bind, setMark_E (by simp [hi']; rfl)]
      simp only [List.set_set])
  simp only [List.length_replicate] at h2
  refine h2.trans ?_
  unfold segmentData
  congr 2
  simp only [MeshData.mk.injEq, and_true]
  refine ⟨rfl, ?_, ?_⟩
  · apply List.ext_getElem
    · simp
    · intro i g1 g2
      simp only [List.length_mapIdx] at g2
      have hw' : w = (if cs.length - 1 = 0 then { f 0 z with mark := 1 } else f (cs.length - 1) z) := by
        rw [List.getElem?_set] at hw
        split at hw
        · rename_i h0
          rw [if_pos (by simp; omega)] at hw
          rw [if_pos h0.symm]
          exact (Option.some.inj hw).symm
        · rename_i h0
          rw [hv _ (by omega)] at hw
          rw [if_neg (fun h => h0 h.symm)]
          exact (Option.some.inj hw).symm
      have hx : cs[i]? = some cs[i] := List.getElem?_eq_getElem g2
      simp only [List.getElem_set, List.getElem_mapIdx, List.getElem_replicate]
      by_cases hlast : cs.length - 1 = i
      · subst hlast
        rw [if_pos rfl, hw', if_pos (show cs.length - 1 + 1 = cs.length by omega)]
        split
        · rename_i h0
          have : cs[0]? = some cs[cs.length - 1] := by rw [← hx]; simp [h0]
          simp [f, this]
        · simp [f, hx]
      · rw [if_neg hlast, if_neg (show ¬ i + 1 = cs.length by omega)]
        by_cases h0 : 0 = i
        · subst h0
          simp [f, hx]
        · rw [if_neg h0, if_neg (fun h => h0 h.symm)]
          simp [f, hx, z]
  · rw [mapIdx_replicate]
    exact ⟨rfl, rfl, rfl⟩

end MeshData
end Verif
