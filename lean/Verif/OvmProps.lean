import Verif.OvmLemmas
import Verif.DataLemmas
import Mathlib.Algebra.Order.Field.Rat

/-
C134: meshes and OVM meshes.
-/
namespace Verif

open Res

variable {K : Type}

/-- C134, whole property: a mesh of polyhedra that is exported and imported again has the same vertices, edges, polygons and polyhedra,
with the same states, and the orientations of the faces are given back. Here: a mesh whose indices are those of cells can be exported
with the orientations of the faces. The OVM mesh can be imported into an empty mesh, in whatever order the sets are gone through; the
new mesh has the vertices, edges and polygons of the first one, and polyhedra with the same faces. The vertices and edges of a
polyhedron are those of its faces, each one time. The orientations are those given to the export. If edge `i` of each polygon has vertex
`i` of the polygon as an end, then the half edges of the OVM mesh begin at the vertices of the polygons. Missing: the states, see the
violation below. -/
theorem c134_round_trip_partial [Zero K] {m : Mesh K} (hw : m.WF) {orientation : List (List Bool)} (h : OvmReady m orientation)
    {order : List Nat → List Nat} (ho : ∀ l, (order l).Perm l) :
    ∃ o m', m.toOvm orientation = ok o ∧ (Mesh.empty : Mesh K).ofOvm order o = ok (m', orientation) ∧ OvmSame m m' ∧
      o.num0 = m.num .d0 ∧ o.num1 = m.num .d1 ∧ o.num2 = m.num .d2 ∧ o.num3 = m.num .d3 ∧
      (SidesMeet m → o.Consistent) := by
  obtain ⟨o, E, hto, q⟩ := toOvm_of hw h
  have hes : mapRes (fun e => vget o.halfEdges (2 * e)) (List.range o.num1) = ok E := by
    have := mapRes_range_list (fun e => vget o.halfEdges (2 * e)) E id (n := o.num1) (by rw [q.num1.1, q.num1.2]) (by
      intro i x hx
      have := pairs_even E i
      rw [← q.half, hx] at this
      simp only [vget, this, id])
    simpa using this
  have hfs : mapRes (fun f => (do
      let c ← vget o.faces f
      ok (c.map fun x => (x.1, ovmEdgeOf x.2)) : Res (List (Nat × Nat)))) (List.range o.num2) =
      ok (o.faces.map (·.map fun x => (x.1, ovmEdgeOf x.2))) := by
    refine mapRes_range_list _ o.faces _ (by rw [q.num2.1, q.num2.2]) ?_
    intro i x hx
    simp only [vget, hx, ok_bind]
  -- the polygons of the new mesh
  have hcol : ∀ (f : Nat) c, o.faces[f]? = some c → ∃ vs es, m.row .vert2 f = ok vs ∧ m.row .edge2 f = ok es ∧
      es.length = vs.length ∧ (c.map fun x => (x.1, ovmEdgeOf x.2)).map Prod.fst = vs ∧
      (c.map fun x => (x.1, ovmEdgeOf x.2)).map Prod.snd = es := by
    intro f c hc
    obtain ⟨vs, es, hv, he, hl, hx⟩ := q.face f c hc
    have hl' := (h.faces f vs es hv he).1
    have at' : ∀ (i : Nat) (hi : i < c.length), vs[i]? = some c[i].1 ∧ es[i]? = some (ovmEdgeOf c[i].2) := by
      intro i hi
      obtain ⟨e, y, g1, g2, _, g4⟩ := hx i _ (List.getElem?_eq_getElem hi)
      refine ⟨g1, ?_⟩
      rw [g2, g4, ovmEdgeOf_half]
    refine ⟨vs, es, hv, he, hl', ?_, ?_⟩
    · refine List.ext_getElem (by simp [hl]) ?_
      intro i i1 i2
      have := (at' i (by omega)).1
      rw [List.getElem?_eq_getElem i2] at this
      simpa using this.symm
    · refine List.ext_getElem (by simp [hl, hl']) ?_
      intro i i1 i2
      have := (at' i (by omega)).2
      rw [List.getElem?_eq_getElem i2] at this
      simpa using this.symm
  generalize hF : o.faces.map (·.map fun x => (x.1, ovmEdgeOf x.2)) = F at hfs
  have hFl : F.length = m.num .d2 := by rw [← hF, List.length_map, q.num2.2]
  have hFc : ∀ (f : Nat) c, F[f]? = some c → ∃ vs es, m.row .vert2 f = ok vs ∧ m.row .edge2 f = ok es ∧
      es.length = vs.length ∧ c.map Prod.fst = vs ∧ c.map Prod.snd = es := by
    intro f c hc
    rw [← hF, List.getElem?_map, Option.map_eq_some_iff] at hc
    obtain ⟨c', hc', rfl⟩ := hc
    exact hcol f c' hc'
  have hFrange : RowsInRange (m.num .d0) (F.map (·.map Prod.fst)) ∧ RowsInRange (m.num .d1) (F.map (·.map Prod.snd)) := by
    constructor
    · intro r hr
      obtain ⟨c, hc, rfl⟩ := List.mem_map.1 hr
      obtain ⟨f, hf⟩ := List.mem_iff_getElem?.1 hc
      obtain ⟨vs, es, g1, g2, _, g4, _⟩ := hFc f c hf
      rw [g4]
      exact (h.faces f vs es g1 g2).2.1
    · intro r hr
      obtain ⟨c, hc, rfl⟩ := List.mem_map.1 hr
      obtain ⟨f, hf⟩ := List.mem_iff_getElem?.1 hc
      obtain ⟨vs, es, g1, g2, _, _, g5⟩ := hFc f c hf
      rw [g5]
      exact (h.faces f vs es g1 g2).2.2
  -- the mesh after the polygons
  obtain ⟨r1, r2, r3, r4, r5, r6, r7, r8, r9⟩ := MeshData.filled_reports 3 o.points E (F.map (·.map Prod.fst))
    (F.map (·.map Prod.snd)) [] (by simp)
  have hm2 : (MeshData.filled 3 o.points E (F.map (·.map Prod.fst)) (F.map (·.map Prod.snd)) []).mesh =
      (⟨3, o.points.map MeshData.pointOf, E.map MeshData.edgeOf, F.map MeshData.polygonOf, []⟩ : MeshData K).mesh := by
    unfold MeshData.filled
    rw [← MeshData.polygonOf_zip]
    rfl
  generalize hM : (MeshData.filled 3 o.points E (F.map (·.map Prod.fst)) (F.map (·.map Prod.snd)) []).mesh = m2 at *
  have hrow2 : ∀ f, f < m.num .d2 → ∃ vs es, m.row .vert2 f = ok vs ∧ m.row .edge2 f = ok es ∧ es.length = vs.length ∧
      m2.row .vert2 f = ok vs ∧ m2.row .edge2 f = ok es := by
    intro f hf
    have hf' := List.getElem?_eq_getElem (show f < F.length by omega)
    obtain ⟨vs, es, g1, g2, g3, g4, g5⟩ := hFc f _ hf'
    exact ⟨vs, es, g1, g2, g3, r5.2.2.1 f vs (by rw [List.getElem?_map, hf', Option.map_some, g4]),
      r5.2.2.2 f es (by rw [List.getElem?_map, hf', Option.map_some, g5])⟩
  -- the polyhedra
  obtain ⟨C, c1, c2, c3⟩ := mapRes_range_exists (n := o.num3) (f := fun c => (do
      let s ← vget o.solids c
      let p ← m2.ovmSolid order s
      ok (p, s.2) : Res (Mesh.Polyhedron × List Bool)))
    (R := fun c x => ∃ fs, m.row .face3 c = ok fs ∧ orientation[c]? = some x.2 ∧ x.1.faces = fs ∧ x.1.verts.Nodup ∧
      x.1.edges.Nodup ∧ (∀ v, v ∈ x.1.verts ↔ ∃ f ∈ fs, ∃ vs, m.row .vert2 f = ok vs ∧ v ∈ vs) ∧
      ∀ e, e ∈ x.1.edges ↔ ∃ f ∈ fs, ∃ es, m.row .edge2 f = ok es ∧ e ∈ es) (by
      intro c hc
      have hc' := List.getElem?_eq_getElem (show c < o.solids.length by rw [q.num3.2, ← q.num3.1]; exact hc)
      obtain ⟨fs, g1, g2, g3, g4⟩ := q.solid c _ hc'
      have hlt := h.solids c fs g1
      obtain ⟨p, p1, p2, p3, p4, p5, p6⟩ := ovmSolid_spec (m := m2) r1 ho (fs := fs) (by
          intro f hf
          obtain ⟨vs, es, _, _, e1, e2, e3⟩ := hrow2 f (hlt f hf)
          exact ⟨vs, es, e2, e3, e1⟩) g3 (by
          intro i x hx
          obtain ⟨f, b, k1, k2, k3⟩ := g4 i x hx
          exact ⟨f, b, k1, k2, by rw [k3, ovmFaceOf_half]⟩)
      refine ⟨(p, _), ?_, fs, g1, g2, p2, p3, p4, ?_, ?_⟩
      · simp only [vget, hc', ok_bind, p1]
      · intro v
        rw [p5]
        constructor
        · rintro ⟨f, hf, vs, e1, e2⟩
          obtain ⟨vs', _, k1, _, _, k2, _⟩ := hrow2 f (hlt f hf)
          rw [e1] at k2
          exact ⟨f, hf, vs', k1, by rw [← ok.inj k2]; exact e2⟩
        · rintro ⟨f, hf, vs, e1, e2⟩
          obtain ⟨vs', _, k1, _, _, k2, _⟩ := hrow2 f (hlt f hf)
          rw [e1] at k1
          exact ⟨f, hf, vs', k2, by rw [← ok.inj k1]; exact e2⟩
      · intro v
        rw [p6]
        constructor
        · rintro ⟨f, hf, vs, e1, e2⟩
          obtain ⟨_, es', _, k1, _, _, k2⟩ := hrow2 f (hlt f hf)
          rw [e1] at k2
          exact ⟨f, hf, es', k1, by rw [← ok.inj k2]; exact e2⟩
        · rintro ⟨f, hf, vs, e1, e2⟩
          obtain ⟨_, es', _, k1, _, _, k2⟩ := hrow2 f (hlt f hf)
          rw [e1] at k1
          exact ⟨f, hf, es', k2, by rw [← ok.inj k1]; exact e2⟩)
  rw [q.num3.1] at c2
  have hbody : ∀ p ∈ C.map Prod.fst, MeshData.BodyInRange (⟨3, o.points.map MeshData.pointOf, E.map MeshData.edgeOf,
      F.map MeshData.polygonOf, []⟩ : MeshData K) p := by
    intro p hp
    obtain ⟨x, hx, rfl⟩ := List.mem_map.1 hp
    obtain ⟨c, hc⟩ := List.mem_iff_getElem?.1 hx
    obtain ⟨fs, g1, _, g3, _, _, g6, g7⟩ := c3 c x hc
    have hlt := h.solids c fs g1
    refine ⟨?_, ?_, ?_⟩
    · intro v hv
      obtain ⟨f, hf, vs, e1, e2⟩ := (g6 v).1 hv
      obtain ⟨_, es', _, k1, _⟩ := hrow2 f (hlt f hf)
      have := (h.faces f vs es' e1 k1).2.1 v e2
      simpa [q.num0.2] using this
    · intro v hv
      obtain ⟨f, hf, es, e1, e2⟩ := (g7 v).1 hv
      obtain ⟨vs', _, k1, _⟩ := hrow2 f (hlt f hf)
      have := (h.faces f vs' es k1 e1).2.2 v e2
      simpa [q.num1.2] using this
    · intro f hf
      rw [g3] at hf
      have := hlt f hf
      simpa [hFl] using this
  obtain ⟨t1, t2, t3, t4, t5, t6, t7, t8, t9⟩ := MeshData.filled_reports 3 o.points E (F.map (·.map Prod.fst))
    (F.map (·.map Prod.snd)) (C.map Prod.fst) (by simp)
  have hsnd : C.map Prod.snd = orientation := by
    refine List.ext_getElem (by simp [c2, h.orientations]) ?_
    intro i i1 i2
    obtain ⟨_, _, g, _⟩ := c3 i _ (List.getElem?_eq_getElem (by simpa using i1))
    rw [List.getElem?_eq_getElem i2] at g
    simpa using g.symm
  refine ⟨o, _, hto, ?_, ⟨t1, t2, ?_, ?_, ?_, ?_, ?_, ?_, ?_, t7, t8, t9⟩, q.num0.1, q.num1.1, q.num2.1, q.num3.1, ?_⟩
  · have s1 : (Mesh.empty : Mesh K).ofOvm order o = (do
        let m ← ({ (Mesh.empty : Mesh K) with dimension := 3 }).fillPoints o.points
        let m ← m.fillEdgesVec E
        let m ← m.fillPolygons F
        let cs ← mapRes (fun c => (do
          let s ← vget o.solids c
          let p ← m.ovmSolid order s
          ok (p, s.2) : Res (Mesh.Polyhedron × List Bool))) (List.range o.num3)
        let m ← m.fillPolyhedra (cs.map Prod.fst)
        ok (m, cs.map Prod.snd)) := by
      unfold Mesh.ofOvm Mesh.fillPoints
      rw [hes, hfs, q.num0.1, ← q.num0.2]
      simp only [ok_bind]
      cases (({ (Mesh.empty : Mesh K) with dimension := 3 }).init .d0 o.points.length).insertCoords o.points <;> rfl
    rw [s1, MeshData.empty_mesh, MeshData.initDim_mesh, MeshData.fillPoints_eq rfl, ok_bind, MeshData.fillEdgesVec_eq rfl,
      ok_bind, MeshData.fillPolygons_eq rfl, if_pos (by simpa [q.num0.2, q.num1.2] using hFrange), ok_bind]
    simp only
    rw [← hm2, c1, ok_bind, hm2, MeshData.fillPolyhedra_eq rfl, if_pos hbody, ok_bind, hsnd]
    unfold MeshData.filled
    rw [← MeshData.polygonOf_zip]
  · intro d
    cases d
    · rw [t3.1, q.num0.2]
    · rw [t4.1, q.num1.2]
    · rw [t5.1]; simp [hFl]
    · rw [t6.1]; simp [c2]
  · intro i hi
    have hi' := List.getElem?_eq_getElem (show i < o.points.length by rw [q.num0.2]; exact hi)
    rw [t3.2 i _ hi', q.point i _ hi']
  · intro i hi
    have hi' := List.getElem?_eq_getElem (show i < E.length by rw [q.num1.2]; exact hi)
    rw [t4.2 i _ hi', q.edge i _ hi']
  · intro f hf
    have hf' := List.getElem?_eq_getElem (show f < F.length by omega)
    obtain ⟨vs, es, g1, g2, g3, g4, g5⟩ := hFc f _ hf'
    rw [t5.2.2.1 f vs (by rw [List.getElem?_map, hf', Option.map_some, g4]),
      t5.2.2.2 f es (by rw [List.getElem?_map, hf', Option.map_some, g5])]
    exact ⟨g1.symm, g2.symm⟩
  · intro c hc
    have hc' := List.getElem?_eq_getElem (show c < C.length by omega)
    obtain ⟨fs, g1, _, g3, _⟩ := c3 c _ hc'
    rw [(t6.2 c C[c].1 (by rw [List.getElem?_map, hc', Option.map_some])).2.2, g3, g1]
  · intro c fs hfs'
    have hc : c < m.num .d3 := lt_of_row hfs'
    have hc' := List.getElem?_eq_getElem (show c < C.length by omega)
    obtain ⟨fs', g1, _, _, g4, _, g6, _⟩ := c3 c _ hc'
    rw [hfs'] at g1
    obtain rfl : fs = fs' := ok.inj g1
    exact ⟨_, (t6.2 c C[c].1 (by rw [List.getElem?_map, hc', Option.map_some])).1, g4, g6⟩
  · intro c fs hfs'
    have hc : c < m.num .d3 := lt_of_row hfs'
    have hc' := List.getElem?_eq_getElem (show c < C.length by omega)
    obtain ⟨fs', g1, _, _, _, g5, _, g7⟩ := c3 c _ hc'
    rw [hfs'] at g1
    obtain rfl : fs = fs' := ok.inj g1
    exact ⟨_, (t6.2 c C[c].1 (by rw [List.getElem?_map, hc', Option.map_some])).2.1, g5, g7⟩
  · intro hsm
    refine ⟨by rw [q.num0.1, q.num0.2], by rw [q.half, pairs_length, q.num1.1, q.num1.2], by rw [q.num2.1, q.num2.2],
      by rw [q.num3.1, q.num3.2], ?_, ?_, ?_⟩
    · intro e a b hab
      rw [q.half, pairs_even] at hab
      rw [q.half, pairs_odd, hab]
      rfl
    · intro face hface x hx
      obtain ⟨f, hf⟩ := List.mem_iff_getElem?.1 hface
      obtain ⟨i, hi⟩ := List.mem_iff_getElem?.1 hx
      obtain ⟨vs, es, g1, g2, _, g4⟩ := q.face f face hf
      obtain ⟨e, y, k1, k2, k3, k4⟩ := g4 i x hi
      have hlt := lt_of_extremes k3
      have hlE : e < E.length := by rw [q.num1.2]; exact hlt
      have hE := List.getElem?_eq_getElem hlE
      have hy := q.edge e _ hE
      rw [k3] at hy
      have hy : y = E[e] := ok.inj hy
      rw [← hy] at hE
      rw [k4, q.half]
      split_ifs with hd
      · refine ⟨y.2, ?_⟩
        rw [pairs_even, hE, ← hd]
      · refine ⟨y.1, ?_⟩
        have := (hsm f vs es i _ e y g1 g2 k1 k2 k3).resolve_left hd
        rw [pairs_odd, hE, ← this]
        rfl
    · intro s hs
      obtain ⟨c, hc⟩ := List.mem_iff_getElem?.1 hs
      obtain ⟨fs, g1, g2, g3, g4⟩ := q.solid c s hc
      have hl := h.orientation c fs s.2 g1 g2
      refine List.ext_getElem (by simp [hl, g3]) ?_
      intro i i1 i2
      obtain ⟨f, b, _, k2, k3⟩ := g4 i _ (List.getElem?_eq_getElem (by simpa using i2))
      rw [List.getElem?_eq_getElem i1] at k2
      have k2 : s.2[i] = b := by simpa using k2
      rw [List.getElem_map, k2, k3]
      cases b <;> simp <;> omega

/-- A tetrahedron that is not active. -/
def ovmTetra : Mesh ℚ :=
  (⟨3, [⟨0, 0, 0, 1, true⟩, ⟨1, 0, 0, 2, true⟩, ⟨0, 1, 0, 3, true⟩, ⟨0, 0, 1, 4, true⟩],
    [⟨0, 1, 0, true, []⟩, ⟨2, 1, 0, true, []⟩, ⟨0, 2, 0, true, []⟩, ⟨0, 3, 0, true, []⟩, ⟨1, 3, 0, true, []⟩, ⟨2, 3, 0, true, []⟩],
    [⟨[0, 1, 2], [0, 1, 2], 0, true⟩, ⟨[0, 1, 3], [0, 4, 3], 0, true⟩, ⟨[0, 2, 3], [2, 5, 3], 0, true⟩,
      ⟨[1, 2, 3], [1, 5, 4], 0, true⟩],
    [⟨[0, 1, 2, 3], [0, 1, 2, 3, 4, 5], [0, 1, 2, 3], 7, false⟩]⟩ : MeshData ℚ).mesh

def ovmTetraRows : List (List Nat × List Nat) :=
  [([0, 1, 2], [0, 1, 2]), ([0, 1, 3], [0, 4, 3]), ([0, 2, 3], [2, 5, 3]), ([1, 2, 3], [1, 5, 4])]

theorem ovmTetra_rows {f : Nat} {vs es : List Nat} (hv : ovmTetra.row .vert2 f = ok vs) (he : ovmTetra.row .edge2 f = ok es) :
    (vs, es) ∈ ovmTetraRows := by
  have hf : f < 4 := lt_of_row hv
  have key : ovmTetra.row .vert2 f = ok (ovmTetraRows[f]'hf).1 ∧ ovmTetra.row .edge2 f = ok (ovmTetraRows[f]'hf).2 := by
    match f, hf with
    | 0, _ => exact ⟨rfl, rfl⟩
    | 1, _ => exact ⟨rfl, rfl⟩
    | 2, _ => exact ⟨rfl, rfl⟩
    | 3, _ => exact ⟨rfl, rfl⟩
  rw [hv, he] at key
  rw [ok.inj key.1, ok.inj key.2]
  exact List.getElem_mem _

theorem ovmTetra_ready : OvmReady ovmTetra [[true, false, true, true]] := by
  have hrows : ∀ x ∈ ovmTetraRows, x.2.length = x.1.length ∧ (∀ v ∈ x.1, v < 4) ∧ ∀ e ∈ x.2, e < 6 := by decide
  have face : ∀ c fs, ovmTetra.row .face3 c = ok fs → fs = [0, 1, 2, 3] := by
    intro c fs h
    have hc : c < 1 := lt_of_row h
    obtain rfl : c = 0 := by omega
    have h0 : ovmTetra.row .face3 0 = ok [0, 1, 2, 3] := rfl
    rw [h0] at h
    exact (ok.inj h).symm
  refine ⟨fun f vs es hv he => hrows _ (ovmTetra_rows hv he), ?_, rfl, ?_⟩
  · intro c fs h
    rw [face c fs h]
    decide
  · intro c fs o h hc
    have hc' : c < 1 := lt_of_row h
    obtain rfl : c = 0 := by omega
    rw [face 0 fs h]
    obtain rfl : [true, false, true, true] = o := by simpa using hc
    rfl

/-- C134 fails for the code: the export does not leave out cells that are not active, and the import makes all cells active. -/
theorem c134_states_violated : ovmTetra.WF ∧ OvmReady ovmTetra [[true, false, true, true]] ∧ ovmTetra.active .d3 0 = ok false ∧
    ∀ order : List Nat → List Nat, (∀ l, (order l).Perm l) → ∃ o m', ovmTetra.toOvm [[true, false, true, true]] = ok o ∧
      (Mesh.empty : Mesh ℚ).ofOvm order o = ok (m', [[true, false, true, true]]) ∧ m'.num .d3 = 1 ∧ m'.active .d3 0 = ok true := by
  refine ⟨MeshData.mesh_wf _, ovmTetra_ready, rfl, ?_⟩
  intro order ho
  obtain ⟨o, m', h1, h2, h3, _⟩ := c134_round_trip_partial (MeshData.mesh_wf _) ovmTetra_ready ho
  have hn : m'.num .d3 = 1 := h3.num .d3
  exact ⟨o, m', h1, h2, hn, h3.active .d3 0 (by omega)⟩

/-- The sides of the polygons and the half edges of the OVM mesh. -/
example : ovmTetra.toOvm [[true, false, true, true]] = ok ⟨4, 6, 4, 1, [⟨0, 0, 0⟩, ⟨1, 0, 0⟩, ⟨0, 1, 0⟩, ⟨0, 0, 1⟩],
    [(0, 1), (1, 0), (2, 1), (1, 2), (0, 2), (2, 0), (0, 3), (3, 0), (1, 3), (3, 1), (2, 3), (3, 2)],
    [[(0, 0), (1, 3), (2, 5)], [(0, 0), (1, 8), (3, 7)], [(0, 4), (2, 10), (3, 7)], [(1, 3), (2, 10), (3, 9)]],
    [([0, 3, 4, 6], [true, false, true, true])]⟩ := rfl

end Verif
