import Verif.FromPolyhedronLemmas
import Mathlib.Algebra.Order.Field.Rat

/-
C136: the mesh of one polyhedron. C137: a polyhedron of a mesh.
-/
namespace Verif

open Res

variable {K : Type}

/-- C136: with at least four vertices, and faces whose indices are those of vertices and edges, `Mesh3DFromPolyhedron` on an empty mesh
gives the mesh of the polyhedron. In all other cases the call stops at an assertion. -/
theorem c136_polyhedron_mesh [Field K] (ps : List (V3 K)) (es : List (Nat × Nat)) (fs : List (List (Nat × Nat))) (vm em fm : List Nat) :
    (3 < ps.length → (∀ f ∈ fs, ∀ x ∈ f, x.1 < ps.length ∧ x.2 < es.length) →
      ∃ m, Mesh.mesh3DFromPolyhedron ps es fs vm em fm Mesh.empty = ok m ∧ PolyhedronMesh ps es fs vm em fm m) ∧
    (ps.length ≤ 3 ∨ (∃ f ∈ fs, ∃ x ∈ f, ps.length ≤ x.1 ∨ es.length ≤ x.2) →
      Mesh.mesh3DFromPolyhedron ps es fs vm em fm Mesh.empty = abort) := by
  rw [MeshData.mesh3DFromPolyhedron_eq]
  constructor
  swap
  · intro h
    rw [if_neg]
    rintro ⟨h1, h2, h3⟩
    rcases h with h | ⟨f, hf, x, hx, h⟩
    · omega
    · have g1 := h2 _ (List.mem_map_of_mem hf) x.1 (List.mem_map_of_mem hx)
      have g2 := h3 _ (List.mem_map_of_mem hf) x.2 (List.mem_map_of_mem hx)
      omega
  intro h hr
  rw [if_pos ⟨h, by
    intro r hr' x hx
    obtain ⟨f, hf, rfl⟩ := List.mem_map.1 hr'
    obtain ⟨y, hy, rfl⟩ := List.mem_map.1 hx
    exact (hr f hf y hy).1, by
    intro r hr' x hx
    obtain ⟨f, hf, rfl⟩ := List.mem_map.1 hr'
    obtain ⟨y, hy, rfl⟩ := List.mem_map.1 hx
    exact (hr f hf y hy).2⟩]
  have hV : ∀ i, i < ps.length → (MeshData.bodyData ps es fs vm em fm).V[i]? = some (MeshData.polyPoint ps vm i) := by
    intro i hi; simp [MeshData.bodyData, hi]
  have hE : ∀ i, i < es.length → (MeshData.bodyData ps es fs vm em fm).E[i]? = some (MeshData.bodyEdge ps.length es em i) := by
    intro i hi; simp [MeshData.bodyData, hi]
  have hP : ∀ i, i < fs.length →
      (MeshData.bodyData ps es fs vm em fm).P[i]? = some (MeshData.bodyFace (ps.length + es.length) fs fm i) := by
    intro i hi; simp [MeshData.bodyData, hi]
  have hC : (MeshData.bodyData ps es fs vm em fm).C[0]? =
      some ⟨List.range ps.length, List.range es.length, List.range fs.length, 0, true⟩ := rfl
  refine ⟨_, rfl, ⟨MeshData.mesh_wf _, rfl, ⟨?_, ?_⟩, ⟨?_, ?_⟩, ⟨?_, ?_, ?_, ?_⟩, ⟨rfl, ?_⟩, ?_, ?_, ?_, ?_, ?_, ?_⟩⟩
  · show (List.map _ _).length = _
    simp
  · intro i p hp
    have hi := (List.getElem?_eq_some_iff.1 hp).1
    rw [MeshData.coordinates_V (hV i hi)]
    simp [MeshData.polyPoint, hp]
  · show (List.map _ _).length = _
    simp
  · intro i e he
    have hi := (List.getElem?_eq_some_iff.1 he).1
    rw [MeshData.extremes_E (hE i hi)]
    simp [MeshData.bodyEdge, he]
  · show (List.map _ _).length = _
    simp
  · show (List.map _ _).length = _
    simp
  · intro i r hr
    obtain ⟨hi, hr⟩ := List.getElem?_eq_some_iff.1 hr
    have hi : i < fs.length := by simpa using hi
    rw [MeshData.row_vert2 (hP i hi), ← hr]
    simp [MeshData.bodyFace, hi]
  · intro i r hr
    obtain ⟨hi, hr⟩ := List.getElem?_eq_some_iff.1 hr
    have hi : i < fs.length := by simpa using hi
    rw [MeshData.row_edge2 (hP i hi), ← hr]
    simp [MeshData.bodyFace, hi]
  · intro i c hc
    obtain ⟨hi, hc⟩ := List.getElem?_eq_some_iff.1 hc
    obtain rfl : i = 0 := by simpa using hi
    rw [MeshData.row_vert3 hC, MeshData.row_edge3 hC, MeshData.row_face3 hC, ← hc]
    exact ⟨rfl, rfl, rfl⟩
  · exact MeshData.allActive_mesh (by simp [MeshData.bodyData, MeshData.polyPoint])
      (by simp [MeshData.bodyData, MeshData.bodyEdge]) (by simp [MeshData.bodyData, MeshData.bodyFace])
      (by simp [MeshData.bodyData])
  · intro v hv
    exact ⟨_, MeshData.marker_V (hV v hv), isMarker_markerOf hv⟩
  · intro e he
    exact ⟨_, MeshData.marker_E (hE e he), isMarker_markerOf he⟩
  · intro f hf
    exact ⟨_, MeshData.marker_P (hP f hf), isMarker_markerOf hf⟩
  · exact MeshData.marker_C hC
  · exact MeshData.plain_mesh (by simp [MeshData.bodyData, MeshData.bodyEdge])

/-- C137: `MeshCell3DToPolyhedron` of a polyhedron that has the ends of its edges and the vertices and edges of its faces gives it with
local indices. -/
theorem c137_local {m : Mesh K} (hw : m.WF) {c : Nat} {vs es fs : List Nat} (h : CellComplete m c vs es fs) :
    ∃ P, m.cellToPolyhedron c = ok P ∧ IsLocal m vs es fs P := by
  obtain ⟨ps, p1, p2, p3⟩ := mapRes_exists_at (f := m.point) (l := vs) (R := fun v p => m.coordinates v = ok (p.x, p.y, p.z)) (by
    intro v hv
    obtain ⟨x, hx⟩ := Mesh.coordinates_exists hw (h.points v hv)
    exact ⟨⟨x.1, x.2.1, x.2.2⟩, by simp only [Mesh.point, hx, ok_bind], hx⟩)
  obtain ⟨E, e1, e2, e3⟩ := mapRes_exists_at (l := es) (f := fun e => (do
      let x ← m.extremes e
      let a ← localAt (localMap vs 0 []) x.1
      let b ← localAt (localMap vs 0 []) x.2
      ok (a, b) : Res (Nat × Nat)))
    (R := fun e x => ∃ a b, m.extremes e = ok (a, b) ∧ vs[x.1]? = some a ∧ vs[x.2]? = some b) (by
    intro e he
    obtain ⟨x, hx, ha, hb⟩ := h.ends e he
    obtain ⟨i, hi, hi'⟩ := localAt_mem ha
    obtain ⟨j, hj, hj'⟩ := localAt_mem hb
    exact ⟨(i, j), by simp only [hx, hi, hj, ok_bind], x.1, x.2, hx, hi', hj'⟩)
  obtain ⟨F, f1, f2, f3⟩ := mapRes_exists_at (l := fs) (f := fun f => (do
      let n ← m.rowSize .vert2 f
      mapRes (m.localColumn (localMap vs 0 []) (localMap es 0 []) f) (List.range n) : Res (List (Nat × Nat))))
    (R := fun f cols => ∃ us ds, m.row .vert2 f = ok us ∧ m.row .edge2 f = ok ds ∧
      cols.length = us.length ∧ ∀ (j : Nat) x, cols[j]? = some x → ∃ v e, us[j]? = some v ∧ vs[x.1]? = some v ∧ ds[j]? = some e ∧
      es[x.2]? = some e) (by
    intro f hf
    obtain ⟨us, ds, hu, hd, hl, g1, g2⟩ := h.sides f hf
    obtain ⟨cols, c1, c2, c3⟩ := mapRes_range_exists (n := us.length)
      (f := m.localColumn (localMap vs 0 []) (localMap es 0 []) f)
      (R := fun j x => ∃ v e, us[j]? = some v ∧ vs[x.1]? = some v ∧ ds[j]? = some e ∧ es[x.2]? = some e) (by
      intro j hj
      have hu' : us[j]? = some us[j] := List.getElem?_eq_getElem hj
      have hd' : ds[j]? = some (ds[j]'(by omega)) := List.getElem?_eq_getElem _
      obtain ⟨a, ha, ha'⟩ := localAt_mem (g1 _ (List.getElem_mem hj))
      obtain ⟨b, hb, hb'⟩ := localAt_mem (g2 _ (List.getElem_mem (show j < ds.length by omega)))
      refine ⟨(a, b), ?_, _, _, hu', ha', hd', hb'⟩
      simp only [Mesh.localColumn, entry_of_row hw hu hu', entry_of_row hw hd hd', ha, hb, ok_bind])
    exact ⟨cols, by simp only [rowSize_of_row hw hu, ok_bind, c1], us, ds, hu, hd, c2, c3⟩)
  refine ⟨⟨ps, E, F⟩, ?_, ⟨p2, e2, f2, p3, e3, f3⟩⟩
  simp only [Mesh.cellToPolyhedron, h.vertices, h.edges, h.faces, p1, e1, f1, ok_bind]

/-- C137: an edge with an end that is no vertex of the polyhedron makes the call end with an exception. -/
theorem c137_missing_end {m : Mesh K} (hw : m.WF) {c : Nat} {vs es fs : List Nat} (hv : m.row .vert3 c = ok vs)
    (he : m.row .edge3 c = ok es) (hf : m.row .face3 c = ok fs) (hp : ∀ v ∈ vs, v < m.num .d0) (hes : ∀ e ∈ es, e < m.num .d1)
    (h : ∃ e ∈ es, ∃ x, m.extremes e = ok x ∧ (x.1 ∉ vs ∨ x.2 ∉ vs)) : m.cellToPolyhedron c = throw := by
  obtain ⟨ps, p1, _, _⟩ := mapRes_exists_at (f := m.point) (l := vs) (R := fun _ _ => True) (by
    intro v hv
    obtain ⟨x, hx⟩ := Mesh.coordinates_exists hw (hp v hv)
    exact ⟨⟨x.1, x.2.1, x.2.2⟩, by simp only [Mesh.point, hx, ok_bind], trivial⟩)
  have e1 : mapRes (fun e => (do
      let x ← m.extremes e
      let a ← localAt (localMap vs 0 []) x.1
      let b ← localAt (localMap vs 0 []) x.2
      ok (a, b) : Res (Nat × Nat))) es = throw := by
    have step : ∀ e x, m.extremes e = ok x → (x.1 ∈ vs ∧ x.2 ∈ vs → ∃ r, (do
        let x ← m.extremes e
        let a ← localAt (localMap vs 0 []) x.1
        let b ← localAt (localMap vs 0 []) x.2
        ok (a, b) : Res (Nat × Nat)) = ok r) ∧ (¬ (x.1 ∈ vs ∧ x.2 ∈ vs) → (do
        let x ← m.extremes e
        let a ← localAt (localMap vs 0 []) x.1
        let b ← localAt (localMap vs 0 []) x.2
        ok (a, b) : Res (Nat × Nat)) = throw) := by
      intro e x hx
      simp only [hx, ok_bind]
      by_cases h1 : x.1 ∈ vs
      · obtain ⟨i, hi, _⟩ := localAt_mem h1
        by_cases h2 : x.2 ∈ vs
        · obtain ⟨j, hj, _⟩ := localAt_mem h2
          exact ⟨fun _ => ⟨(i, j), by simp only [hi, hj, ok_bind]⟩, fun g => absurd ⟨h1, h2⟩ g⟩
        · refine ⟨fun g => absurd g.2 h2, fun _ => ?_⟩
          simp only [hi, localAt_not_mem h2, ok_bind]
          rfl
      · refine ⟨fun g => absurd g.1 h1, fun _ => ?_⟩
        simp only [localAt_not_mem h1]
        rfl
    refine mapRes_throws ?_ ?_
    · intro e hm
      obtain ⟨x, hx⟩ := Mesh.extremes_exists hw (hes e hm)
      by_cases hc : x.1 ∈ vs ∧ x.2 ∈ vs
      · exact Or.inl ((step e x hx).1 hc)
      · exact Or.inr ((step e x hx).2 hc)
    · obtain ⟨e, hm, x, hx, hc⟩ := h
      exact ⟨e, hm, (step e x hx).2 (by tauto)⟩
  simp only [Mesh.cellToPolyhedron, hv, he, hf, p1, e1, ok_bind]
  rfl

/-- C137: a face with a vertex or edge that the polyhedron has not makes the call end with an exception. -/
theorem c137_missing_side {m : Mesh K} (hw : m.WF) {c : Nat} {vs es fs : List Nat} (hv : m.row .vert3 c = ok vs)
    (he : m.row .edge3 c = ok es) (hf : m.row .face3 c = ok fs) (hp : ∀ v ∈ vs, v < m.num .d0)
    (hes : ∀ e ∈ es, ∃ x, m.extremes e = ok x ∧ x.1 ∈ vs ∧ x.2 ∈ vs)
    (hfs : ∀ f ∈ fs, ∃ us ds, m.row .vert2 f = ok us ∧ m.row .edge2 f = ok ds ∧ ds.length = us.length)
    (h : ∃ f ∈ fs, ∃ us ds, m.row .vert2 f = ok us ∧ m.row .edge2 f = ok ds ∧ ((∃ v ∈ us, v ∉ vs) ∨ ∃ e ∈ ds, e ∉ es)) :
    m.cellToPolyhedron c = throw := by
  obtain ⟨ps, p1, _, _⟩ := mapRes_exists_at (f := m.point) (l := vs) (R := fun _ _ => True) (by
    intro v hv
    obtain ⟨x, hx⟩ := Mesh.coordinates_exists hw (hp v hv)
    exact ⟨⟨x.1, x.2.1, x.2.2⟩, by simp only [Mesh.point, hx, ok_bind], trivial⟩)
  obtain ⟨E, e1, _, _⟩ := mapRes_exists_at (l := es) (f := fun e => (do
      let x ← m.extremes e
      let a ← localAt (localMap vs 0 []) x.1
      let b ← localAt (localMap vs 0 []) x.2
      ok (a, b) : Res (Nat × Nat))) (R := fun _ _ => True) (by
    intro e he
    obtain ⟨x, hx, ha, hb⟩ := hes e he
    obtain ⟨i, hi, hi'⟩ := localAt_mem ha
    obtain ⟨j, hj, hj'⟩ := localAt_mem hb
    exact ⟨(i, j), by simp only [hx, hi, hj, ok_bind], trivial⟩)
  -- a column
  have col : ∀ f us ds, m.row .vert2 f = ok us → m.row .edge2 f = ok ds → ∀ (j : Nat) v e, us[j]? = some v → ds[j]? = some e →
      (v ∈ vs ∧ e ∈ es → ∃ r, m.localColumn (localMap vs 0 []) (localMap es 0 []) f j = ok r) ∧
      (¬ (v ∈ vs ∧ e ∈ es) → m.localColumn (localMap vs 0 []) (localMap es 0 []) f j = throw) := by
    intro f us ds hu hd j v e hv he
    simp only [Mesh.localColumn, entry_of_row hw hu hv, entry_of_row hw hd he, ok_bind]
    by_cases h1 : v ∈ vs
    · obtain ⟨a, ha, _⟩ := localAt_mem h1
      by_cases h2 : e ∈ es
      · obtain ⟨b, hb, _⟩ := localAt_mem h2
        exact ⟨fun _ => ⟨(a, b), by simp only [ha, hb, ok_bind]⟩, fun g => absurd ⟨h1, h2⟩ g⟩
      · refine ⟨fun g => absurd g.2 h2, fun _ => ?_⟩
        simp only [ha, localAt_not_mem h2, ok_bind]
        rfl
    · refine ⟨fun g => absurd g.1 h1, fun _ => ?_⟩
      simp only [localAt_not_mem h1]
      rfl
  -- a face
  have face : ∀ f us ds, m.row .vert2 f = ok us → m.row .edge2 f = ok ds → ds.length = us.length →
      ((∀ v ∈ us, v ∈ vs) ∧ (∀ e ∈ ds, e ∈ es) → ∃ r, (do
        let n ← m.rowSize .vert2 f
        mapRes (m.localColumn (localMap vs 0 []) (localMap es 0 []) f) (List.range n) : Res (List (Nat × Nat))) = ok r) ∧
      (((∃ v ∈ us, v ∉ vs) ∨ ∃ e ∈ ds, e ∉ es) → (do
        let n ← m.rowSize .vert2 f
        mapRes (m.localColumn (localMap vs 0 []) (localMap es 0 []) f) (List.range n) : Res (List (Nat × Nat))) = throw) := by
    intro f us ds hu hd hl
    simp only [rowSize_of_row hw hu, ok_bind]
    have at' : ∀ j, (hj : j < us.length) → ds[j]? = some (ds[j]'(by omega)) := fun j hj => List.getElem?_eq_getElem _
    constructor
    · rintro ⟨g1, g2⟩
      obtain ⟨r, hr, _⟩ := mapRes_exists_at (f := m.localColumn (localMap vs 0 []) (localMap es 0 []) f)
        (l := List.range us.length) (R := fun _ _ => True) (by
        intro j hj
        have hj := List.mem_range.1 hj
        obtain ⟨r, hr⟩ := (col f us ds hu hd j _ _ (List.getElem?_eq_getElem hj) (at' j hj)).1
          ⟨g1 _ (List.getElem_mem hj), g2 _ (List.getElem_mem _)⟩
        exact ⟨r, hr, trivial⟩)
      exact ⟨r, hr⟩
    · intro g
      refine mapRes_throws ?_ ?_
      · intro j hj
        have hj := List.mem_range.1 hj
        have := col f us ds hu hd j _ _ (List.getElem?_eq_getElem hj) (at' j hj)
        by_cases hc : us[j] ∈ vs ∧ ds[j]'(by omega) ∈ es
        · exact Or.inl (this.1 hc)
        · exact Or.inr (this.2 hc)
      · rcases g with ⟨v, hv, hn⟩ | ⟨e, he, hn⟩
        · obtain ⟨j, hj, rfl⟩ := List.mem_iff_getElem.1 hv
          exact ⟨j, List.mem_range.2 hj,
            (col f us ds hu hd j _ _ (List.getElem?_eq_getElem hj) (at' j hj)).2 fun g => hn g.1⟩
        · obtain ⟨j, hj, rfl⟩ := List.mem_iff_getElem.1 he
          have hj' : j < us.length := by omega
          exact ⟨j, List.mem_range.2 hj',
            (col f us ds hu hd j _ _ (List.getElem?_eq_getElem hj') (at' j hj')).2 fun g => hn g.2⟩
  have f1 : mapRes (fun f => (do
      let n ← m.rowSize .vert2 f
      mapRes (m.localColumn (localMap vs 0 []) (localMap es 0 []) f) (List.range n) : Res (List (Nat × Nat)))) fs = throw := by
    refine mapRes_throws ?_ ?_
    · intro f hm
      obtain ⟨us, ds, hu, hd, hl⟩ := hfs f hm
      by_cases hc : (∀ v ∈ us, v ∈ vs) ∧ ∀ e ∈ ds, e ∈ es
      · exact Or.inl ((face f us ds hu hd hl).1 hc)
      · refine Or.inr ((face f us ds hu hd hl).2 ?_)
        by_contra hn
        push Not at hn
        exact hc hn
    · obtain ⟨f, hm, us, ds, hu, hd, hc⟩ := h
      obtain ⟨us', ds', hu', hd', hl⟩ := hfs f hm
      rw [hu] at hu'
      rw [hd] at hd'
      obtain rfl := ok.inj hu'
      obtain rfl := ok.inj hd'
      exact ⟨f, hm, (face f _ _ hu hd hl).2 hc⟩
  simp only [Mesh.cellToPolyhedron, hv, he, hf, p1, e1, f1, ok_bind]
  rfl

/-- C136 and C137 together: the polyhedron of the mesh of a polyhedron is the polyhedron. -/
theorem c137_back [Field K] {ps : List (V3 K)} {es : List (Nat × Nat)} {fs : List (List (Nat × Nat))} {vm em fm : List Nat} {m : Mesh K}
    (h : PolyhedronMesh ps es fs vm em fm m) (he : ∀ e ∈ es, e.1 < ps.length ∧ e.2 < ps.length)
    (hf : ∀ f ∈ fs, ∀ x ∈ f, x.1 < ps.length ∧ x.2 < es.length) : m.cellToPolyhedron 0 = ok ⟨ps, es, fs⟩ := by
  have hfr : ∀ f, f < fs.length → ∃ p, fs[f]? = some p ∧ p ∈ fs ∧ m.row .vert2 f = ok (p.map Prod.fst) ∧
      m.row .edge2 f = ok (p.map Prod.snd) := by
    intro f hf
    refine ⟨fs[f], List.getElem?_eq_getElem hf, List.getElem_mem hf, ?_, ?_⟩
    · exact h.polygons.2.2.1 f _ (by simp [hf])
    · exact h.polygons.2.2.2 f _ (by simp [hf])
  have hc : CellComplete m 0 (List.range ps.length) (List.range es.length) (List.range fs.length) := by
    refine ⟨(h.polyhedra.2 0 _ rfl).1, (h.polyhedra.2 0 _ rfl).2.1, (h.polyhedra.2 0 _ rfl).2.2, ?_, ?_, ?_⟩
    · intro v hv
      rw [h.points.1]
      exact List.mem_range.1 hv
    · intro e hm
      have hm := List.mem_range.1 hm
      refine ⟨es[e], h.edges.2 e _ (List.getElem?_eq_getElem hm), ?_, ?_⟩
      · exact List.mem_range.2 (he _ (List.getElem_mem hm)).1
      · exact List.mem_range.2 (he _ (List.getElem_mem hm)).2
    · intro f hm
      obtain ⟨p, _, hp, h1, h2⟩ := hfr f (List.mem_range.1 hm)
      refine ⟨_, _, h1, h2, by simp, ?_, ?_⟩
      · intro v hv
        obtain ⟨x, hx, rfl⟩ := List.mem_map.1 hv
        exact List.mem_range.2 (hf p hp x hx).1
      · intro v hv
        obtain ⟨x, hx, rfl⟩ := List.mem_map.1 hv
        exact List.mem_range.2 (hf p hp x hx).2
  obtain ⟨P, hP, q⟩ := c137_local h.wf hc
  rw [hP]
  have rng : ∀ {n i x : Nat}, (List.range n)[i]? = some x → x = i := by
    intro n i x hx
    obtain ⟨hi, hx⟩ := List.getElem?_eq_some_iff.1 hx
    simpa using hx.symm
  have q1 := q.vertices
  have q2 := q.edges
  have q3 := q.faces
  rw [List.length_range] at q1 q2 q3
  have r1 : P.vertices = ps := by
    refine List.ext_getElem q1 ?_
    intro i h1 h2
    have g := q.vertex i i _ (by simp [h2]) (List.getElem?_eq_getElem h1)
    rw [h.points.2 i _ (List.getElem?_eq_getElem h2)] at g
    simp only [ok.injEq, Prod.mk.injEq] at g
    exact V3.ext g.1.symm g.2.1.symm g.2.2.symm
  have r2 : P.edges = es := by
    refine List.ext_getElem q2 ?_
    intro i h1 h2
    obtain ⟨a, b, g, ga, gb⟩ := q.edge i i _ (by simp [h2]) (List.getElem?_eq_getElem h1)
    rw [h.edges.2 i _ (List.getElem?_eq_getElem h2)] at g
    have g := ok.inj g
    rw [g, rng ga, rng gb]
  have r3 : P.faces = fs := by
    refine List.ext_getElem q3 ?_
    intro i h1 h2
    obtain ⟨us, ds, gu, gd, gl, g⟩ := q.face i i _ (by simp [h2]) (List.getElem?_eq_getElem h1)
    obtain ⟨p, k0, _, k1, k2⟩ := hfr i h2
    rw [List.getElem?_eq_getElem h2] at k0
    have k0 := Option.some.inj k0
    rw [k1] at gu
    rw [k2] at gd
    have gu := ok.inj gu
    have gd := ok.inj gd
    subst gu gd
    rw [k0]
    simp only [List.length_map] at gl
    refine List.ext_getElem gl ?_
    intro j j1 j2
    obtain ⟨v, e, g1, g2, g3, g4⟩ := g j _ (List.getElem?_eq_getElem j1)
    simp only [List.getElem?_map, List.getElem?_eq_getElem j2, Option.map_some, Option.some.injEq] at g1 g3
    have g2 := rng g2
    have g4 := rng g4
    exact Prod.ext (by omega) (by omega)
  rw [← r1, ← r2, ← r3]

/-- The faces of a tetrahedron, with vertices and edges. -/
def tetraFaces : List (List (Nat × Nat)) :=
  [[(0, 0), (1, 1), (2, 2)], [(0, 0), (1, 4), (3, 3)], [(1, 1), (2, 5), (3, 4)], [(0, 2), (2, 5), (3, 3)]]

/-- A tetrahedron becomes a mesh and comes back, with the given markers of the faces and own markers of the edges. -/
example : ∃ m, Mesh.mesh3DFromPolyhedron (K := ℚ) [⟨0, 0, 0⟩, ⟨1, 0, 0⟩, ⟨0, 1, 0⟩, ⟨0, 0, 1⟩]
    [(0, 1), (1, 2), (2, 0), (0, 3), (1, 3), (2, 3)] tetraFaces [] [] [7, 7, 8, 9] Mesh.empty = ok m ∧
    m.marker .d1 2 = ok 7 ∧ m.marker .d2 2 = ok 8 ∧
    m.cellToPolyhedron 0 = ok ⟨[⟨0, 0, 0⟩, ⟨1, 0, 0⟩, ⟨0, 1, 0⟩, ⟨0, 0, 1⟩], [(0, 1), (1, 2), (2, 0), (0, 3), (1, 3), (2, 3)],
      tetraFaces⟩ := by
  obtain ⟨m, hm, h⟩ := (c136_polyhedron_mesh (K := ℚ) [⟨0, 0, 0⟩, ⟨1, 0, 0⟩, ⟨0, 1, 0⟩, ⟨0, 0, 1⟩]
    [(0, 1), (1, 2), (2, 0), (0, 3), (1, 3), (2, 3)] tetraFaces [] [] [7, 7, 8, 9]).1 (by decide) (by decide)
  obtain ⟨k, k1, k2⟩ := h.edgeMarkers 2 (by decide)
  obtain ⟨f, f1, f2⟩ := h.faceMarkers 2 (by decide)
  refine ⟨m, hm, ?_, ?_, c137_back h (by decide) (by decide)⟩
  · rw [k1, k2.2 (by decide)]; rfl
  · rw [f1, ← Option.some.inj (f2.1 (by decide))]

/-- An edge to a vertex that does not exist is stored, but the polyhedron cannot be taken out of the mesh. -/
example : ∃ m, Mesh.mesh3DFromPolyhedron (K := ℚ) [⟨0, 0, 0⟩, ⟨1, 0, 0⟩, ⟨0, 1, 0⟩, ⟨0, 0, 1⟩] [(0, 1), (1, 9)] [] [] [] [] Mesh.empty =
    ok m ∧ m.cellToPolyhedron 0 = throw := by
  obtain ⟨m, hm, h⟩ := (c136_polyhedron_mesh (K := ℚ) [⟨0, 0, 0⟩, ⟨1, 0, 0⟩, ⟨0, 1, 0⟩, ⟨0, 0, 1⟩] [(0, 1), (1, 9)] [] [] [] []).1
    (by decide) (by decide)
  refine ⟨m, hm, c137_missing_end h.wf (h.polyhedra.2 0 _ rfl).1 (h.polyhedra.2 0 _ rfl).2.1 (h.polyhedra.2 0 _ rfl).2.2 ?_ ?_
    ⟨1, by decide, (1, 9), h.edges.2 1 _ rfl, Or.inr (by decide)⟩⟩
  · rw [h.points.1]; decide
  · rw [h.edges.1]; decide

/-- A triangle, and a polyhedron with this face that lacks edge 2. -/
def lackingEdge : MeshData ℚ where
  dimension := 3
  V := [⟨0, 0, 0, 0, true⟩, ⟨1, 0, 0, 0, true⟩, ⟨0, 1, 0, 0, true⟩]
  E := [⟨0, 1, 0, true, []⟩, ⟨1, 2, 0, true, []⟩, ⟨2, 0, 0, true, []⟩]
  P := [⟨[0, 1, 2], [0, 1, 2], 0, true⟩]
  C := [⟨[0, 1, 2], [0, 1], [0], 0, true⟩]

example : lackingEdge.mesh.cellToPolyhedron 0 = throw := by
  have hu : lackingEdge.mesh.row .vert2 0 = ok [0, 1, 2] := rfl
  have hd : lackingEdge.mesh.row .edge2 0 = ok [0, 1, 2] := rfl
  refine c137_missing_side (MeshData.mesh_wf _) (vs := [0, 1, 2]) (es := [0, 1]) (fs := [0]) rfl rfl rfl (by decide) ?_ ?_
    ⟨0, by decide, _, _, hu, hd, Or.inr ⟨2, by decide, by decide⟩⟩
  · intro e he
    simp only [List.mem_cons, List.not_mem_nil, or_false] at he
    rcases he with rfl | rfl
    · exact ⟨(0, 1), rfl, by decide, by decide⟩
    · exact ⟨(1, 2), rfl, by decide, by decide⟩
  · intro f hf
    obtain rfl : f = 0 := by simpa using hf
    exact ⟨_, _, hu, hd, rfl⟩

/-- Three vertices are not enough. -/
example : Mesh.mesh3DFromPolyhedron (K := ℚ) [⟨0, 0, 0⟩, ⟨1, 0, 0⟩, ⟨0, 1, 0⟩] [(0, 1)] [[(0, 0)]] [] [] [] Mesh.empty = abort :=
  (c136_polyhedron_mesh _ _ _ _ _ _).2 (Or.inl (by decide))

end Verif
