import Verif.UcdLemmas

/-
C145: the cells in a UCD file.
-/
namespace Verif

open Res

/-- **C145**, points: one line for each point. -/
theorem c145_points (n : Nat) (materials : List Int) (hm : ∀ z ∈ materials, 0 ≤ z) (hn : n ≤ UINT_MAX) :
    ∃ lines, (pointCells n materials >>= ucdLines) = ok lines ∧ IsUcdLines 0 ((List.range n).map fun p => [p]) materials lines := by
  have := ucd_general 0 ((List.range n).map fun p => [p]) materials (fun p => do
    let m ← ucdMaterial materials n p
    ok ⟨.point, [p], m⟩) hm (by simpa using hn) (by
      intro e he v hv
      obtain ⟨p, hp, rfl⟩ := List.mem_map.1 he
      rw [List.mem_range] at hp
      simp only [List.mem_singleton] at hv
      omega) (by
      intro i e he
      obtain ⟨hi, rfl⟩ := List.getElem?_eq_some_iff.1 he
      exact ⟨.point, "pt", by simp, rfl, by simp [ucdShape, List.lookup]⟩)
  simpa [pointCells] using this

/-- **C145**, segments: one line for each segment, with its ends. -/
theorem c145_segments (segments : List (Nat × Nat)) (materials : List Int) (hm : ∀ z ∈ materials, 0 ≤ z)
    (hn : segments.length ≤ UINT_MAX) (hv : ∀ s ∈ segments, s.1 < UINT_MAX ∧ s.2 < UINT_MAX) :
    ∃ lines, (lineCells (segments.map fun s => ((s.1 : Int), (s.2 : Int))) materials >>= ucdLines) = ok lines ∧
      IsUcdLines 1 (segments.map fun s => [s.1, s.2]) materials lines := by
  have := ucd_general 1 (segments.map fun s => [s.1, s.2]) materials (fun l => do
    let e ← vget (segments.map fun s => ((s.1 : Int), (s.2 : Int))) l
    let m ← ucdMaterial materials (segments.map fun s => ((s.1 : Int), (s.2 : Int))).length l
    ok ⟨.line, [uaddi 0 e.1, uaddi 0 e.2], m⟩) hm (by simpa using hn) (by
      intro e he v hv'
      obtain ⟨s, hs, rfl⟩ := List.mem_map.1 he
      have := hv s hs
      simp only [List.mem_cons, List.not_mem_nil, or_false] at hv'
      omega) (by
      intro i e he
      obtain ⟨hi, rfl⟩ := List.getElem?_eq_some_iff.1 he
      have hi' : i < segments.length := by simpa using hi
      refine ⟨.line, "line", ?_, rfl, by simp [ucdShape, List.lookup]⟩
      rw [vget_of_lt (by simpa using hi'), ok_bind]
      simp [uaddi])
  simpa [lineCells] using this

/-- **C145**, polygons: one line for each polygon, if all are triangles and quadrilaterals. -/
theorem c145_polygons (polygons : List (List Nat)) (materials : List Int) (hm : ∀ z ∈ materials, 0 ≤ z)
    (hn : polygons.length ≤ UINT_MAX) (hv : ∀ e ∈ polygons, ∀ v ∈ e, v < UINT_MAX) (hs : ∀ e ∈ polygons, e.length = 3 ∨ e.length = 4) :
    ∃ lines, (polygonCells polygons materials >>= ucdLines) = ok lines ∧ IsUcdLines 2 polygons materials lines := by
  apply ucd_general 2 polygons materials _ hm hn hv
  intro i e he
  obtain ⟨hi, rfl⟩ := List.getElem?_eq_some_iff.1 he
  rcases hs _ (List.getElem_mem hi) with h | h
  · exact ⟨.triangle, "tri", by rw [vget_of_lt hi, ok_bind, if_pos h, ok_bind], rfl, by simp [ucdShape, List.lookup, h]⟩
  · exact ⟨.quadrilateral, "quad", by rw [vget_of_lt hi, ok_bind, if_neg (by omega), if_pos h, ok_bind], rfl,
      by simp [ucdShape, List.lookup, h]⟩

/-- **C145**, polyhedra: one line for each polyhedron, if all are tetrahedra and hexahedra. -/
theorem c145_polyhedra (polyhedra : List (List Nat)) (materials : List Int) (hm : ∀ z ∈ materials, 0 ≤ z)
    (hn : polyhedra.length ≤ UINT_MAX) (hv : ∀ e ∈ polyhedra, ∀ v ∈ e, v < UINT_MAX)
    (hs : ∀ e ∈ polyhedra, e.length = 4 ∨ e.length = 8) :
    ∃ lines, (polyhedraCells polyhedra materials >>= ucdLines) = ok lines ∧ IsUcdLines 3 polyhedra materials lines := by
  apply ucd_general 3 polyhedra materials _ hm hn hv
  intro i e he
  obtain ⟨hi, rfl⟩ := List.getElem?_eq_some_iff.1 he
  rcases hs _ (List.getElem_mem hi) with h | h
  · exact ⟨.tetrahedron, "tet", by rw [vget_of_lt hi, ok_bind, if_pos h, ok_bind], rfl, by simp [ucdShape, List.lookup, h]⟩
  · exact ⟨.hexahedron, "hex", by rw [vget_of_lt hi, ok_bind, if_neg (by omega), if_pos h, ok_bind], rfl,
      by simp [ucdShape, List.lookup, h]⟩

/-- **C145**: a polygon of another shape ends the call with an exception, before anything is written. -/
theorem c145_other_polygon (polygons : List (List Nat)) (materials : List Int) (hm : ∀ z ∈ materials, 0 ≤ z)
    (hs : ∃ e ∈ polygons, e.length ≠ 3 ∧ e.length ≠ 4) : polygonCells polygons materials = throw := by
  apply mapRes_throws
  · intro l hl
    rw [List.mem_range] at hl
    obtain ⟨m, em, -⟩ := ucdMaterial_ok hl hm
    rw [vget_of_lt hl, ok_bind]
    by_cases h3 : polygons[l].length = 3
    · left; rw [if_pos h3, ok_bind, em]; exact ⟨_, rfl⟩
    · by_cases h4 : polygons[l].length = 4
      · left; rw [if_neg h3, if_pos h4, ok_bind, em]; exact ⟨_, rfl⟩
      · right; rw [if_neg h3, if_neg h4]; rfl
  · obtain ⟨e, he, h3, h4⟩ := hs
    obtain ⟨i, hi, rfl⟩ := List.mem_iff_getElem.1 he
    exact ⟨i, List.mem_range.2 hi, by rw [vget_of_lt hi, ok_bind, if_neg h3, if_neg h4]; rfl⟩

/-- **C145**: a polyhedron of another shape, also a prism or a pyramid, ends the call with an exception. -/
theorem c145_other_polyhedron (polyhedra : List (List Nat)) (materials : List Int) (hm : ∀ z ∈ materials, 0 ≤ z)
    (hs : ∃ e ∈ polyhedra, e.length ≠ 4 ∧ e.length ≠ 8) : polyhedraCells polyhedra materials = throw := by
  apply mapRes_throws
  · intro l hl
    rw [List.mem_range] at hl
    obtain ⟨m, em, -⟩ := ucdMaterial_ok hl hm
    rw [vget_of_lt hl, ok_bind]
    by_cases h3 : polyhedra[l].length = 4
    · left; rw [if_pos h3, ok_bind, em]; exact ⟨_, rfl⟩
    · by_cases h4 : polyhedra[l].length = 8
      · left; rw [if_neg h3, if_pos h4, ok_bind, em]; exact ⟨_, rfl⟩
      · right; rw [if_neg h3, if_neg h4]; rfl
  · obtain ⟨e, he, h3, h4⟩ := hs
    obtain ⟨i, hi, rfl⟩ := List.mem_iff_getElem.1 he
    exact ⟨i, List.mem_range.2 hi, by rw [vget_of_lt hi, ok_bind, if_neg h3, if_neg h4]; rfl⟩

example : (polygonCells [[0, 1, 2], [0, 2, 3, 4]] [7, 8] >>= ucdLines) =
    ok [⟨1, 7, "tri", [1, 2, 3]⟩, ⟨2, 8, "quad", [1, 3, 4, 5]⟩] := by decide

example : (lineCells [(0, 1), (1, 2)] [5] >>= ucdLines) = ok [⟨1, 0, "line", [1, 2]⟩, ⟨2, 0, "line", [2, 3]⟩] := by decide

example : polyhedraCells [[0, 1, 2, 3, 4]] [] = throw := by decide

end Verif
