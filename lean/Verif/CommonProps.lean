import Verif.CommonLemmas
import Verif.NeighProps

/-
C40: common vertices of polygons; C54: common edges of polygons.
-/
namespace Verif

open Res

variable {α : Type}

/-- C40, what is proved: for up to three polygons the result is exactly the set of their common
vertices. For four or more the same holds when the first three have no vertex in common, and when they have
one vertex in common that all polygons contain. -/
theorem c40_common_vertices_partial (m : Mesh α) (cells : List Nat) (hne : cells ≠ [])
    (hc : CellsExist m .vert2 cells) :
    (cells.length ≤ 3 → ∃ r, m.findCommonVertices cells = ok r ∧ IsCommon m .vert2 cells r) ∧
    (3 < cells.length → IsCommon m .vert2 (cells.take 3) [] →
      m.findCommonVertices cells = ok [] ∧ IsCommon m .vert2 cells []) ∧
    (3 < cells.length → ∀ s, IsCommon m .vert2 (cells.take 3) [s] →
      (∀ c ∈ cells, ∃ row, m.row .vert2 c = ok row ∧ s ∈ row) →
      ∃ r, m.findCommonVertices cells = ok r ∧ IsCommon m .vert2 cells r) := by
  match cells, hne with
  | [c0], _ =>
    obtain ⟨r0, h0⟩ := hc c0 (by simp)
    refine ⟨fun _ => ⟨r0, by simp [Mesh.findCommonVertices, vget, h0], ?_⟩, by simp, by simp⟩
    intro v
    simp [h0]
  | [c0, c1], _ =>
    obtain ⟨r0, h0⟩ := hc c0 (by simp)
    obtain ⟨r1, h1⟩ := hc c1 (by simp)
    refine ⟨fun _ => ⟨setIntersection (sortNat r0) (sortNat r1),
      by simp [Mesh.findCommonVertices, vget, h0, h1], ?_⟩, by simp,
      by simp⟩
    intro v
    rw [mem_setIntersection _ _ (sortNat_sorted _) (sortNat_sorted _), mem_sortNat, mem_sortNat]
    simp [h0, h1]
  | c0 :: c1 :: c2 :: cs, _ =>
    obtain ⟨r0, h0⟩ := hc c0 (by simp)
    obtain ⟨r1, h1⟩ := hc c1 (by simp)
    obtain ⟨r2, h2⟩ := hc c2 (by simp)
    have hsingle : ∀ v, v ∈ setIntersection (setIntersection (sortNat r0) (sortNat r1)) (sortNat r2) ↔
        v ∈ r0 ∧ v ∈ r1 ∧ v ∈ r2 := by
      intro v
      rw [mem_setIntersection _ _ (setIntersection_sorted _ _ (sortNat_sorted _)) (sortNat_sorted _),
        mem_setIntersection _ _ (sortNat_sorted _) (sortNat_sorted _), mem_sortNat, mem_sortNat,
        mem_sortNat]
      tauto
    generalize hS : setIntersection (setIntersection (sortNat r0) (sortNat r1)) (sortNat r2) = S
      at hsingle
    have hrun : m.findCommonVertices (c0 :: c1 :: c2 :: cs) =
        if S.length = 0 then ok S else (do
          let _ ← mapRes (fun t => do
            let c ← vget (c0 :: c1 :: c2 :: cs) t
            let vertices ← m.row .vert2 c
            let s ← vget S 0
            assert (s ∈ vertices)) (List.range' 3 cs.length)
          ok S) := by
      simp only [Mesh.findCommonVertices, vget, List.getElem?_cons_zero, List.getElem?_cons_succ,
        ok_bind, h0, h1, h2, List.length_cons, hS]
      rw [if_neg (by omega), if_neg (by omega)]
      rfl
    have hthree : ∀ v, (∀ c ∈ [c0, c1, c2], ∃ row, m.row .vert2 c = ok row ∧ v ∈ row) ↔ v ∈ S := by
      intro v
      rw [hsingle]
      simp [h0, h1, h2]
    refine ⟨?_, ?_, ?_⟩
    · intro hl
      have hcs : cs = [] := by
        cases cs with
        | nil => rfl
        | cons _ _ => simp at hl
      subst hcs
      refine ⟨S, ?_, fun v => (hthree v).symm⟩
      rw [hrun]
      split <;> rfl
    · intro _ hno
      have hSnil : S = [] := by
        cases hS' : S with
        | nil => rfl
        | cons a S' =>
          have := (hno a).2 ((hthree a).2 (by simp [hS']))
          cases this
      refine ⟨by rw [hrun, hSnil]; rfl, ?_⟩
      intro v
      constructor
      · intro h; cases h
      · intro h
        have : v ∈ S := (hthree v).1 fun c hc' => h c (by
          simp only [List.mem_cons, List.not_mem_nil, or_false] at hc' ⊢
          rcases hc' with h | h | h <;> simp [h])
        rw [hSnil] at this
        exact this
    · intro _ s hs hall
      have hS1 : ∀ v, v ∈ S ↔ v = s := by
        intro v
        rw [← hthree v]
        have := hs v
        rw [show List.take 3 (c0 :: c1 :: c2 :: cs) = [c0, c1, c2] from rfl] at this
        rw [← this]; simp
      have hSne : S ≠ [] := by
        intro h
        have := (hS1 s).2 rfl
        rw [h] at this; cases this
      obtain ⟨a, S', hS'⟩ := List.exists_cons_of_ne_nil hSne
      have ha : a = s := (hS1 a).1 (by simp [hS'])
      have hok : ∃ r, mapRes (fun t => do
            let c ← vget (c0 :: c1 :: c2 :: cs) t
            let vertices ← m.row .vert2 c
            let s ← vget S 0
            assert (s ∈ vertices)) (List.range' 3 cs.length) = ok r := by
        rw [mapRes_unit_ok]
        intro t ht
        have htl : t < (c0 :: c1 :: c2 :: cs).length := by
          rw [List.mem_range'_1] at ht
          simp; omega
        rw [vget_of_lt htl, ok_bind]
        obtain ⟨row, hr1, hr2⟩ := hall _ (List.getElem_mem htl)
        rw [hr1, ok_bind, hS']
        show (do
          let s ← ok a
          assert (s ∈ row)) = _
        rw [ok_bind, ha, assert_true hr2]
      obtain ⟨r, hr⟩ := hok
      refine ⟨S, ?_, ?_⟩
      · rw [hrun, if_neg (by rw [hS']; simp), hr]; rfl
      · intro v
        rw [hS1]
        constructor
        · rintro rfl; exact hall
        · intro h
          rw [← hS1, ← hthree]
          intro c hc'
          exact h c (by
            simp only [List.mem_cons, List.not_mem_nil, or_false] at hc' ⊢
            rcases hc' with h | h | h <;> simp [h])

/-! Concrete polygons. -/

/-- Five triangles around vertex 0 of a fan and one triangle away from it. -/
def fanOps : List (Op Int) :=
  [.append .d0 8, .append .d1 1, .append .d2 6,
   .addRow .vert2 0 [0, 1, 2], .addRow .vert2 1 [0, 2, 3], .addRow .vert2 2 [0, 3, 4],
   .addRow .vert2 3 [0, 4, 5], .addRow .vert2 4 [5, 6, 7], .addRow .vert2 5 [2, 0, 6],
   .addRow .edge2 0 [0], .addRow .edge2 1 [0], .addRow .edge2 5 [0]]

/-- The mesh built by `fanOps`. -/
def fan : Mesh Int :=
  match (Mesh.empty : Mesh Int).run fanOps with
  | ok m => m
  | _ => Mesh.empty

example : CellsExist fan .vert2 [0, 1, 2] ∧ fan.findCommonVertices [0, 1, 2] = ok [0] := by
  refine ⟨?_, by decide +kernel⟩
  intro c hc
  simp only [List.mem_cons, List.not_mem_nil, or_false] at hc
  rcases hc with rfl | rfl | rfl
  · exact ⟨[0, 1, 2], rfl⟩
  · exact ⟨[0, 2, 3], rfl⟩
  · exact ⟨[0, 3, 4], rfl⟩

example : fan.findCommonVertices [3, 0, 2, 1] = ok [0] ∧
    fan.findCommonVertices [4, 0, 2, 1] = ok [] ∧
    fan.findCommonVertices [0, 1] = ok [0, 2] := by decide +kernel

/-- C40 does not hold for four polygons: triangles 0, 1 and 5 of `fan` have vertices 0 and 2 in
common, triangle 2 only has vertex 0, but the call returns both. -/
theorem c40_wrong_vertex_violated : CellsExist fan .vert2 [0, 1, 5, 2] ∧
    fan.findCommonVertices [0, 1, 5, 2] = ok [0, 2] ∧
    ¬IsCommon fan .vert2 [0, 1, 5, 2] [0, 2] := by
  refine ⟨?_, by decide +kernel, ?_⟩
  · intro c hc
    simp only [List.mem_cons, List.not_mem_nil, or_false] at hc
    rcases hc with rfl | rfl | rfl | rfl
    · exact ⟨[0, 1, 2], rfl⟩
    · exact ⟨[0, 2, 3], rfl⟩
    · exact ⟨[2, 0, 6], rfl⟩
    · exact ⟨[0, 3, 4], rfl⟩
  · intro h
    obtain ⟨row, h1, h2⟩ := (h 2).1 (by simp) 2 (by simp)
    have : fan.row .vert2 2 = ok [0, 3, 4] := rfl
    rw [this] at h1
    cases h1
    simp at h2

/-- C40 does not hold for four polygons: triangles 0, 1 and 2 of `fan` have vertex 0 in common,
triangle 4 does not have it, so there is no common vertex, but the call aborts the program. -/
theorem c40_abort_violated : CellsExist fan .vert2 [0, 1, 2, 4] ∧
    fan.findCommonVertices [0, 1, 2, 4] = abort ∧ IsCommon fan .vert2 [0, 1, 2, 4] [] := by
  refine ⟨?_, by decide +kernel, ?_⟩
  · intro c hc
    simp only [List.mem_cons, List.not_mem_nil, or_false] at hc
    rcases hc with rfl | rfl | rfl | rfl
    · exact ⟨[0, 1, 2], rfl⟩
    · exact ⟨[0, 2, 3], rfl⟩
    · exact ⟨[0, 3, 4], rfl⟩
    · exact ⟨[5, 6, 7], rfl⟩
  · intro v
    refine ⟨fun h => by simp at h, fun h => ?_⟩
    obtain ⟨row, h1, h2⟩ := h 0 (by simp)
    obtain ⟨row', h3, h4⟩ := h 4 (by simp)
    have e1 : fan.row .vert2 0 = ok [0, 1, 2] := rfl
    have e2 : fan.row .vert2 4 = ok [5, 6, 7] := rfl
    rw [e1] at h1
    rw [e2] at h3
    cases h1
    cases h3
    simp only [List.mem_cons, List.not_mem_nil, or_false] at h2 h4
    omega

/-- C54, what is proved: for one or two polygons the result is exactly the set of their common
edges; for more, if no edge is in the first three polygons. -/
theorem c54_common_edges_partial (m : Mesh α) (cells : List Nat) (hne : cells ≠ [])
    (hc : CellsExist m .edge2 cells)
    (hm : 3 ≤ cells.length → IsCommon m .edge2 (cells.take 3) []) :
    ∃ r, m.findCommonEdges cells = ok r ∧ IsCommon m .edge2 cells r := by
  match cells, hne with
  | [c0], _ =>
    obtain ⟨r0, h0⟩ := hc c0 (by simp)
    refine ⟨r0, by simp [Mesh.findCommonEdges, vget, h0], ?_⟩
    intro v
    simp [h0]
  | [c0, c1], _ =>
    obtain ⟨r0, h0⟩ := hc c0 (by simp)
    obtain ⟨r1, h1⟩ := hc c1 (by simp)
    refine ⟨setIntersection (sortNat r0) (sortNat r1),
      by simp [Mesh.findCommonEdges, vget, h0, h1], ?_⟩
    intro v
    rw [mem_setIntersection _ _ (sortNat_sorted _) (sortNat_sorted _), mem_sortNat, mem_sortNat]
    simp [h0, h1]
  | c0 :: c1 :: c2 :: cs, _ =>
    obtain ⟨r0, h0⟩ := hc c0 (by simp)
    obtain ⟨r1, h1⟩ := hc c1 (by simp)
    refine ⟨[], ?_, ?_⟩
    · simp only [Mesh.findCommonEdges, vget, List.getElem?_cons_zero, List.getElem?_cons_succ,
        ok_bind, h0, h1, List.length_cons]
      rw [if_neg (by omega), if_neg (by omega)]
    · intro v
      refine ⟨fun h => by simp at h, fun h => ?_⟩
      exact (hm (by simp) v).2 fun c hc' => h c (List.mem_of_mem_take hc')

example : CellsExist triangles .edge2 [0, 1] ∧ triangles.findCommonEdges [0, 1] = ok [2] := by
  refine ⟨?_, by decide +kernel⟩
  intro c hc
  simp only [List.mem_cons, List.not_mem_nil, or_false] at hc
  rcases hc with rfl | rfl
  · exact ⟨[0, 1, 2], rfl⟩
  · exact ⟨[2, 3, 4], rfl⟩

/-- C54 does not hold for three polygons with a common edge, as they occur in meshes of
dimension 3. -/
theorem c54_three_violated : CellsExist fan .edge2 [0, 1, 5] ∧
    fan.findCommonEdges [0, 1, 5] = ok [] ∧ ¬IsCommon fan .edge2 [0, 1, 5] [] := by
  have e0 : fan.row .edge2 0 = ok [0] := rfl
  have e1 : fan.row .edge2 1 = ok [0] := rfl
  have e5 : fan.row .edge2 5 = ok [0] := rfl
  refine ⟨?_, by decide +kernel, ?_⟩
  · intro c hc
    simp only [List.mem_cons, List.not_mem_nil, or_false] at hc
    rcases hc with rfl | rfl | rfl
    · exact ⟨_, e0⟩
    · exact ⟨_, e1⟩
    · exact ⟨_, e5⟩
  · intro h
    have := (h 0).2 (by
      intro c hc
      simp only [List.mem_cons, List.not_mem_nil, or_false] at hc
      rcases hc with rfl | rfl | rfl
      · exact ⟨_, e0, by simp⟩
      · exact ⟨_, e1, by simp⟩
      · exact ⟨_, e5, by simp⟩)
    cases this

end Verif
