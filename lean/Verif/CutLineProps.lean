import Verif.CutLineLemmas
import Verif.IntersectProps

/-
C124: the lines along which a cell is to be cut.
-/
namespace Verif

open Res

section order
variable {K : Type} [LinearOrder K]

/-- **C124.** Of three lengths the first of the greatest is found, and the vertex opposite to the edge is no end of
it. -/
theorem c124_triangle_edge {lengths : List K} (h : lengths.length = 3) :
    ∃ k o, triangleMaxEdge lengths = ok (k, o) ∧ IsFirstMax lengths k ∧ k < 3 ∧ o < 3 ∧ o ≠ k ∧
      o ≠ (k + 1) % 3 := by
  obtain ⟨k, hk, hm⟩ := firstMax_spec (l := lengths) (by intro e; rw [e] at h; simp at h)
  obtain ⟨x, hx, -⟩ := id hm
  have hk3 : k < 3 := by rw [← h]; exact (List.getElem?_eq_some_iff.1 hx).1
  refine ⟨k, (k + 2) % 3, ?_, hm, hk3, by omega, by omega, by omega⟩
  simp only [triangleMaxEdge, hk, ok_bind]

/-- **C124.** Of the six edges of a tetrahedron the first of the longest is found, with the two vertices that are not
on it in rising order. -/
theorem c124_tetrahedron_edge {edges : List (Nat × Nat)} {lengths : List K} (he : edges.length = 6)
    (hl : lengths.length = 6) (hv : ∀ e ∈ edges, e.1 < 4 ∧ e.2 < 4 ∧ e.1 ≠ e.2) :
    ∃ k a b u v, tetrahedronMaxEdge edges lengths = ok (k, [u, v]) ∧ IsFirstMax lengths k ∧
      edges[k]? = some (a, b) ∧ u < v ∧ v < 4 ∧ u ≠ a ∧ u ≠ b ∧ v ≠ a ∧ v ≠ b := by
  obtain ⟨k, hk, hm⟩ := firstMax_spec (l := lengths) (by intro e; rw [e] at hl; simp at hl)
  obtain ⟨x, hx, -⟩ := id hm
  have hk6 : k < edges.length := by rw [he, ← hl]; exact (List.getElem?_eq_some_iff.1 hx).1
  obtain ⟨⟨a, b⟩, hab⟩ : ∃ e, edges[k] = e := ⟨_, rfl⟩
  have hmem := hv _ (List.getElem_mem hk6)
  rw [hab] at hmem
  obtain ⟨ha, hb, hne⟩ := hmem
  have key : ∀ a b : Fin 4, a ≠ b → ∃ u v, offEdge a b 4 0 [] = [u, v] ∧ u < v ∧ v < 4 ∧ u ≠ (a : Nat) ∧ u ≠ (b : Nat) ∧
      v ≠ (a : Nat) ∧ v ≠ (b : Nat) := by
    intro a b hne
    refine ⟨(offEdge a b 4 0 [])[0]?.getD 0, (offEdge a b 4 0 [])[1]?.getD 0, ?_⟩
    revert a b
    decide +kernel
  obtain ⟨u, v, e, h1, h2, h3, h4, h5, h6⟩ := key ⟨a, ha⟩ ⟨b, hb⟩ (by intro h; exact hne (congrArg Fin.val h))
  refine ⟨k, a, b, u, v, ?_, hm, by rw [List.getElem?_eq_getElem hk6, hab], h1, h2, h3, h4, h5, h6⟩
  simp only [tetrahedronMaxEdge, assert_true he, assert_true hl, ok_bind, hk, vget_of_lt hk6, hab]
  simp only at e
  rw [e]
  rfl

/-- **C124.** Anything but six edges with six lengths is refused. -/
theorem c124_tetrahedron_refused {edges : List (Nat × Nat)} {lengths : List K}
    (h : ¬ (edges.length = 6 ∧ lengths.length = 6)) : tetrahedronMaxEdge edges lengths = abort := by
  by_cases he : edges.length = 6
  · have hl : ¬ lengths.length = 6 := fun hl => h ⟨he, hl⟩
    simp only [tetrahedronMaxEdge, assert_true he, assert_false hl, ok_bind]
    rfl
  · simp only [tetrahedronMaxEdge, assert_false he]
    rfl

end order

variable {K : Type} [Field K] [LinearOrder K] [IsStrictOrderedRing K]

/-- **C124.** The line for a triangle comes from the vertex opposite to a longest edge, and its tangent leads to the
middle of that edge: the two triangles on its sides have the same area. -/
theorem c124_triangle_line {sqrt : K → K} (hs : IsSqrt sqrt) {a b c : V3 K} {lengths : List K}
    (hl : polygonEdgeLengths sqrt [a, b, c] = ok lengths) :
    ∃ p q o line, triangleMaxEdgeLine [a, b, c] lengths = ok line ∧ IsTurnOf a b c p q o ∧
      dist2 q o ≤ dist2 p q ∧ dist2 o p ≤ dist2 p q ∧ line.origin = o ∧ IsMiddle p q (o.add line.tangent) ∧
      area2 o p (o.add line.tangent) = area2 o (o.add line.tangent) q ∧
      area2 o p (o.add line.tangent) + area2 o (o.add line.tangent) q = area2 a b c := by
  obtain ⟨k, p, q, o, hk, hp, hq, ho, ht, h1, h2⟩ := longest_edge hs hl
  refine ⟨p, q, o, { origin := o, tangent := (V3.smul (1 / 2) (q.add p)).sub o }, ?_, ht, h1, h2, rfl, ?_, ?_, ?_⟩
  · simp only [triangleMaxEdgeLine, hk, hp, hq, ho, ok_bind]
  · simp only [IsMiddle, V3.add, V3.sub, V3.smul]
    refine ⟨?_, ?_, ?_⟩ <;> ring
  · simp only [area2, V3.add, V3.sub, V3.smul]
    ring
  · rcases ht with h | h | h <;>
    · injection h with e1 h
      injection h with e2 e3
      subst e1 e2 e3
      simp only [area2, V3.add, V3.sub, V3.smul]
      ring

/-- **C124.** The line by the inertia of a triangle is the same with a tangent of length one. -/
theorem c124_inertia_line {sqrt : K → K} (hs : IsSqrt sqrt) {a b c : V3 K} {lengths : List K}
    (hl : polygonEdgeLengths sqrt [a, b, c] = ok lengths) :
    ∃ line unit, triangleMaxEdgeLine [a, b, c] lengths = ok line ∧
      triangleInertiaLine sqrt [a, b, c] lengths = ok unit ∧ unit.origin = line.origin ∧
      ∀ l, IsLength V3.zero line.tangent l → V3.smul l unit.tangent = line.tangent ∧
        (l ≠ 0 → IsLength V3.zero unit.tangent 1) := by
  obtain ⟨k, p, q, o, hk, hp, hq, ho, -⟩ := longest_edge hs hl
  refine ⟨{ origin := o, tangent := (V3.smul (1 / 2) (q.add p)).sub o },
    { origin := o, tangent := (segmentTangent o (V3.smul (1 / 2) (p.add q))).normalized sqrt }, ?_, ?_, rfl, ?_⟩
  · simp only [triangleMaxEdgeLine, hk, hp, hq, ho, ok_bind]
  · simp only [triangleInertiaLine, hk, hp, hq, ho, ok_bind]
  intro l hl
  have e : segmentTangent o (V3.smul (1 / 2) (p.add q)) = (V3.smul (1 / 2) (q.add p)).sub o := by
    simp only [segmentTangent, V3.sub, V3.smul, V3.add]
    congr 2 <;> ring
  simp only [e]
  generalize (V3.smul (1 / 2) (q.add p)).sub o = t at *
  have hn := norm_mul_self hs t
  have hll : l = t.norm sqrt := by
    have h2 : l * l = t.norm sqrt * t.norm sqrt := by
      rw [hn.2]
      have := hl.2
      simp only [V3.zero, sub_zero] at this
      simp only [V3.dot]
      linear_combination this
    rcases mul_self_eq_mul_self_iff.1 h2 with h | h
    · exact h
    · have := hl.1
      have h3 := hn.1
      linarith
  refine ⟨by rw [hll]; exact smul_norm_normalized hs t, ?_⟩
  intro h0
  have hpos : 0 < t.dot t := by
    rw [← hn.2, ← hll]
    exact mul_self_pos.2 h0
  refine ⟨zero_le_one, ?_⟩
  have := normalized_dot_self hs t hpos
  simp only [V3.dot] at this
  simp only [V3.zero, sub_zero]
  linear_combination -this

/-- **C124.** The line by the diameter: of at least two points in the plane two at the greatest distance are found,
and the line goes through the given point at a right angle to their segment. -/
theorem c124_diameter_line (g : GeoCfg K) {sqrt : K → K} (hs : IsSqrt sqrt) {vs : List (V3 K)} (h2 : 2 ≤ vs.length)
    (hf : g.Flat vs) (c : V3 K) :
    ∃ line, ∃ i j : Nat, ∃ a b, g.maxDiameterLine sqrt vs c = ok line ∧ i < j ∧ vs[i]? = some a ∧ vs[j]? = some b ∧
      (∀ p ∈ vs, ∀ q ∈ vs, dist2 p q ≤ dist2 a b) ∧ line.origin = c ∧ IsRightNormal a b line.tangent ∧
      line.tangent.dot (b.sub a) = 0 := by
  obtain ⟨k, i, j, a, b, hk, ei, ej, hij, ha, hb, hmax⟩ := farthest hs h2
  refine ⟨{ origin := c, tangent := edgeNormal sqrt (a, b) }, i, j, a, b, ?_, hij, ha, hb, hmax, rfl,
    edgeNormal_isRight hs a b, ?_⟩
  · have hn : j ≠ i := by omega
    simp only [GeoCfg.maxDiameterLine, pointsDistance_eq, ok_bind, hk, assert_true hn, ei, ej, vget_of_some ha, vget_of_some hb,
      segmentNormal_eq g sqrt (hf a (List.mem_of_getElem? ha)) (hf b (List.mem_of_getElem? hb))]
  · unfold edgeNormal V3.normalized
    split <;> simp only [V3.dot, V3.sub, V3.smul] <;> ring

/-- **C124.** For one point, or points that all lie too far from the plane, no line is given. -/
theorem c124_diameter_refused (g : GeoCfg K) {sqrt : K → K} (hs : IsSqrt sqrt) {vs : List (V3 K)} (c : V3 K) :
    (vs.length = 1 → g.maxDiameterLine sqrt vs c = abort) ∧
    (2 ≤ vs.length → (∀ p ∈ vs, g.tolerance1D < |p.z|) → g.maxDiameterLine sqrt vs c = abort) := by
  constructor
  · intro h
    have e : (List.range (vs.length * vs.length)).map (distanceAt sqrt vs) = [-1] := by
      rw [h]
      simp [distanceAt, h]
    simp only [GeoCfg.maxDiameterLine, pointsDistance_eq, ok_bind, e, firstMax, firstMaxFrom]
    rw [h]
    rfl
  · intro h2 hz
    obtain ⟨k, i, j, a, b, hk, ei, ej, hij, ha, hb, -⟩ := farthest hs h2
    have hn : j ≠ i := by omega
    have e : ∀ p ∈ vs, g.pointsAre2D [p] = ok false := by
      intro p hp
      have := hz p hp
      simp only [GeoCfg.pointsAre2D, List.length_singleton, assert_true Nat.zero_lt_one, ok_bind]
      simp [this]
    simp only [GeoCfg.maxDiameterLine, pointsDistance_eq, ok_bind, hk, assert_true hn, ei, ej, vget_of_some ha, vget_of_some hb,
      GeoCfg.segmentNormal, e a (List.mem_of_getElem? ha), e b (List.mem_of_getElem? hb)]
    rfl

/-! ### The hypotheses can be met -/

/-- The edges of the reference tetrahedron, with the second of two longest edges later. -/
example : tetrahedronMaxEdge [(0, 1), (1, 2), (2, 0), (0, 3), (1, 3), (2, 3)] ([1, 3, 2, 1, 3, 2] : List ℚ) =
    ok (1, [0, 3]) ∧
    (∀ e ∈ [(0, 1), (1, 2), (2, 0), (0, 3), (1, 3), (2, 3)], e.1 < 4 ∧ e.2 < 4 ∧ e.1 ≠ e.2) ∧
    triangleMaxEdge ([3, 5, 4] : List ℚ) = ok (1, 0) ∧
    tetrahedronMaxEdge [(0, 1)] ([1] : List ℚ) = abort := by
  decide +kernel

/-- A triangle over the real numbers has edge lengths, with a line for each rule. -/
example : ∃ lengths line unit, polygonEdgeLengths Real.sqrt [⟨0, 0, 0⟩, ⟨4, 0, 0⟩, ⟨0, 3, 0⟩] = ok lengths ∧
    triangleMaxEdgeLine [⟨0, 0, 0⟩, ⟨4, 0, 0⟩, ⟨0, 3, 0⟩] lengths = ok line ∧
    triangleInertiaLine Real.sqrt [⟨0, 0, 0⟩, ⟨4, 0, 0⟩, ⟨0, 3, 0⟩] lengths = ok unit := by
  obtain ⟨line, unit, h, h', -⟩ := c124_inertia_line isSqrt_real (a := ⟨0, 0, 0⟩) (b := ⟨4, 0, 0⟩) (c := ⟨0, 3, 0⟩)
    (edgeLengths_eq Real.sqrt (by simp))
  exact ⟨_, line, unit, edgeLengths_eq Real.sqrt (by simp), h, h'⟩

/-- The vertices of a rectangle are in the plane; the same rectangle at height one is refused. -/
example : (2 ≤ ([⟨0, 0, 0⟩, ⟨4, 0, 0⟩, ⟨4, 3, 0⟩, ⟨0, 3, 0⟩] : List (V3 ℝ)).length ∧
      defaultGeo.Flat [⟨0, 0, 0⟩, ⟨4, 0, 0⟩, ⟨4, 3, 0⟩, ⟨0, 3, 0⟩]) ∧
    defaultGeo.maxDiameterLine Real.sqrt [⟨0, 0, 1⟩, ⟨4, 0, 1⟩, ⟨4, 3, 1⟩, ⟨0, 3, 1⟩] V3.zero = abort := by
  refine ⟨⟨by simp, ?_⟩, (c124_diameter_refused defaultGeo isSqrt_real V3.zero).2 (by simp) ?_⟩
  · intro p hp
    simp only [List.mem_cons, List.not_mem_nil, or_false] at hp
    rcases hp with rfl | rfl | rfl | rfl <;> norm_num [defaultGeo]
  · intro p hp
    simp only [List.mem_cons, List.not_mem_nil, or_false] at hp
    rcases hp with rfl | rfl | rfl | rfl <;> norm_num [defaultGeo]

end Verif
