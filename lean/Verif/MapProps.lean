import Verif.MapLemmas
import Mathlib.Analysis.Real.Sqrt

/-
Properties of the reference maps and of barycentric coordinates: C30, C31, C34, C49.
-/
namespace Verif

open Res

variable {K : Type} [Field K]

/-! ### C30 -/

/-- C30, triangle of a plane `z = c`. -/
theorem c30_triangle (v0 v1 v2 : V3 K) (hz1 : v1.z = v0.z) (hz2 : v2.z = v0.z)
    (hA : area2 v0 v1 v2 ≠ 0) :
    (mapTriangle v0 v1 v2).F ⟨0, 0, 0⟩ = v0 ∧
    (mapTriangle v0 v1 v2).F ⟨1, 0, 0⟩ = v1 ∧
    (mapTriangle v0 v1 v2).F ⟨0, 1, 0⟩ = v2 ∧
    MutualInverse (mapTriangle v0 v1 v2).F (mapTriangle v0 v1 v2).FInv ∧
    ScalesArea (mapTriangle v0 v1 v2).F (mapTriangle v0 v1 v2).DetJ ∧
    (mapTriangle v0 v1 v2).detInv * (mapTriangle v0 v1 v2).DetJ = 1 ∧
    ∀ x h, (mapTriangle v0 v1 v2).F (x.add h) =
      ((mapTriangle v0 v1 v2).F x).add (((mapTriangle v0 v1 v2).J x).mulVec h) := by
  have hd : (bMatrix v0 v1 v2).det ≠ 0 := by rw [bMatrix_det]; exact hA
  refine ⟨?_, ?_, ?_, AffMap.build_mutualInverse _ _ hd, bMatrix_scalesArea _ _ _ _,
    M3.det_inverse _ hd, AffMap.build_affine _ _⟩
  all_goals
    ext <;> simp [mapTriangle, AffMap.F, AffMap.build, bMatrix, M3.mulVec, V3.add, hz1, hz2]

example : area2 (⟨1, 1, 5⟩ : V3 ℚ) ⟨4, 2, 5⟩ ⟨2, 7, 5⟩ ≠ 0 := by norm_num [area2]

/-- C30, parallelogram of a plane `z = c`. -/
theorem c30_parallelogram (v0 v1 v2 v3 : V3 K) (hz1 : v1.z = v0.z) (hz3 : v3.z = v0.z)
    (hp : v0.add v2 = v1.add v3) (hA : area2 v0 v1 v3 ≠ 0) :
    ∃ m, mapParallelogram [v0, v1, v2, v3] = ok m ∧
      refSquare.map m.F = [v0, v1, v2, v3] ∧
      MutualInverse m.F m.FInv ∧
      ScalesArea m.F m.DetJ ∧
      m.detInv * m.DetJ = 1 ∧
      ∀ x h, m.F (x.add h) = (m.F x).add ((m.J x).mulVec h) := by
  have hd : (bMatrix v0 v1 v3).det ≠ 0 := by rw [bMatrix_det]; exact hA
  refine ⟨AffMap.build (bMatrix v0 v1 v3) v0, by simp [mapParallelogram, vget, ok_bind], ?_,
    AffMap.build_mutualInverse _ _ hd, bMatrix_scalesArea _ _ _ _, M3.det_inverse _ hd,
    AffMap.build_affine _ _⟩
  have hx := congrArg V3.x hp
  have hy := congrArg V3.y hp
  have hzz := congrArg V3.z hp
  simp only [V3.add] at hx hy hzz
  simp only [refSquare, List.map_cons, List.map_nil]
  congr 1
  · ext <;> simp [AffMap.F, AffMap.build, bMatrix, M3.mulVec, V3.add]
  congr 1
  · ext <;> simp [AffMap.F, AffMap.build, bMatrix, M3.mulVec, V3.add, hz1]
  congr 1
  · ext <;> simp only [AffMap.F, AffMap.build, bMatrix, M3.mulVec, V3.add]
    · linear_combination -hx
    · linear_combination -hy
    · linear_combination -hzz - hz1 - hz3
  congr 1
  · ext <;> simp [AffMap.F, AffMap.build, bMatrix, M3.mulVec, V3.add, hz3]

example : (⟨1, 1, 5⟩ : V3 ℚ).add ⟨6, 8, 5⟩ = (⟨4, 2, 5⟩ : V3 ℚ).add ⟨3, 7, 5⟩ ∧
    area2 (⟨1, 1, 5⟩ : V3 ℚ) ⟨4, 2, 5⟩ ⟨3, 7, 5⟩ ≠ 0 := by
  constructor
  · simp only [V3.add]; norm_num
  · norm_num [area2]

section ordered
variable [LinearOrder K] [IsStrictOrderedRing K]

/-- C30, tetrahedron: the first order of the vertices is always accepted, so `Compute` never
throws and the reference vertices are mapped to the vertices in the given order. -/
theorem c30_tetrahedron (sqrt : K → K) (hs : IsSqrt sqrt) (g : GeoCfg K) (v0 v1 v2 v3 : V3 K)
    (hV : vol6 v0 v1 v2 v3 ≠ 0) :
    ∃ m, mapTetrahedron sqrt g [v0, v1, v2, v3] = ok m ∧
      refTetrahedron.map m.F = [v0, v1, v2, v3] ∧
      MutualInverse m.F m.FInv ∧
      ScalesVolume m.F m.DetJ ∧
      m.detInv * m.DetJ = 1 ∧
      (∀ x, m.DetJAt x = m.DetJ) ∧
      ∀ x h, m.F (x.add h) = (m.F x).add ((m.J x).mulVec h) := by
  have hd : (qMatrix v0 v1 v2 v3).det ≠ 0 := by rw [qMatrix_det]; exact hV
  have hF : refTetrahedron.map (AffMap.build (qMatrix v0 v1 v2 v3) v0).F = [v0, v1, v2, v3] := by
    simp only [refTetrahedron, List.map_cons, List.map_nil]
    congr 1
    · ext <;> simp [AffMap.F, AffMap.build, qMatrix, M3.mulVec, V3.add]
    congr 1
    · ext <;> simp [AffMap.F, AffMap.build, qMatrix, M3.mulVec, V3.add]
    congr 1
    · ext <;> simp [AffMap.F, AffMap.build, qMatrix, M3.mulVec, V3.add]
    congr 1
    · ext <;> simp [AffMap.F, AffMap.build, qMatrix, M3.mulVec, V3.add]
  refine ⟨AffMap.build (qMatrix v0 v1 v2 v3) v0, ?_, hF, AffMap.build_mutualInverse _ _ hd,
    AffMap.build_scalesVolume _ _, M3.det_inverse _ hd, fun _ => rfl, AffMap.build_affine _ _⟩
  have h0 : sqrt 0 = 0 := by
    obtain ⟨_, h⟩ := hs 0 le_rfl
    exact mul_self_eq_zero.1 h
  have hz : g.isValueZero 0 g.tol1D = true := by
    rw [GeoCfg.isValueZero_iff, abs_zero]
    exact le_trans (abs_nonneg _) (le_max_left _ _)
  have hn : sqNorm (List.zipWith V3.sub [v0, v1, v2, v3] [v0, v1, v2, v3]) = 0 := by
    simp [sqNorm, V3.sub, V3.dot]
  have ht : testMapConfiguration sqrt g [v0, v1, v2, v3] refTetrahedron v0 v1 v2 v3 =
      ok (some (AffMap.build (qMatrix v0 v1 v2 v3) v0)) := by
    simp only [testMapConfiguration, hF, subCols, if_true, ok_bind, hn, h0, hz]
  simp [mapTetrahedron, mapOrders, tryOrders, vget, ok_bind, ht]

/-- The second to fourth entry of the coordinate system are the neighbours 1, 3, 4 of vertex 0,
in some order. -/
def IsBoxSystem (cs : List Nat) : Prop := ∃ l : List Nat, l.Perm [1, 3, 4] ∧ cs = 0 :: l

/-- C30, parallelepiped: whatever the order of the three neighbours of the first vertex in the
coordinate system, the map is found, is invertible and is within the tolerance of the vertices. -/
theorem c30_parallelepiped (sqrt : K → K) (hs : IsSqrt sqrt) (g : GeoCfg K)
    (o e₁ e₂ e₃ : V3 K) (cs : List Nat) (hcs : IsBoxSystem cs)
    (hV : vol6 o (o.add e₁) (o.add e₂) (o.add e₃) ≠ 0) :
    ∃ m, mapParallelepiped sqrt g (boxCorners o e₁ e₂ e₃) cs = ok m ∧
      List.Forall₂ (Near (max |g.tol1D| g.minTolerance)) (boxCorners o e₁ e₂ e₃)
        (refCube.map m.F) ∧
      MutualInverse m.F m.FInv ∧
      ScalesVolume m.F m.DetJ ∧
      m.detInv * m.DetJ = 1 ∧
      (∀ x, m.DetJAt x = m.DetJ) ∧
      ∀ x h, m.F (x.add h) = (m.F x).add ((m.J x).mulVec h) := by
  obtain ⟨l, hl, rfl⟩ := hcs
  obtain ⟨p, hp, hm, hn⟩ := box_core hs g o e₁ e₂ e₃ hl
  have hd : (qMatrix o (o.add p.1) (o.add p.2.1) (o.add p.2.2)).det ≠ 0 := by
    intro h0
    apply hV
    simp only [arrangements, List.mem_cons, List.not_mem_nil, or_false] at hp
    rcases hp with rfl | rfl | rfl | rfl | rfl | rfl <;>
      simp only [qMatrix, M3.det, V3.add] at h0 <;> simp only [vol6, V3.add] <;>
      first | linear_combination h0 | linear_combination -h0
  refine ⟨_, hm, ?_, AffMap.build_mutualInverse _ _ hd, AffMap.build_scalesVolume _ _,
    M3.det_inverse _ hd, fun _ => rfl, AffMap.build_affine _ _⟩
  rw [List.forall₂_iff_get]
  refine ⟨by simp [boxCorners, refCube], fun k hk hk' => ?_⟩
  have h8 : k < 8 := hk
  have := hn k h8
  simp only [List.get_eq_getElem, List.getElem_map]
  exact this

/-- C30, parallelepiped with edges that differ by more than the tolerance: the reference vertices
are mapped exactly to the vertices. -/
theorem c30_parallelepiped_exact (sqrt : K → K) (hs : IsSqrt sqrt) (g : GeoCfg K)
    (o e₁ e₂ e₃ : V3 K) (cs : List Nat) (hcs : IsBoxSystem cs)
    (h12 : ¬Near (max |g.tol1D| g.minTolerance) e₁ e₂)
    (h13 : ¬Near (max |g.tol1D| g.minTolerance) e₁ e₃)
    (h23 : ¬Near (max |g.tol1D| g.minTolerance) e₂ e₃) :
    ∃ m, mapParallelepiped sqrt g (boxCorners o e₁ e₂ e₃) cs = ok m ∧
      refCube.map m.F = boxCorners o e₁ e₂ e₃ := by
  obtain ⟨l, hl, rfl⟩ := hcs
  obtain ⟨p, hp, hm, hn⟩ := box_core hs g o e₁ e₂ e₃ hl
  refine ⟨_, hm, ?_⟩
  have near1 := hn 1 (by omega)
  have near3 := hn 3 (by omega)
  have near4 := hn 4 (by omega)
  simp only [boxCorners, refCube, List.getElem_cons_succ, List.getElem_cons_zero, AffMap.F,
    AffMap.build, qMatrix, M3.mulVec, V3.add, Near, mul_one, mul_zero, add_zero, zero_add,
    sub_add_cancel, add_sub_add_left_eq_sub, add_sub_cancel_left,
    show ∀ a b c : K, a + b - (c + a) = b - c from fun a b c => by ring] at near1 near3 near4
  simp only [arrangements, List.mem_cons, List.not_mem_nil, or_false] at hp
  have sym : ∀ a b : V3 K, ¬Near (max |g.tol1D| g.minTolerance) a b →
      ¬Near (max |g.tol1D| g.minTolerance) b a := by
    intro a b h h'
    apply h
    simp only [Near] at h' ⊢
    rw [abs_sub_comm a.x, abs_sub_comm a.y, abs_sub_comm a.z]
    exact h'
  rcases hp with rfl | rfl | rfl | rfl | rfl | rfl
  · exact box_F o e₁ e₂ e₃
  · exact absurd near3 h23
  · exact absurd near1 h12
  · exact absurd near1 h12
  · exact absurd near1 h13
  · exact absurd near1 h13

/-- The unit cube and the coordinate system `0, 4, 1, 3`, with real square roots. -/
example : IsSqrt Real.sqrt ∧ IsBoxSystem [0, 4, 1, 3] ∧
    vol6 (⟨0, 0, 0⟩ : V3 ℝ) ((⟨0, 0, 0⟩ : V3 ℝ).add ⟨1, 0, 0⟩) ((⟨0, 0, 0⟩ : V3 ℝ).add ⟨0, 1, 0⟩)
      ((⟨0, 0, 0⟩ : V3 ℝ).add ⟨0, 0, 1⟩) ≠ 0 ∧
    ¬Near (1 / 1000) (⟨1, 0, 0⟩ : V3 ℝ) ⟨0, 1, 0⟩ := by
  refine ⟨fun a ha => ⟨Real.sqrt_nonneg a, Real.mul_self_sqrt ha⟩, ⟨[4, 1, 3], by decide, rfl⟩,
    ?_, ?_⟩
  · norm_num [vol6, V3.add]
  · norm_num [Near]

end ordered

/-! ### C31 -/

/-- C31, quadrilateral: the shape functions interpolate and sum to one. -/
theorem c31_quadrilateral_shape (p : V3 K) :
    (psi2 p).sum = 1 ∧
    (refSquare : List (V3 K)).map psi2 =
      [[1, 0, 0, 0], [0, 1, 0, 0], [0, 0, 1, 0], [0, 0, 0, 1]] := by
  constructor
  · simp only [psi2, List.sum_cons, List.sum_nil]; ring
  · simp [refSquare, psi2]

/-- C31, quadrilateral: the reference vertices are mapped to the vertices and the block of the
Jacobian is the derivative in the plane: moving one reference coordinate by `t` moves the image by
`t` times the column. The determinant is that of the block and `JInv` is the inverse. -/
theorem c31_quadrilateral (v0 v1 v2 v3 : V3 K) (p : V3 K) :
    mapRes (quadF [v0, v1, v2, v3]) refSquare = ok [v0, v1, v2, v3] ∧
    ∃ j, quadJ [v0, v1, v2, v3] p = ok j ∧
      (∃ q, quadF [v0, v1, v2, v3] p = ok q ∧
        (∀ t, ∃ q', quadF [v0, v1, v2, v3] ⟨p.x + t, p.y, p.z⟩ = ok q' ∧
          q'.x = q.x + t * j.a00 ∧ q'.y = q.y + t * j.a10) ∧
        (∀ t, ∃ q', quadF [v0, v1, v2, v3] ⟨p.x, p.y + t, p.z⟩ = ok q' ∧
          q'.x = q.x + t * j.a01 ∧ q'.y = q.y + t * j.a11)) ∧
      quadDetJ [v0, v1, v2, v3] p = ok (j.a00 * j.a11 - j.a01 * j.a10) ∧
      (j.a00 * j.a11 - j.a01 * j.a10 ≠ 0 →
        ∃ i, quadJInv [v0, v1, v2, v3] p = ok i ∧ i.mul j = M3.one ∧ j.mul i = M3.one) := by
  have hF : ∀ p : V3 K, quadF [v0, v1, v2, v3] p =
      ok ((List.zipWith V3.smul (psi2 p) [v0, v1, v2, v3]).foldr V3.add V3.zero) :=
    fun p => by simp only [quadF]; exact if_pos rfl
  have hJ : quadJ [v0, v1, v2, v3] p =
      ok ⟨(lincombVal [v0, v1, v2, v3] (dpsi2 p).1).x, (lincombVal [v0, v1, v2, v3] (dpsi2 p).2).x, 0,
        (lincombVal [v0, v1, v2, v3] (dpsi2 p).1).y, (lincombVal [v0, v1, v2, v3] (dpsi2 p).2).y, 0,
        0, 0, 1⟩ := by
    simp only [quadJ, lincomb, dpsi2, List.length_cons, List.length_nil, if_true, ok_bind,
      lincombVal]
  refine ⟨?_, _, hJ, ⟨_, hF p, fun t => ⟨_, hF _, ?_⟩, fun t => ⟨_, hF _, ?_⟩⟩, ?_, ?_⟩
  · have : ∀ q, mapRes (quadF [v0, v1, v2, v3]) q = ok (q.map fun p =>
        (List.zipWith V3.smul (psi2 p) [v0, v1, v2, v3]).foldr V3.add V3.zero) := by
      intro q
      induction q with
      | nil => rfl
      | cons a q ih => simp only [mapRes, hF, ih, ok_bind, List.map_cons]
    rw [this]
    simp only [refSquare, List.map_cons, List.map_nil, psi2, List.zipWith_cons_cons,
      List.zipWith_nil_left, List.foldr_cons, List.foldr_nil]
    simp [V3.smul, V3.add, V3.zero]
  · simp only [lincombVal, psi2, dpsi2, List.zipWith_cons_cons, List.zipWith_nil_left,
      List.foldr_cons, List.foldr_nil, V3.smul, V3.add, V3.zero]
    constructor <;> ring
  · simp only [lincombVal, psi2, dpsi2, List.zipWith_cons_cons, List.zipWith_nil_left,
      List.foldr_cons, List.foldr_nil, V3.smul, V3.add, V3.zero]
    constructor <;> ring
  · simp only [quadDetJ, hJ, ok_bind, M3.det, Res.ok.injEq]
    ring
  · intro hd
    refine ⟨_, by simp only [quadJInv, hJ, ok_bind]; rfl, ?_, ?_⟩ <;>
    · generalize lincombVal [v0, v1, v2, v3] (dpsi2 p).1 = a at hd ⊢
      generalize lincombVal [v0, v1, v2, v3] (dpsi2 p).2 = b at hd ⊢
      simp only at hd
      have h' : (a.x * b.y - a.y * b.x) * (1 / (a.x * b.y - a.y * b.x)) = 1 := by
        have : a.x * b.y - a.y * b.x ≠ 0 := by
          intro h; apply hd; linear_combination h
        field_simp
      ext <;> simp only [M3.mul, M3.one]
      all_goals first
        | linear_combination h'
        | ring

example : quadDetJ [(⟨0, 0, 0⟩ : V3 ℚ), ⟨2, 0, 0⟩, ⟨3, 3, 0⟩, ⟨0, 1, 0⟩] ⟨1 / 2, 1 / 2, 0⟩ =
    ok (9 / 2) := by decide +kernel

/-- C31, hexahedron: the shape functions interpolate and sum to one, and `A` holds their
coefficients with respect to the monomials `1, x, y, z, xy, xz, yz, xyz`. -/
theorem c31_hexahedron_shape (p : V3 K) :
    (psi3 p).sum = 1 ∧
    (refCube : List (V3 K)).map psi3 =
      [[1, 0, 0, 0, 0, 0, 0, 0], [0, 1, 0, 0, 0, 0, 0, 0], [0, 0, 1, 0, 0, 0, 0, 0],
       [0, 0, 0, 1, 0, 0, 0, 0], [0, 0, 0, 0, 1, 0, 0, 0], [0, 0, 0, 0, 0, 1, 0, 0],
       [0, 0, 0, 0, 0, 0, 1, 0], [0, 0, 0, 0, 0, 0, 0, 1]] := by
  constructor
  · simp only [psi3, List.sum_cons, List.sum_nil]; ring
  · simp [refCube, psi3]

/-- C31, hexahedron: a map with vertices `v₀, …, v₇` sends the reference vertices to them and `J`
is the derivative. -/
theorem c31_hexahedron (m : HexMap K) (v0 v1 v2 v3 v4 v5 v6 v7 : V3 K)
    (hm : m.vertices = [v0, v1, v2, v3, v4, v5, v6, v7]) (p : V3 K) :
    mapRes m.F refCube = ok m.vertices ∧
    ∃ j q, m.J p = ok j ∧ m.F p = ok q ∧
      (∀ t, m.F ⟨p.x + t, p.y, p.z⟩ = ok (q.add (V3.smul t j.col0))) ∧
      (∀ t, m.F ⟨p.x, p.y + t, p.z⟩ = ok (q.add (V3.smul t j.col1))) ∧
      (∀ t, m.F ⟨p.x, p.y, p.z + t⟩ = ok (q.add (V3.smul t j.col2))) ∧
      m.DetJ p = ok j.det ∧
      (j.det ≠ 0 → ∃ i, m.JInv p = ok i ∧ i.mul j = M3.one ∧ j.mul i = M3.one) := by
  have hF : ∀ p : V3 K, m.F p =
      ok (lincombVal [v0, v1, v2, v3, v4, v5, v6, v7] (psi3 p)) := fun p => by
    simp only [HexMap.F, hm]
    exact if_pos rfl
  have hJ : m.J p = ok (colsMatrix (lincombVal [v0, v1, v2, v3, v4, v5, v6, v7] (dpsi3 p).1)
      (lincombVal [v0, v1, v2, v3, v4, v5, v6, v7] (dpsi3 p).2.1)
      (lincombVal [v0, v1, v2, v3, v4, v5, v6, v7] (dpsi3 p).2.2)) := by
    simp only [HexMap.J, hm, lincomb, dpsi3, List.length_cons, List.length_nil, if_true, ok_bind,
      lincombVal, colsMatrix]
  refine ⟨?_, _, _, hJ, hF p, fun t => ?_, fun t => ?_, fun t => ?_, ?_, ?_⟩
  · have : ∀ q, mapRes m.F q = ok (q.map fun p =>
        lincombVal [v0, v1, v2, v3, v4, v5, v6, v7] (psi3 p)) := by
      intro q
      induction q with
      | nil => rfl
      | cons a q ih => simp only [mapRes, hF, ih, ok_bind, List.map_cons]
    rw [this, hm]
    simp only [refCube, List.map_cons, List.map_nil, psi3, lincombVal, List.zipWith_cons_cons,
      List.zipWith_nil_left, List.foldr_cons, List.foldr_nil]
    simp [V3.smul, V3.add, V3.zero]
  · rw [hF]
    simp only [lincombVal, colsMatrix, psi3, dpsi3, List.zipWith_cons_cons, List.zipWith_nil_left, List.foldr_cons, List.foldr_nil,
      V3.smul, V3.add, V3.zero, M3.col0, Res.ok.injEq, V3.mk.injEq]
    refine ⟨?_, ?_, ?_⟩ <;> ring
  · rw [hF]
    simp only [lincombVal, colsMatrix, psi3, dpsi3, List.zipWith_cons_cons, List.zipWith_nil_left, List.foldr_cons, List.foldr_nil,
      V3.smul, V3.add, V3.zero, M3.col1, Res.ok.injEq, V3.mk.injEq]
    refine ⟨?_, ?_, ?_⟩ <;> ring
  · rw [hF]
    simp only [lincombVal, colsMatrix, psi3, dpsi3, List.zipWith_cons_cons, List.zipWith_nil_left, List.foldr_cons, List.foldr_nil,
      V3.smul, V3.add, V3.zero, M3.col2, Res.ok.injEq, V3.mk.injEq]
    refine ⟨?_, ?_, ?_⟩ <;> ring
  · simp only [HexMap.DetJ, hJ, ok_bind]
  · intro hd
    exact ⟨_, by simp only [HexMap.JInv, hJ, ok_bind], M3.inverse_mul _ hd, M3.mul_inverse _ hd⟩

/-- C31, `MapHexahedron::Compute`: the vertices of the map are those of the hexahedron, first the
ones of the first face and then the others by increasing index; `F` sends reference vertex `i` to
the `i`-th of them, and the columns of `Coefficients` are the coefficients of `F`. -/
theorem c31_hexahedron_compute (vertices : List (V3 K)) (hv : vertices.length = 8)
    (face : List Nat) (hf : IsFace face) :
    ∃ m, mapHexahedron vertices face = ok m ∧
      m.vertices.map some = (face ++ offFace face).map (fun v => vertices[v]?) ∧
      m.vertices.Perm vertices ∧
      mapRes m.F refCube = ok m.vertices ∧
      ∀ p, m.F p = lincomb m.coefficients (monomials p) := by
  obtain ⟨m, hm, _, hvs, hc⟩ := mapHexahedron_eq hv hf
  have hperm : (face ++ offFace face).Perm (List.range 8) := by
    rw [List.perm_ext_iff_of_nodup]
    · intro v
      simp only [List.mem_append, offFace, List.mem_filter, List.mem_range, decide_eq_true_eq]
      constructor
      · rintro (h | h)
        · exact hf.2.2 v h
        · exact h.1
      · intro h
        by_cases hm : v ∈ face
        · exact Or.inl hm
        · exact Or.inr ⟨h, by simpa using hm⟩
    · rw [List.nodup_append]
      refine ⟨hf.2.1, List.Nodup.filter _ List.nodup_range, ?_⟩
      rintro a ha b hb rfl
      simp only [offFace, List.mem_filter, decide_eq_true_eq] at hb
      exact hb.2 ha
    · exact List.nodup_range
  have hp : m.vertices.Perm vertices := by
    rw [← List.map_perm_map_iff (Option.some_injective _), hvs]
    refine (hperm.map _).trans (List.Perm.of_eq ?_)
    apply List.ext_getElem
    · simp [hv]
    · intro i h1 h2
      simp only [List.length_map, List.length_range] at h1
      simp [List.getElem?_eq_getElem (show i < vertices.length by omega)]
  have h8 : m.vertices.length = 8 := by rw [hp.length_eq, hv]
  refine ⟨m, hm, hvs, hp, ?_⟩
  obtain ⟨mo, mv, mc⟩ := m
  simp only at h8 hc
  match mv, h8 with
  | [v0, v1, v2, v3, v4, v5, v6, v7], _ =>
    refine ⟨(c31_hexahedron _ v0 v1 v2 v3 v4 v5 v6 v7 rfl ⟨0, 0, 0⟩).1, fun p => ?_⟩
    have h1 : HexMap.F ⟨mo, [v0, v1, v2, v3, v4, v5, v6, v7], mc⟩ p =
        ok (lincombVal [v0, v1, v2, v3, v4, v5, v6, v7] (psi3 p)) := by
      simp only [HexMap.F]; exact if_pos rfl
    have h2 : lincomb mc (monomials p) = ok (lincombVal mc (monomials p)) := by
      simp only [lincomb, lincombVal]
      exact if_pos (by rw [hc]; simp [hexA, monomials])
    rw [h1]
    simp only
    rw [h2, hc]
    simp only [hexA, List.map_cons, List.map_nil, lincombVal, psi3, monomials,
      List.zipWith_cons_cons, List.zipWith_nil_left, List.foldr_cons, List.foldr_nil,
      V3.smul, V3.add, V3.zero, Res.ok.injEq, V3.mk.injEq]
    refine ⟨?_, ?_, ?_⟩ <;> ring

example : IsFace [1, 2, 6, 5] := by
  refine ⟨rfl, by decide, by decide⟩

/-! ### C49 -/

/-- Every edge of the reference cube is carried to an edge of the hexahedron, given by `E`. -/
def CarriesEdges (m : HexMap K) (E : Nat → Nat → Prop) : Prop :=
  ∀ e ∈ cubeEdges, ∃ q ∈ carriedBy m.vertexOrder e, E q.1 q.2

/-- C49 fails: for the unit cube with first face `1, 2, 6, 5` the map does not carry edges to
edges, and its Jacobian has both signs on the reference cube. -/
theorem c49_edges_violated : ∃ (face : List Nat) (m : HexMap ℚ), IsCubeFace face ∧
    mapHexahedron refCube face = ok m ∧ ¬CarriesEdges m CubeEdge ∧
    m.DetJ ⟨1 / 2, 0, 1⟩ = ok (-1) ∧ m.DetJ ⟨1 / 2, 1, 1⟩ = ok 1 := by
  refine ⟨[1, 2, 6, 5], match mapHexahedron refCube [1, 2, 6, 5] with
    | ok m => m
    | _ => ⟨[], [], []⟩, ⟨1, 2, 6, 5, rfl, by decide, by decide, by decide, by decide, by decide,
      by decide⟩, ?_, ?_, ?_, ?_⟩
  · decide +kernel
  · unfold CarriesEdges
    decide +kernel
  · decide +kernel
  · decide +kernel

/-- C49 for first faces above which the other vertices follow by increasing index: `b₀, …, b₃` are
the vertices off the first face by increasing index, `bᵢ` is joined to the `i`-th vertex of the
face and `b₀, b₁, b₂, b₃` is a cycle. Missing for the full claim: other numberings, for which it
is false. -/
theorem c49_edges_partial (vertices : List (V3 K)) (hv : vertices.length = 8)
    (E : Nat → Nat → Prop) (a₀ a₁ a₂ a₃ b₀ b₁ b₂ b₃ : Nat) (hf : IsFace [a₀, a₁, a₂, a₃])
    (hb : [b₀, b₁, b₂, b₃].Pairwise (· < ·)) (hb8 : b₃ < 8)
    (hd : ∀ b ∈ [b₀, b₁, b₂, b₃], b ∉ [a₀, a₁, a₂, a₃])
    (hface : E a₀ a₁ ∧ E a₁ a₂ ∧ E a₂ a₃ ∧ E a₃ a₀)
    (htop : E b₀ b₁ ∧ E b₁ b₂ ∧ E b₂ b₃ ∧ E b₃ b₀)
    (hup : E a₀ b₀ ∧ E a₁ b₁ ∧ E a₂ b₂ ∧ E a₃ b₃) :
    ∃ m, mapHexahedron vertices [a₀, a₁, a₂, a₃] = ok m ∧ CarriesEdges m E := by
  obtain ⟨m, hm, ho, _⟩ := mapHexahedron_eq hv hf
  refine ⟨m, hm, ?_⟩
  have hoff : offFace [a₀, a₁, a₂, a₃] = [b₀, b₁, b₂, b₃] := by
    have hlt : (offFace [a₀, a₁, a₂, a₃]).Pairwise (· < ·) :=
      List.Pairwise.filter _ List.pairwise_lt_range
    have hsub : [b₀, b₁, b₂, b₃] ⊆ offFace [a₀, a₁, a₂, a₃] := by
      intro b hbm
      simp only [offFace, List.mem_filter, List.mem_range, decide_eq_true_eq]
      refine ⟨?_, hd b hbm⟩
      simp only [List.pairwise_cons, List.mem_cons, List.not_mem_nil, or_false, forall_eq_or_imp,
        forall_eq] at hb
      simp only [List.mem_cons, List.not_mem_nil, or_false] at hbm
      omega
    have hnd : [b₀, b₁, b₂, b₃].Nodup := hb.imp fun h => Nat.ne_of_lt h
    have hp := (List.subperm_of_subset hnd hsub).perm_of_length_le
      (by rw [(hexVertexOrder_eq hf).2]; rfl)
    exact hp.symm.eq_of_pairwise (le := (· < ·)) (fun a b _ _ h1 h2 => by omega) hlt hb
  simp only [CarriesEdges, ho, hoff]
  obtain ⟨f1, f2, f3, f4⟩ := hface
  obtain ⟨t1, t2, t3, t4⟩ := htop
  obtain ⟨u1, u2, u3, u4⟩ := hup
  intro e he
  simp only [cubeEdges, List.mem_cons, List.not_mem_nil, or_false] at he
  rcases he with rfl | rfl | rfl | rfl | rfl | rfl | rfl | rfl | rfl | rfl | rfl | rfl <;>
    exact ⟨_, rfl, by assumption⟩

example : IsFace [0, 1, 2, 3] ∧ CubeEdge 0 4 ∧ CubeEdge 1 5 ∧ CubeEdge 2 6 ∧ CubeEdge 3 7 :=
  ⟨⟨rfl, by decide, by decide⟩, by decide, by decide, by decide, by decide⟩

/-- C49 for hexahedra numbered like the reference cube: the map carries edges to edges exactly for
the first faces `0, 1, 2, 3` and `4, 5, 6, 7`, in this order. -/
theorem c49_cube_numbering_partial (vertices : List (V3 K)) (hv : vertices.length = 8)
    (face : List Nat) (hf : IsCubeFace face) :
    ∃ m, mapHexahedron vertices face = ok m ∧
      (CarriesEdges m CubeEdge ↔ face = [0, 1, 2, 3] ∨ face = [4, 5, 6, 7]) := by
  obtain ⟨a, b, c, d, rfl, hn, h8, h1, h2, h3, h4⟩ := hf
  obtain ⟨m, hm, ho, _⟩ := mapHexahedron_eq hv (face := [a, b, c, d]) ⟨rfl, hn, h8⟩
  refine ⟨m, hm, ?_⟩
  simp only [CarriesEdges, ho]
  exact cubeFace_fin ⟨a, h8 a (by simp)⟩ ⟨b, h8 b (by simp)⟩ ⟨c, h8 c (by simp)⟩
    ⟨d, h8 d (by simp)⟩ (by simpa using hn) h1 h2 h3 h4

/-! ### C34 -/

section ordered
variable [LinearOrder K] [IsStrictOrderedRing K]

/-- C34: for a triangle with area above the tolerance the coordinates sum to one, give back a
point of the plane `z = 0`, and are the only such triple. -/
theorem c34_barycentric (g : GeoCfg K) (tol2D : K) (t0 t1 t2 p : V3 K)
    (h : max |tol2D| g.minTolerance < |area2 t0 t1 t2|) (hp : p.z = 0) :
    (g.pointToBarycentric tol2D t0 t1 t2 p).1 + (g.pointToBarycentric tol2D t0 t1 t2 p).2.1 +
      (g.pointToBarycentric tol2D t0 t1 t2 p).2.2 = 1 ∧
    barycentricToPoint t0 t1 t2 (g.pointToBarycentric tol2D t0 t1 t2 p) = p ∧
    ∀ c : K × K × K, c.1 + c.2.1 + c.2.2 = 1 →
      g.pointToBarycentric tol2D t0 t1 t2 (barycentricToPoint t0 t1 t2 c) = c := by
  obtain ⟨hd, he⟩ := g.pointToBarycentric_eq tol2D t0 t1 t2 p h
  generalize hD : (t0.x - t2.x) * (t1.y - t2.y) - (t1.x - t2.x) * (t0.y - t2.y) = D at hd he
  have hi : D * (1 / D) = 1 := by field_simp
  refine ⟨?_, ?_, ?_⟩
  · rw [he]; ring
  · rw [he]
    ext
    · simp only [barycentricToPoint]
      rw [← hD] at hi ⊢
      linear_combination (p.x - t2.x) * hi
    · simp only [barycentricToPoint]
      rw [← hD] at hi ⊢
      linear_combination (p.y - t2.y) * hi
    · simp [barycentricToPoint, hp]
  · intro c hc
    obtain ⟨_, he'⟩ := g.pointToBarycentric_eq tol2D t0 t1 t2 (barycentricToPoint t0 t1 t2 c) h
    rw [he', hD]
    have e1 : 1 / D * ((t1.y - t2.y) * ((barycentricToPoint t0 t1 t2 c).x - t2.x) -
        ((barycentricToPoint t0 t1 t2 c).y - t2.y) * (t1.x - t2.x)) = c.1 := by
      simp only [barycentricToPoint]
      rw [← hD] at hi ⊢
      linear_combination c.1 * hi
    have e2 : 1 / D * (((barycentricToPoint t0 t1 t2 c).y - t2.y) * (t0.x - t2.x) -
        (t0.y - t2.y) * ((barycentricToPoint t0 t1 t2 c).x - t2.x)) = c.2.1 := by
      simp only [barycentricToPoint]
      rw [← hD] at hi ⊢
      linear_combination c.2.1 * hi
    rw [e1, e2]
    ext
    · rfl
    · rfl
    · linear_combination -hc

example : max |(1 / 100 : ℚ)| (1 / 1000) <
    |area2 (⟨0, 0, 0⟩ : V3 ℚ) ⟨4, 1, 0⟩ ⟨1, 3, 0⟩| := by
  decide +kernel

/-- C34: in barycentric coordinates the vertices are the unit triples. -/
theorem c34_vertices (g : GeoCfg K) (tol2D : K) (t0 t1 t2 : V3 K)
    (h : max |tol2D| g.minTolerance < |area2 t0 t1 t2|) :
    g.pointToBarycentric tol2D t0 t1 t2 t0 = (1, 0, 0) ∧
    g.pointToBarycentric tol2D t0 t1 t2 t1 = (0, 1, 0) ∧
    g.pointToBarycentric tol2D t0 t1 t2 t2 = (0, 0, 1) := by
  refine ⟨?_, ?_, ?_⟩
  all_goals
    rw [(g.pointToBarycentric_eq tol2D t0 t1 t2 _ h).2]
    have hd := (g.pointToBarycentric_eq tol2D t0 t1 t2 t0 h).1
    generalize hD : (t0.x - t2.x) * (t1.y - t2.y) - (t1.x - t2.x) * (t0.y - t2.y) = D at hd ⊢
    have hi : D * (1 / D) = 1 := by field_simp
    rw [← hD] at hi ⊢
    refine Prod.ext ?_ (Prod.ext ?_ ?_) <;> simp only
    all_goals first
      | linear_combination hi
      | linear_combination -hi
      | ring

end ordered

end Verif
