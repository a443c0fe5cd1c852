import Verif.VolumeLemmas
import Verif.QuadIntegrals

/-
Lemmas on the tetrahedra of a polyhedron and on integrals over tetrahedra.
-/
namespace Verif

open Res

/-! ### Lists of tetrahedra -/

/-- Numbers of tetrahedra one after the other. -/
def flat4 (L : List (Nat × Nat × Nat × Nat)) : List Nat := L.flatMap fun t => [t.1, t.2.1, t.2.2.1, t.2.2.2]

theorem flat4_length (L : List (Nat × Nat × Nat × Nat)) : (flat4 L).length = 4 * L.length := by
  induction L with
  | nil => rfl
  | cons a L ih =>
    rw [flat4] at *
    simp only [List.flatMap_cons, List.length_append, ih, List.length_cons, List.length_nil]
    omega

theorem flat4_get (L : List (Nat × Nat × Nat × Nat)) (i : Nat) (hi : i < L.length) :
    vget (flat4 L) (4 * i) = ok L[i].1 ∧ vget (flat4 L) (4 * i + 1) = ok L[i].2.1 ∧
      vget (flat4 L) (4 * i + 2) = ok L[i].2.2.1 := by
  induction L generalizing i with
  | nil => simp at hi
  | cons t L ih =>
    have e : flat4 (t :: L) = t.1 :: t.2.1 :: t.2.2.1 :: t.2.2.2 :: flat4 L := rfl
    cases i with
    | zero => rw [e]; exact ⟨rfl, rfl, rfl⟩
    | succ i =>
      obtain ⟨h1, h2, h3⟩ := ih i (by simpa using hi)
      rw [vget_eq_ok] at h1 h2 h3
      rw [e, vget_eq_ok, vget_eq_ok, vget_eq_ok]
      have : ∀ j, (t.1 :: t.2.1 :: t.2.2.1 :: t.2.2.2 :: flat4 L)[j + 4]? = (flat4 L)[j]? := fun _ => rfl
      rw [show 4 * (i + 1) = 4 * i + 4 by omega, show 4 * i + 4 + 1 = (4 * i + 1) + 4 by omega,
        show 4 * i + 4 + 2 = (4 * i + 2) + 4 by omega, this, this, this]
      exact ⟨h1, h2, h3⟩

theorem flat4_flatten (L : List (List (Nat × Nat × Nat × Nat))) : (L.map flat4).flatten = flat4 L.flatten := by
  induction L with
  | nil => rfl
  | cons a L ih =>
    simp only [List.map_cons, List.flatten_cons, ih, flat4, List.flatMap_append]

/-- The vertex at a position of a face. -/
def vertexAt (face : List (Nat × Nat)) (i : Nat) : Nat := (face.getD i (0, 0)).1

theorem faceCorner_eq {face : List (Nat × Nat)} {tr : List Nat} {k i : Nat} (h : vget tr k = ok i)
    (hi : i < face.length) : faceCorner face tr k = ok (vertexAt face i) := by
  unfold faceCorner vertexAt
  rw [h, ok_bind, vget_of_lt hi, ok_bind]
  simp [hi]

theorem tetsByFaces_eq (n : Nat) (FT : List (List (Nat × Nat) × List (Nat × Nat × Nat)))
    (h : ∀ ft ∈ FT, ∀ t ∈ ft.2, t.1 < ft.1.length ∧ t.2.1 < ft.1.length ∧ t.2.2 < ft.1.length) :
    tetrahedronsByFaceTriangulations n (FT.map Prod.fst) (FT.map fun ft => flat3 ft.2) =
      ok (flat4 (FT.flatMap fun ft => ft.2.map fun t =>
        (vertexAt ft.1 t.1, vertexAt ft.1 t.2.1, vertexAt ft.1 t.2.2, n))) := by
  unfold tetrahedronsByFaceTriangulations
  rw [List.length_map, mapRes_range_eq _ (fun ft : List (Nat × Nat) × List (Nat × Nat × Nat) => flat4 (ft.2.map fun t =>
    (vertexAt ft.1 t.1, vertexAt ft.1 t.2.1, vertexAt ft.1 t.2.2, n))), ok_bind]
  · rw [List.flatMap, ← flat4_flatten, List.map_map]
    rfl
  · intro f hf
    have e1 : vget (FT.map fun ft => flat3 ft.2) f = ok (flat3 FT[f].2) := by rw [vget_eq_ok]; simp [hf]
    have e2 : vget (FT.map Prod.fst) f = ok FT[f].1 := by rw [vget_eq_ok]; simp [hf]
    rw [e1, ok_bind, flat3_length, Nat.mul_div_cancel_left _ (by omega),
      mapRes_range_eq _ (fun t : Nat × Nat × Nat =>
        [vertexAt FT[f].1 t.1, vertexAt FT[f].1 t.2.1, vertexAt FT[f].1 t.2.2, n]), ok_bind]
    · simp only [flat4, List.flatMap, List.map_map]
      rfl
    · intro i hi
      obtain ⟨g1, g2, g3⟩ := flat3_get FT[f].2 i hi
      obtain ⟨k1, k2, k3⟩ := h _ (List.getElem_mem hf) _ (List.getElem_mem hi)
      unfold tetOfTriangle
      rw [e2, ok_bind, faceCorner_eq g1 k1, faceCorner_eq g2 k2, faceCorner_eq g3 k3]
      rfl

theorem tetsByFacePoints_eq (n m : Nat) (FT : List (List (Nat × Nat) × List (Nat × Nat × Nat)))
    (h : ∀ ft ∈ FT, ∀ t ∈ ft.2, t.2.1 < ft.1.length ∧ t.2.2 < ft.1.length) :
    tetrahedronsByFacePoints n (FT.map Prod.fst) (FT.map fun ft => flat3 ft.2) m =
      ok (flat4 (FT.zipIdx.flatMap fun ft => ft.1.2.map fun t =>
        (n + ft.2, vertexAt ft.1.1 t.2.1, vertexAt ft.1.1 t.2.2, n + m))) := by
  unfold tetrahedronsByFacePoints
  rw [List.length_map, ← List.length_zipIdx (l := FT) (i := 0), mapRes_range_eq _
    (fun ft : (List (Nat × Nat) × List (Nat × Nat × Nat)) × Nat => flat4 (ft.1.2.map fun t =>
    (n + ft.2, vertexAt ft.1.1 t.2.1, vertexAt ft.1.1 t.2.2, n + m))), ok_bind]
  · rw [List.flatMap, ← flat4_flatten, List.map_map]
    rfl
  · intro f hf
    rw [List.length_zipIdx] at hf
    have e1 : vget (FT.map fun ft => flat3 ft.2) f = ok (flat3 FT[f].2) := by rw [vget_eq_ok]; simp [hf]
    have e2 : vget (FT.map Prod.fst) f = ok FT[f].1 := by rw [vget_eq_ok]; simp [hf]
    simp only [List.getElem_zipIdx, zero_add]
    rw [e1, ok_bind, flat3_length, Nat.mul_div_cancel_left _ (by omega),
      mapRes_range_eq _ (fun t : Nat × Nat × Nat =>
        [n + f, vertexAt FT[f].1 t.2.1, vertexAt FT[f].1 t.2.2, n + m]), ok_bind]
    · simp only [flat4, List.flatMap, List.map_map]
      rfl
    · intro i hi
      obtain ⟨-, g2, g3⟩ := flat3_get FT[f].2 i hi
      obtain ⟨k2, k3⟩ := h _ (List.getElem_mem hf) _ (List.getElem_mem hi)
      unfold tetOfFacePoint
      rw [e2, ok_bind, faceCorner_eq g2 k2, faceCorner_eq g3 k3]
      rfl

section field
variable {K : Type} [Field K]

theorem extractTets_eq (vs : List (V3 K)) (p : V3 K) (Q : List (Nat × Nat × Nat × Nat))
    (h : ∀ q ∈ Q, q.1 < vs.length ∧ q.2.1 < vs.length ∧ q.2.2.1 < vs.length) :
    extractTetrahedronPoints vs p (flat4 Q) =
      ok (Q.map fun q => [vs.getD q.1 V3.zero, vs.getD q.2.1 V3.zero, vs.getD q.2.2.1 V3.zero, p]) := by
  unfold extractTetrahedronPoints
  rw [flat4_length, Nat.mul_div_cancel_left _ (by omega)]
  apply mapRes_range_eq
  intro i hi
  obtain ⟨g1, g2, g3⟩ := flat4_get Q i hi
  obtain ⟨k1, k2, k3⟩ := h _ (List.getElem_mem hi)
  simp only [tetCorner, g1, g2, g3, ok_bind, vget_of_lt k1, vget_of_lt k2, vget_of_lt k3]
  simp [k1, k2, k3]

theorem extractTetsByFacePoints_eq (vs : List (V3 K)) (p : V3 K) (fps : List (V3 K)) (Q : List (Nat × Nat × Nat × Nat))
    (h : ∀ q ∈ Q, vs.length ≤ q.1 ∧ q.1 - vs.length < fps.length ∧ q.2.1 < vs.length ∧ q.2.2.1 < vs.length) :
    extractTetrahedronPointsByFacePoints vs p fps (flat4 Q) =
      ok (Q.map fun q => [fps.getD (q.1 - vs.length) V3.zero, vs.getD q.2.1 V3.zero, vs.getD q.2.2.1 V3.zero, p]) := by
  unfold extractTetrahedronPointsByFacePoints
  rw [flat4_length, Nat.mul_div_cancel_left _ (by omega)]
  apply mapRes_range_eq
  intro i hi
  obtain ⟨g1, g2, g3⟩ := flat4_get Q i hi
  obtain ⟨k0, k1, k2, k3⟩ := h _ (List.getElem_mem hi)
  simp only [tetCorner, tetFacePoint, g1, g2, g3, ok_bind, vget_of_lt k2, vget_of_lt k3, if_neg (not_lt.2 k0),
    vget_of_lt k1]
  simp [k1, k2, k3]

variable [LinearOrder K] [IsStrictOrderedRing K]

/-- The first order of the corners is accepted, also for a flat tetrahedron. -/
theorem mapTetrahedron_eq {sqrt : K → K} (hs : IsSqrt sqrt) (g : GeoCfg K) (v0 v1 v2 v3 : V3 K) :
    mapTetrahedron sqrt g [v0, v1, v2, v3] = ok (AffMap.build (qMatrix v0 v1 v2 v3) v0) := by
  have hF : refTetrahedron.map (AffMap.build (qMatrix v0 v1 v2 v3) v0).F = [v0, v1, v2, v3] := by
    simp only [refTetrahedron, List.map_cons, List.map_nil]
    congr 1
    · ext <;> simp [AffMap.F, AffMap.build, qMatrix, M3.mulVec, V3.add]
    congr 1
    · ext <;> simp [AffMap.F, AffMap.build, qMatrix, M3.mulVec, V3.add]
    congr 1
    · ext <;> simp [AffMap.F, AffMap.build, qMatrix, M3.mulVec, V3.add]
    congr 1
    · ext <;> simp [AffMap.F, AffMap.build, qMatrix, M3.mulVec, V3.add]
  have h0 : sqrt 0 = 0 := by
    obtain ⟨_, h⟩ := hs 0 le_rfl
    exact mul_self_eq_zero.1 h
  have hz : g.isValueZero 0 g.tol1D = true := by
    rw [GeoCfg.isValueZero_iff, abs_zero]
    exact le_trans (abs_nonneg _) (le_max_left _ _)
  have hn : sqNorm (List.zipWith V3.sub [v0, v1, v2, v3] [v0, v1, v2, v3]) = 0 := by
    simp [sqNorm, V3.sub, V3.dot]
  have ht : testMapConfiguration sqrt g [v0, v1, v2, v3] refTetrahedron v0 v1 v2 v3 =
      ok (some (AffMap.build (qMatrix v0 v1 v2 v3) v0)) := by
    simp only [testMapConfiguration, hF, subCols, if_true, ok_bind, hn, h0, hz]
  simp [mapTetrahedron, mapOrders, tryOrders, vget, ok_bind, ht]

theorem qMatrix_vol (v0 v1 v2 v3 : V3 K) : (qMatrix v0 v1 v2 v3).det = vol6 v0 v1 v2 v3 := by
  simp only [qMatrix, M3.det, vol6]
  ring

/-- The rule with four points on a product of affine functions. -/
theorem tet_rule {u0 u1 u2 u3 w0 w1 w2 w3 D : K} (h0 : |u0| ≤ D) (h1 : |u1| ≤ D) (h2 : |u2| ≤ D) (h3 : |u3| ≤ D)
    (k0 : |w0| ≤ D) (k1 : |w1| ≤ D) (k2 : |w2| ≤ D) (k3 : |w3| ≤ D) :
    |(List.zipWith (fun (p : V3 K) (w : K) => (u0 + p.x * (u1 - u0) + p.y * (u2 - u0) + p.z * (u3 - u0)) *
        (w0 + p.x * (w1 - w0) + p.y * (w2 - w0) + p.z * (w3 - w0)) * w) tetPoints tetWeights).sum -
      ((u0 + u1 + u2 + u3) * (w0 + w1 + w2 + w3) + u0 * w0 + u1 * w1 + u2 * w2 + u3 * w3) / 120| ≤
      234 / 10 ^ 18 * D ^ 2 := by
  have hD : 0 ≤ D := (abs_nonneg _).trans h0
  have prod : ∀ {u w : K}, |u| ≤ D → |w| ≤ D → -D ^ 2 ≤ u * w ∧ u * w ≤ D ^ 2 := by
    intro u w hu hw
    rw [← abs_le, abs_mul, sq]
    gcongr
  have p00 := prod h0 k0
  have p01 := prod h0 k1
  have p02 := prod h0 k2
  have p03 := prod h0 k3
  have p10 := prod h1 k0
  have p11 := prod h1 k1
  have p12 := prod h1 k2
  have p13 := prod h1 k3
  have p20 := prod h2 k0
  have p21 := prod h2 k1
  have p22 := prod h2 k2
  have p23 := prod h2 k3
  have p30 := prod h3 k0
  have p31 := prod h3 k1
  have p32 := prod h3 k2
  have p33 := prod h3 k3
  simp only [tetPoints, tetWeights, List.zipWith_cons_cons, List.zipWith_nil_left, List.sum_cons, List.sum_nil]
  rw [abs_le]
  constructor <;> linarith [p00.1, p00.2, p01.1, p01.2, p02.1, p02.2, p03.1, p03.2, p10.1, p10.2, p11.1, p11.2, p12.1,
    p12.2, p13.1, p13.2, p20.1, p20.2, p21.1, p21.2, p22.1, p22.2, p23.1, p23.2, p30.1, p30.2, p31.1, p31.2, p32.1,
    p32.2, p33.1, p33.2]

end field

theorem tetra_quadratic (a d e f a' d' e' f' : ℝ) :
    tetraInt (fun u v w => (a + u * d + v * e + w * f) * (a' + u * d' + v * e' + w * f')) =
      ((a + (a + d) + (a + e) + (a + f)) * (a' + (a' + d') + (a' + e') + (a' + f')) + a * a' + (a + d) * (a' + d') +
        (a + e) * (a' + e') + (a + f) * (a' + f')) / 120 := by
  have h := tetra_sum (Finset.univ : Finset (Fin 10))
    ![a * a', a * d' + a' * d, a * e' + a' * e, a * f' + a' * f, d * d', e * e', f * f', d * e' + d' * e,
      d * f' + d' * f, e * f' + e' * f]
    ![0, 1, 0, 0, 2, 0, 0, 1, 1, 0] ![0, 0, 1, 0, 0, 2, 0, 1, 0, 1] ![0, 0, 0, 1, 0, 0, 2, 0, 1, 1]
  have e1 : (fun u v w : ℝ => (a + u * d + v * e + w * f) * (a' + u * d' + v * e' + w * f')) = fun x y z =>
      ∑ i : Fin 10, ![a * a', a * d' + a' * d, a * e' + a' * e, a * f' + a' * f, d * d', e * e', f * f',
        d * e' + d' * e, d * f' + d' * f, e * f' + e' * f] i *
        (x ^ (![0, 1, 0, 0, 2, 0, 0, 1, 1, 0] : Fin 10 → ℕ) i * y ^ (![0, 0, 1, 0, 0, 2, 0, 1, 0, 1] : Fin 10 → ℕ) i *
          z ^ (![0, 0, 0, 1, 0, 0, 2, 0, 1, 1] : Fin 10 → ℕ) i) := by
    funext x y z
    simp [Fin.sum_univ_succ]
    ring
  rw [e1, h]
  simp only [tetra_monomial]
  simp [Fin.sum_univ_succ, Nat.factorial]
  ring

/-- A tetrahedron as the list of its corners. -/
def cornersOf {K : Type} (t : V3 K × V3 K × V3 K × V3 K) : List (V3 K) := [t.1, t.2.1, t.2.2.1, t.2.2.2]

/-- The quadrature of one tetrahedron. -/
def tetQuad {K : Type} [Field K] [LinearOrder K] (t : V3 K × V3 K × V3 K × V3 K) : List (V3 K × K) :=
  List.zipWith (fun p w => ((AffMap.build (qMatrix t.1 t.2.1 t.2.2.1 t.2.2.2) t.1).F p,
    w * |vol6 t.1 t.2.1 t.2.2.1 t.2.2.2|)) tetPoints tetWeights

theorem tetrahedronQuadrature_eq {K : Type} [Field K] [LinearOrder K] [IsStrictOrderedRing K] {sqrt : K → K}
    (hs : IsSqrt sqrt) (g : GeoCfg K) (ts : List (V3 K × V3 K × V3 K × V3 K)) :
    tetrahedronQuadrature sqrt g (ts.map cornersOf) = ok (ts.flatMap tetQuad) := by
  unfold tetrahedronQuadrature
  rw [mapRes_map_pure (k := tetQuad), ok_bind]
  · rfl
  · intro t _
    unfold tetrahedronRule cornersOf tetQuad
    rw [mapTetrahedron_eq hs g, ok_bind]
    simp only [AffMap.build, qMatrix_vol]

theorem tetMoment_error {X Y : V3 ℝ → ℝ} (hX : X = V3.x ∨ X = V3.y ∨ X = V3.z) (hY : Y = V3.x ∨ Y = V3.y ∨ Y = V3.z)
    (c : V3 ℝ) (D : ℝ) (ts : List (V3 ℝ × V3 ℝ × V3 ℝ × V3 ℝ)) (h : TetsWithin D c ts) :
    |((ts.flatMap tetQuad).map fun q => (X q.1 - X c) * (Y q.1 - Y c) * q.2).sum - tetMoment X Y c ts| ≤
      234 / 10 ^ 18 * D ^ 2 * (ts.map fun t => |vol6 t.1 t.2.1 t.2.2.1 t.2.2.2|).sum := by
  unfold tetMoment
  rw [sum_flatMap]
  apply sum_error_le
  intro t ht
  have hw : ∀ Z : V3 ℝ → ℝ, Z = V3.x ∨ Z = V3.y ∨ Z = V3.z → ∀ p ∈ [t.1, t.2.1, t.2.2.1, t.2.2.2], |Z p - Z c| ≤ D := by
    intro Z hZ p hp
    have := h t ht p hp
    rcases hZ with rfl | rfl | rfl
    · exact this.1
    · exact this.2.1
    · exact this.2.2
  have hF : ∀ Z : V3 ℝ → ℝ, Z = V3.x ∨ Z = V3.y ∨ Z = V3.z → ∀ p : V3 ℝ,
      Z ((AffMap.build (qMatrix t.1 t.2.1 t.2.2.1 t.2.2.2) t.1).F p) - Z c =
      (Z t.1 - Z c) + p.x * ((Z t.2.1 - Z c) - (Z t.1 - Z c)) + p.y * ((Z t.2.2.1 - Z c) - (Z t.1 - Z c)) +
        p.z * ((Z t.2.2.2 - Z c) - (Z t.1 - Z c)) := by
    rintro Z (rfl | rfl | rfl) p <;>
    · simp only [AffMap.build, AffMap.F, qMatrix, M3.mulVec, V3.add]
      ring
  have hint : integralInTet (fun p => (X p - X c) * (Y p - Y c)) t.1 t.2.1 t.2.2.1 t.2.2.2 =
      |vol6 t.1 t.2.1 t.2.2.1 t.2.2.2| *
      ((((X t.1 - X c) + (X t.2.1 - X c) + (X t.2.2.1 - X c) + (X t.2.2.2 - X c)) *
          ((Y t.1 - Y c) + (Y t.2.1 - Y c) + (Y t.2.2.1 - Y c) + (Y t.2.2.2 - Y c)) +
        (X t.1 - X c) * (Y t.1 - Y c) + (X t.2.1 - X c) * (Y t.2.1 - Y c) + (X t.2.2.1 - X c) * (Y t.2.2.1 - Y c) +
          (X t.2.2.2 - X c) * (Y t.2.2.2 - Y c)) / 120) := by
    unfold integralInTet
    congr 1
    have := tetra_quadratic (X t.1 - X c) (X t.2.1 - X t.1) (X t.2.2.1 - X t.1) (X t.2.2.2 - X t.1)
      (Y t.1 - Y c) (Y t.2.1 - Y t.1) (Y t.2.2.1 - Y t.1) (Y t.2.2.2 - Y t.1)
    rw [show X t.1 - X c + (X t.2.1 - X t.1) = X t.2.1 - X c by ring,
      show X t.1 - X c + (X t.2.2.1 - X t.1) = X t.2.2.1 - X c by ring,
      show X t.1 - X c + (X t.2.2.2 - X t.1) = X t.2.2.2 - X c by ring,
      show Y t.1 - Y c + (Y t.2.1 - Y t.1) = Y t.2.1 - Y c by ring,
      show Y t.1 - Y c + (Y t.2.2.1 - Y t.1) = Y t.2.2.1 - Y c by ring,
      show Y t.1 - Y c + (Y t.2.2.2 - Y t.1) = Y t.2.2.2 - Y c by ring] at this
    rw [← this]
    congr 1
    funext u v w
    rcases hX with rfl | rfl | rfl <;> rcases hY with rfl | rfl | rfl <;> (simp only; ring)
  rw [hint]
  have key := tet_rule (hw X hX t.1 (by simp)) (hw X hX t.2.1 (by simp)) (hw X hX t.2.2.1 (by simp))
    (hw X hX t.2.2.2 (by simp)) (hw Y hY t.1 (by simp)) (hw Y hY t.2.1 (by simp)) (hw Y hY t.2.2.1 (by simp))
    (hw Y hY t.2.2.2 (by simp))
  have := mul_le_mul_of_nonneg_right key (abs_nonneg (vol6 t.1 t.2.1 t.2.2.1 t.2.2.2))
  refine le_trans (le_of_eq ?_) this
  conv_rhs => rw [← abs_abs (vol6 t.1 t.2.1 t.2.2.1 t.2.2.2), ← abs_mul]
  congr 1
  unfold tetQuad
  simp only [tetPoints, tetWeights, List.zipWith_cons_cons, List.zipWith_nil_left, List.map_cons, List.map_nil,
    List.sum_cons, List.sum_nil, hF X hX, hF Y hY]
  ring

end Verif
