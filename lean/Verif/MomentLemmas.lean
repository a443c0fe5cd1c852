import Verif.MomentModel
import Verif.MomentSpec
import Verif.PolygonLemmas
import Verif.QuadIntegrals
import Mathlib.Algebra.BigOperators.Fin
import Mathlib.Tactic.LinearCombination

/-
Lemmas for the integrals over polygons.
-/
namespace Verif

open Res

section field
variable {K : Type} [Field K]

theorem atEdge_cyc {α : Type} {f : V3 K → V3 K → Res α} {g : V3 K × V3 K → α} {vs : List (V3 K)}
    (h : ∀ a b, a ∈ vs → b ∈ vs → f a b = ok (g (a, b))) :
    mapRes (atEdge f vs) (List.range vs.length) = ok ((cycPairs vs).map g) := by
  have := mapRes_range_eq (atEdge f vs) g (cycPairs vs) (by
    intro i hi
    have h1 : i < vs.length := by rwa [cycPairs_length] at hi
    have h0 : (i + 1) % vs.length < vs.length := Nat.mod_lt _ (by omega)
    simp only [atEdge, vget_of_lt h1, vget_of_lt h0, ok_bind, cycPairs_getElem]
    exact h _ _ (List.getElem_mem _) (List.getElem_mem _))
  rwa [cycPairs_length] at this

theorem perEdge_map {α : Type} {P : V3 K → V3 K → α → Prop} {vs : List (V3 K)} {g : V3 K × V3 K → α}
    (h : ∀ a b, a ∈ vs → b ∈ vs → P a b (g (a, b))) : PerEdge P vs ((cycPairs vs).map g) := by
  refine ⟨by simp [cycPairs_length], ?_⟩
  intro i a b ha hb
  have hi : i < vs.length := (List.getElem?_eq_some_iff.1 ha).1
  have hc : i < (cycPairs vs).length := by rwa [cycPairs_length]
  refine ⟨g (a, b), ?_, h a b (List.mem_of_getElem? ha) (List.mem_of_getElem? hb)⟩
  rw [List.getElem?_map, List.getElem?_eq_getElem hc, cycPairs_getElem]
  obtain ⟨_, e1⟩ := List.getElem?_eq_some_iff.1 ha
  obtain ⟨_, e2⟩ := List.getElem?_eq_some_iff.1 hb
  simp [e1, e2]

theorem sum_flatten_map {α : Type} (f : α → K) (L : List (List α)) :
    (L.flatten.map f).sum = (L.map fun l => (l.map f).sum).sum := by
  induction L with
  | nil => rfl
  | cons a L ih =>
    simp only [List.flatten_cons, List.map_append, List.sum_append, List.map_cons, List.sum_cons, ih]

theorem sum_flatMap {α β : Type} (f : β → K) (g : α → List β) (L : List α) :
    ((L.flatMap g).map f).sum = (L.map fun l => ((g l).map f).sum).sum := by
  induction L with
  | nil => rfl
  | cons a L ih => simp [ih]

theorem dotL_map {α : Type} (f g : α → K) (l : List α) :
    dotL (l.map f) (l.map g) = (l.map fun t => g t * f t).sum := by
  unfold dotL
  induction l with
  | nil => rfl
  | cons t ts ih =>
    simp only [List.map_cons, List.zipWith_cons_cons, List.sum_cons, ih]
    ring

end field

section ordered
variable {K : Type} [Field K] [LinearOrder K] [IsStrictOrderedRing K]

theorem pointsAre2D_flat (g : GeoCfg K) {vs : List (V3 K)} (h0 : 0 < vs.length) (hf : g.Flat vs) :
    g.pointsAre2D vs = ok true := by
  have hall : (vs.all fun p => decide (|p.z| ≤ g.tolerance1D)) = true := by
    simpa [List.all_eq_true, GeoCfg.Flat] using hf
  simp only [GeoCfg.pointsAre2D, assert_true h0, ok_bind, hall]

/-- The normal of an edge. -/
def edgeNormal (sqrt : K → K) (p : V3 K × V3 K) : V3 K :=
  ⟨((p.2.sub p.1).normalized sqrt).y, -((p.2.sub p.1).normalized sqrt).x, 0⟩

theorem segmentNormal_eq (g : GeoCfg K) (sqrt : K → K) {a b : V3 K} (ha : |a.z| ≤ g.tolerance1D)
    (hb : |b.z| ≤ g.tolerance1D) : g.segmentNormal sqrt a b = ok (edgeNormal sqrt (a, b)) := by
  have e1 := pointsAre2D_flat g (vs := [a]) (by simp) (by intro p hp; simp at hp; rwa [hp])
  have e2 := pointsAre2D_flat g (vs := [b]) (by simp) (by intro p hp; simp at hp; rwa [hp])
  simp only [GeoCfg.segmentNormal, e1, e2, ok_bind, and_self, assert_true]
  rfl

theorem edgeLengths_eq (sqrt : K → K) {vs : List (V3 K)} (h2 : 2 < vs.length) :
    polygonEdgeLengths sqrt vs = ok ((cycPairs vs).map fun p => segmentLength sqrt p.1 p.2) := by
  simp only [polygonEdgeLengths, assert_true h2, ok_bind]
  exact atEdge_cyc fun _ _ _ _ => rfl

theorem edgeTangents_eq {vs : List (V3 K)} (h2 : 2 < vs.length) :
    polygonEdgeTangents vs = ok ((cycPairs vs).map fun p => segmentTangent p.1 p.2) := by
  simp only [polygonEdgeTangents, assert_true h2, ok_bind]
  exact atEdge_cyc fun _ _ _ _ => rfl

theorem edgesCentroid_eq {vs : List (V3 K)} (h2 : 2 < vs.length) :
    polygonEdgesCentroid vs = ok ((cycPairs vs).map fun p => segmentBarycenter p.1 p.2) := by
  simp only [polygonEdgesCentroid, assert_true h2, ok_bind]
  exact atEdge_cyc fun _ _ _ _ => rfl

theorem edgeNormals_eq (g : GeoCfg K) (sqrt : K → K) {vs : List (V3 K)} (h2 : 2 < vs.length)
    (hf : g.Flat vs) : g.polygonEdgeNormals sqrt vs = ok ((cycPairs vs).map (edgeNormal sqrt)) := by
  simp only [GeoCfg.polygonEdgeNormals, pointsAre2D_flat g (by omega) hf, ok_bind, true_and,
    assert_true h2]
  exact atEdge_cyc fun a b ha hb => segmentNormal_eq g sqrt (hf a ha) (hf b hb)

theorem dot_self_pos_or (v : V3 K) : 0 < v.dot v ∨ v = V3.zero := by
  rcases lt_or_eq_of_le (show 0 ≤ v.dot v by simp only [V3.dot]; nlinarith [mul_self_nonneg v.x, mul_self_nonneg v.y, mul_self_nonneg v.z]) with h | h
  · exact .inl h
  · right
    simp only [V3.dot] at h
    have h1 := mul_self_nonneg v.x
    have h2 := mul_self_nonneg v.y
    have h3 := mul_self_nonneg v.z
    have e1 : v.x * v.x = 0 := by linarith
    have e2 : v.y * v.y = 0 := by linarith
    have e3 : v.z * v.z = 0 := by linarith
    ext
    · exact mul_self_eq_zero.1 e1
    · exact mul_self_eq_zero.1 e2
    · exact mul_self_eq_zero.1 e3

theorem norm_normalized {sqrt : K → K} (hs : IsSqrt sqrt) (v : V3 K) :
    V3.smul (v.norm sqrt) (v.normalized sqrt) = v := by
  rcases dot_self_pos_or v with h | h
  · have hr : v.norm sqrt ≠ 0 := by
      intro h0
      have := (hs _ h.le).2
      unfold V3.norm at h0
      rw [h0] at this
      simp at this
      exact h.ne this
    simp only [V3.normalized, if_pos h]
    change V3.smul (v.norm sqrt) (V3.smul (1 / v.norm sqrt) v) = v
    simp only [V3.smul]
    ext <;> (simp only; field_simp)
  · subst h
    simp [V3.normalized, V3.smul, V3.dot, V3.zero]

theorem segmentLength_isLength {sqrt : K → K} (hs : IsSqrt sqrt) (a b : V3 K) :
    IsLength a b (segmentLength sqrt a b) := by
  have h0 : 0 ≤ (b.sub a).dot (b.sub a) := by
    simp only [V3.dot]
    nlinarith [mul_self_nonneg (b.sub a).x, mul_self_nonneg (b.sub a).y, mul_self_nonneg (b.sub a).z]
  obtain ⟨h1, h2⟩ := hs _ h0
  refine ⟨h1, ?_⟩
  rw [sq]
  unfold segmentLength V3.norm
  rw [h2]
  simp only [V3.dot, V3.sub]
  ring

theorem IsLength.unique {a b : V3 K} {l m : K} (h : IsLength a b l) (h' : IsLength a b m) : l = m := by
  have : l ^ 2 = m ^ 2 := by rw [h.2, h'.2]
  exact (sq_eq_sq₀ h.1 h'.1).1 this

theorem length_normal {sqrt : K → K} (hs : IsSqrt sqrt) (a b : V3 K) :
    |segmentLength sqrt a b| * (edgeNormal sqrt (a, b)).x = b.y - a.y ∧
    |segmentLength sqrt a b| * (edgeNormal sqrt (a, b)).y = a.x - b.x := by
  have h := norm_normalized hs (b.sub a)
  rw [abs_of_nonneg (segmentLength_isLength hs a b).1]
  have hx := congrArg V3.x h
  have hy := congrArg V3.y h
  simp only [V3.smul, V3.sub] at hx hy
  unfold segmentLength edgeNormal
  simp only
  constructor
  · exact hy
  · have : ∀ r s : K, r * s = b.x - a.x → r * -s = a.x - b.x := by intro r s h; linear_combination -h
    exact this _ _ hx

theorem edgeNormal_isRight {sqrt : K → K} (hs : IsSqrt sqrt) (a b : V3 K) :
    IsRightNormal a b (edgeNormal sqrt (a, b)) := by
  have hl := segmentLength_isLength hs a b
  have hn := length_normal hs a b
  rw [abs_of_nonneg hl.1] at hn
  refine ⟨rfl, ?_, ?_, ?_⟩
  · intro l h
    rw [h.unique hl]
    exact hn
  · intro hz hab
    have h2 := hl.2
    have hpos : (segmentLength sqrt a b) ^ 2 ≠ 0 := by
      rw [h2]
      intro h0
      apply hab
      have h1 := sq_nonneg (b.x - a.x)
      have h2 := sq_nonneg (b.y - a.y)
      have h3 := sq_nonneg (b.z - a.z)
      have e1 : (b.x - a.x) ^ 2 = 0 := by linarith
      have e2 : (b.y - a.y) ^ 2 = 0 := by linarith
      ext
      · have := pow_eq_zero_iff (two_ne_zero) |>.1 e1; linarith
      · have := pow_eq_zero_iff (two_ne_zero) |>.1 e2; linarith
      · exact hz
    apply mul_left_cancel₀ hpos
    rw [mul_one]
    conv_rhs => rw [h2, hz]
    linear_combination (segmentLength sqrt a b * (edgeNormal sqrt (a, b)).x + (b.y - a.y)) * hn.1 +
      (segmentLength sqrt a b * (edgeNormal sqrt (a, b)).y + (a.x - b.x)) * hn.2
  · rintro rfl
    simp [edgeNormal, V3.normalized, V3.sub, V3.dot]

/-- The quadrature of one edge. -/
def quadOf (sqrt : K → K) (points weights : List K) (p : V3 K × V3 K) : List (V3 K × V3 K) :=
  List.zipWith (fun q w => (p.1.add (V3.smul q (segmentTangent p.1 p.2)),
    V3.smul (|segmentLength sqrt p.1 p.2| * w) (edgeNormal sqrt p))) points weights

theorem boundaryQuadrature_eq (sqrt : K → K) (vs : List (V3 K)) (points weights : List K) :
    boundaryQuadrature vs ((cycPairs vs).map fun p => segmentLength sqrt p.1 p.2)
      ((cycPairs vs).map fun p => segmentTangent p.1 p.2) ((cycPairs vs).map (edgeNormal sqrt))
      points weights = ok ((cycPairs vs).map (quadOf sqrt points weights)).flatten := by
  have := mapRes_range_eq (edgeQuadrature vs ((cycPairs vs).map fun p => segmentLength sqrt p.1 p.2)
      ((cycPairs vs).map fun p => segmentTangent p.1 p.2) ((cycPairs vs).map (edgeNormal sqrt))
      points weights) (quadOf sqrt points weights) (cycPairs vs) (by
    intro i hi
    have h1 : i < vs.length := by rwa [cycPairs_length] at hi
    simp only [edgeQuadrature]
    rw [vget_of_lt h1, vget_of_lt (by simpa using hi), vget_of_lt (by simpa using hi),
      vget_of_lt (by simpa using hi)]
    simp only [ok_bind, List.getElem_map, quadOf, cycPairs_getElem])
  rw [cycPairs_length] at this
  simp only [boundaryQuadrature, this, ok_bind]

theorem zipWith_linear (points weights : List K) (a t n : K) (h : points.length = weights.length) :
    (List.zipWith (fun q w => (a + q * t) * (w * n)) points weights).sum =
      a * n * weights.sum + t * n * (List.zipWith (· * ·) points weights).sum := by
  induction points generalizing weights with
  | nil =>
    cases weights with
    | nil => simp
    | cons w ws => simp at h
  | cons q qs ih =>
    cases weights with
    | nil => simp at h
    | cons w ws =>
      simp only [List.length_cons, Nat.add_right_cancel_iff] at h
      simp only [List.zipWith_cons_cons, List.sum_cons, ih ws h]
      ring

theorem sum_abs_le {α : Type} (f : α → K) (B : K) (l : List α) (h : ∀ a ∈ l, |f a| ≤ B) :
    |(l.map f).sum| ≤ l.length * B := by
  induction l with
  | nil => simp
  | cons a l ih =>
    simp only [List.map_cons, List.sum_cons, List.length_cons, Nat.cast_add, Nat.cast_one]
    have h1 := h a (by simp)
    have h2 := ih fun b hb => h b (by simp [hb])
    have h3 := abs_add_le (f a) (l.map f).sum
    nlinarith

/-- The error of the rule with two points on the polynomials of degree two. -/
def gaussError : K := (gaussFirst ^ 2 + gaussSecond ^ 2) / 2 - 1 / 3

theorem gaussError_le : |(gaussError : K)| ≤ 1 / 10 ^ 17 := by
  rw [abs_le]
  unfold gaussError gaussFirst gaussSecond
  constructor <;> norm_num

theorem gauss_sum : (gaussFirst + gaussSecond : K) = 1 := by
  unfold gaussFirst gaussSecond; norm_num

theorem quadOf_sum (sqrt : K → K) (f : V3 K × V3 K → K) (points weights : List K) (vs : List (V3 K)) :
    ((((cycPairs vs).map (quadOf sqrt points weights)).flatten).map f).sum =
      closedSum (fun a b => ((quadOf sqrt points weights (a, b)).map f).sum) vs := by
  rw [sum_flatten_map, List.map_map]
  rfl

theorem centroidByIntegral_eq (sqrt : K → K) {vs : List (V3 K)} (h2 : 2 < vs.length) (A : K) :
    polygonCentroidByIntegral vs ((cycPairs vs).map fun p => segmentLength sqrt p.1 p.2)
      ((cycPairs vs).map fun p => segmentTangent p.1 p.2) ((cycPairs vs).map (edgeNormal sqrt)) A =
    ok ⟨closedSum (fun a b => ((quadOf sqrt [gaussFirst, gaussSecond] [1 / 2, 1 / 2] (a, b)).map
          fun q => q.1.x * q.2.x * q.1.x).sum) vs * (1 / 2 / A),
        closedSum (fun a b => ((quadOf sqrt [gaussFirst, gaussSecond] [1 / 2, 1 / 2] (a, b)).map
          fun q => q.1.y * q.2.y * q.1.y).sum) vs * (1 / 2 / A), 0⟩ := by
  simp only [polygonCentroidByIntegral, assert_true h2, List.length_map, cycPairs_length, assert_true,
    ok_bind, boundaryQuadrature_eq, quadOf_sum]

/-- The square of a point of an edge times the normal, with the rule of two points. -/
theorem gauss_edge (a b n l : K) :
    (a + gaussFirst * (b - a)) * (l * (1 / 2) * n) * (a + gaussFirst * (b - a)) +
      (a + gaussSecond * (b - a)) * (l * (1 / 2) * n) * (a + gaussSecond * (b - a)) =
    l * n * ((a ^ 2 + a * b + b ^ 2) / 3 + gaussError * (b - a) ^ 2) := by
  unfold gaussError
  linear_combination (l * n * a * (b - a)) * (gauss_sum : (gaussFirst + gaussSecond : K) = 1)

theorem edgeNormal_unit {sqrt : K → K} (hs : IsSqrt sqrt) {a b : V3 K} (hz : a.z = b.z) (hab : a ≠ b) :
    (edgeNormal sqrt (a, b)).norm sqrt = 1 := by
  have h := (edgeNormal_isRight hs a b).2.2.1 hz hab
  have e : (edgeNormal sqrt (a, b)).dot (edgeNormal sqrt (a, b)) = 1 * 1 := by
    rw [one_mul, ← h]
    simp only [V3.dot, (edgeNormal_isRight hs a b).1]
    ring
  unfold V3.norm
  rw [e, sqrt_sq_abs hs, abs_one]

theorem lineDistance_edge {sqrt : K → K} (hs : IsSqrt sqrt) {c a b : V3 K} (hz : a.z = b.z) (hab : a ≠ b) :
    IsLineDistance c a b (pointLineDistance sqrt c a (edgeNormal sqrt (a, b))) := by
  obtain ⟨hnz, hn, hu, -⟩ := edgeNormal_isRight hs a b
  have hu := hu hz hab
  have hl := segmentLength_isLength hs a b
  obtain ⟨hx, hy⟩ := hn _ hl
  have e : pointLineDistance sqrt c a (edgeNormal sqrt (a, b)) =
      |(edgeNormal sqrt (a, b)).x * (c.x - a.x) + (edgeNormal sqrt (a, b)).y * (c.y - a.y)| := by
    unfold pointLineDistance
    rw [edgeNormal_unit hs hz hab, div_one]
    simp only [V3.dot, V3.sub, hnz]
    congr 1
    ring
  rw [e]
  generalize (edgeNormal sqrt (a, b)).x = n at *
  generalize (edgeNormal sqrt (a, b)).y = m at *
  generalize segmentLength sqrt a b = l at *
  refine ⟨abs_nonneg _, ?_, ?_⟩
  · intro s
    rw [sq_abs]
    have e1 : n * (c.x - a.x) + m * (c.y - a.y) =
        -(n * (a.x + s * (b.x - a.x) - c.x) + m * (a.y + s * (b.y - a.y) - c.y)) := by
      linear_combination (s * n) * hy - (s * m) * hx
    rw [e1]
    have := sq_nonneg (n * (a.y + s * (b.y - a.y) - c.y) - m * (a.x + s * (b.x - a.x) - c.x))
    generalize a.x + s * (b.x - a.x) - c.x = u at *
    generalize a.y + s * (b.y - a.y) - c.y = v at *
    have : (u ^ 2 + v ^ 2) * (n ^ 2 + m ^ 2) = u ^ 2 + v ^ 2 := by rw [hu, mul_one]
    nlinarith
  · have hl2 : l ≠ 0 := by
      intro h0
      rw [h0] at hx hy
      apply hab
      ext
      · linarith
      · linarith
      · exact hz
    refine ⟨((c.x - a.x) * -m + (c.y - a.y) * n) / l, ?_⟩
    rw [sq_abs]
    have e1 : b.x - a.x = l * -m := by linarith
    have e2 : b.y - a.y = l * n := by linarith
    rw [e1, e2]
    have e3 : ∀ k t : K, k / l * (l * t) = k * t := by intro k t; field_simp
    rw [e3, e3]
    linear_combination ((c.x - a.x) ^ 2 + (c.y - a.y) ^ 2 - ((c.x - a.x) * -m + (c.y - a.y) * n) ^ 2) * hu

theorem foldl_min_spec (a : K) (l : List K) :
    (l.foldl min a = a ∨ l.foldl min a ∈ l) ∧ l.foldl min a ≤ a ∧ ∀ e ∈ l, l.foldl min a ≤ e := by
  induction l generalizing a with
  | nil => simp
  | cons b l ih =>
    obtain ⟨h1, h2, h3⟩ := ih (min a b)
    simp only [List.foldl_cons, List.mem_cons]
    refine ⟨?_, h2.trans (min_le_left _ _), ?_⟩
    · rcases h1 with h | h
      · rcases min_choice a b with h' | h'
        · left; rw [h, h']
        · right; left; rw [h, h']
      · exact .inr (.inr h)
    · rintro e (rfl | he)
      · exact h2.trans (min_le_right _ _)
      · exact h3 e he

theorem minCoeff_spec {l : List K} (h : l ≠ []) :
    ∃ r, minCoeff l = ok r ∧ r ∈ l ∧ ∀ e ∈ l, r ≤ e := by
  cases l with
  | nil => exact absurd rfl h
  | cons a l =>
    obtain ⟨h1, h2, h3⟩ := foldl_min_spec a l
    refine ⟨_, rfl, ?_, ?_⟩
    · rcases h1 with h | h
      · rw [h]; simp
      · simp [h]
    · intro e he
      rcases List.mem_cons.1 he with rfl | he
      · exact h2
      · exact h3 e he

theorem inside_of_near {c a b q : V3 K} {d r : K} (hz : a.z = b.z) (hab : a ≠ b) (hd : IsLineDistance c a b d)
    (hin : 0 ≤ area2 a b c) (hr : r ≤ d) (hr0 : 0 ≤ r) (hq : (q.x - c.x) ^ 2 + (q.y - c.y) ^ 2 ≤ r ^ 2) :
    0 ≤ area2 a b q := by
  have hT : 0 < (b.x - a.x) ^ 2 + (b.y - a.y) ^ 2 := by
    rcases lt_or_eq_of_le (add_nonneg (sq_nonneg (b.x - a.x)) (sq_nonneg (b.y - a.y))) with h | h
    · exact h
    · exfalso
      apply hab
      have h1 := sq_nonneg (b.x - a.x)
      have h2 := sq_nonneg (b.y - a.y)
      have e1 : (b.x - a.x) ^ 2 = 0 := by linarith
      have e2 : (b.y - a.y) ^ 2 = 0 := by linarith
      ext
      · have := pow_eq_zero_iff (two_ne_zero) |>.1 e1; linarith
      · have := pow_eq_zero_iff (two_ne_zero) |>.1 e2; linarith
      · exact hz
  have hw : d ^ 2 * ((b.x - a.x) ^ 2 + (b.y - a.y) ^ 2) ≤ area2 a b c ^ 2 := by
    have h := hd.2.1 (((c.x - a.x) * (b.x - a.x) + (c.y - a.y) * (b.y - a.y)) /
      ((b.x - a.x) ^ 2 + (b.y - a.y) ^ 2))
    have h := mul_le_mul_of_nonneg_right h hT.le
    refine h.trans (le_of_eq ?_)
    unfold area2
    field_simp
    ring
  have hrd : r ^ 2 ≤ d ^ 2 := by gcongr
  have hc : ((b.x - a.x) * (q.y - c.y) - (b.y - a.y) * (q.x - c.x)) ^ 2 ≤
      ((b.x - a.x) ^ 2 + (b.y - a.y) ^ 2) * ((q.x - c.x) ^ 2 + (q.y - c.y) ^ 2) := by
    nlinarith [sq_nonneg ((b.x - a.x) * (q.x - c.x) + (b.y - a.y) * (q.y - c.y))]
  have hx : ((b.x - a.x) * (q.y - c.y) - (b.y - a.y) * (q.x - c.x)) ^ 2 ≤ area2 a b c ^ 2 := by
    have := mul_le_mul_of_nonneg_left (hq.trans hrd) hT.le
    linarith
  have := (abs_le_of_sq_le_sq' hx hin).1
  unfold area2 at this ⊢
  linarith

end ordered

theorem triangle_quadratic (a d e a' d' e' : ℝ) :
    triangleInt (fun u v => (a + u * d + v * e) * (a' + u * d' + v * e')) =
      ((a + (a + d) + (a + e)) * (a' + (a' + d') + (a' + e')) + a * a' + (a + d) * (a' + d') + (a + e) * (a' + e')) / 24 := by
  have h := triangle_sum (Finset.univ : Finset (Fin 6))
    ![a * a', a * d' + a' * d, a * e' + a' * e, d * d', d * e' + d' * e, e * e'] ![0, 1, 0, 2, 1, 0] ![0, 0, 1, 0, 1, 2]
  have e1 : (fun u v : ℝ => (a + u * d + v * e) * (a' + u * d' + v * e')) = fun x y => ∑ i : Fin 6,
      ![a * a', a * d' + a' * d, a * e' + a' * e, d * d', d * e' + d' * e, e * e'] i *
        (x ^ (![0, 1, 0, 2, 1, 0] : Fin 6 → ℕ) i * y ^ (![0, 0, 1, 0, 1, 2] : Fin 6 → ℕ) i) := by
    funext x y
    simp [Fin.sum_univ_succ]
    ring
  rw [e1, h]
  simp only [triangle_monomial]
  simp [Fin.sum_univ_succ, Nat.factorial]
  ring

/-- The value of the rule with three points on a product of affine functions. -/
theorem mass_rule {K : Type} [Field K] [LinearOrder K] [IsStrictOrderedRing K] {u0 u1 u2 w0 w1 w2 D : K}
    (h0 : |u0| ≤ D) (h1 : |u1| ≤ D) (h2 : |u2| ≤ D) (k0 : |w0| ≤ D)
    (k1 : |w1| ≤ D) (k2 : |w2| ≤ D) :
    |((u0 + twoThirds * (u1 - u0) + oneSixth * (u2 - u0)) * (w0 + twoThirds * (w1 - w0) + oneSixth * (w2 - w0)) +
      (u0 + oneSixth * (u1 - u0) + twoThirds * (u2 - u0)) * (w0 + oneSixth * (w1 - w0) + twoThirds * (w2 - w0)) +
      (u0 + oneSixth * (u1 - u0) + oneSixth * (u2 - u0)) * (w0 + oneSixth * (w1 - w0) + oneSixth * (w2 - w0))) *
        oneSixth - ((u0 + u1 + u2) * (w0 + w1 + w2) + u0 * w0 + u1 * w1 + u2 * w2) / 24| ≤
      1 / 10 ^ 16 * D ^ 2 := by
  have hD : 0 ≤ D := (abs_nonneg _).trans h0
  have prod : ∀ {u w : K}, |u| ≤ D → |w| ≤ D → -D ^ 2 ≤ u * w ∧ u * w ≤ D ^ 2 := by
    intro u w hu hw
    rw [← abs_le, abs_mul, sq]
    gcongr
  have p00 := prod h0 k0
  have p01 := prod h0 k1
  have p02 := prod h0 k2
  have p10 := prod h1 k0
  have p11 := prod h1 k1
  have p12 := prod h1 k2
  have p20 := prod h2 k0
  have p21 := prod h2 k1
  have p22 := prod h2 k2
  unfold twoThirds oneSixth
  rw [abs_le]
  constructor <;> linarith [p00.1, p00.2, p01.1, p01.2, p02.1, p02.2, p10.1, p10.2, p11.1, p11.2, p12.1, p12.2,
    p20.1, p20.2, p21.1, p21.2, p22.1, p22.2]

theorem sum_error_le {K : Type} [Field K] [LinearOrder K] [IsStrictOrderedRing K] {α : Type}
    (f g h : α → K) (ε : K) (l : List α) (hl : ∀ a ∈ l, |f a - g a| ≤ ε * h a) :
    |(l.map f).sum - (l.map g).sum| ≤ ε * (l.map h).sum := by
  induction l with
  | nil => simp
  | cons a l ih =>
    simp only [List.map_cons, List.sum_cons]
    have h1 := hl a (by simp)
    have h2 := ih fun b hb => hl b (by simp [hb])
    have h3 := abs_add_le (f a - g a) ((l.map f).sum - (l.map g).sum)
    rw [show f a + (l.map f).sum - (g a + (l.map g).sum) = f a - g a + ((l.map f).sum - (l.map g).sum) by ring,
      mul_add]
    linarith

/-- The sum over the quadrature of a product of two coordinates, against the integral. -/
theorem mass_error (X Y : V3 ℝ → ℝ) (f : ℝ → ℝ → ℝ) (c : V3 ℝ) (D : ℝ) (ts : List (V3 ℝ × V3 ℝ × V3 ℝ))
    (hX : X = V3.x ∨ X = V3.y) (hY : Y = V3.x ∨ Y = V3.y)
    (hf : ∀ p : V3 ℝ, f p.x p.y = (X p - X c) * (Y p - Y c)) (h : WithinOf D c ts) :
    |((triangleQuadrature ts).map fun q => (X q.1 - X c) * (Y q.1 - Y c) * q.2).sum - integralOver f ts| ≤
      1 / 10 ^ 16 * D ^ 2 * (ts.map fun t => |area2 t.1 t.2.1 t.2.2|).sum := by
  unfold triangleQuadrature integralOver
  rw [sum_flatMap]
  apply sum_error_le
  intro t ht
  have hw : ∀ Z : V3 ℝ → ℝ, Z = V3.x ∨ Z = V3.y → ∀ p, p = t.1 ∨ p = t.2.1 ∨ p = t.2.2 → |Z p - Z c| ≤ D := by
    intro Z hZ p hp
    have := h t ht p hp
    rcases hZ with rfl | rfl
    · exact this.1
    · exact this.2
  have hdet : (mapTriangle t.1 t.2.1 t.2.2).det = area2 t.1 t.2.1 t.2.2 := by
    simp only [mapTriangle, AffMap.build, bMatrix, M3.det, area2]
    ring
  have hF : ∀ Z : V3 ℝ → ℝ, Z = V3.x ∨ Z = V3.y → ∀ x y : ℝ, Z ((mapTriangle t.1 t.2.1 t.2.2).F ⟨x, y, 0⟩) - Z c =
      (Z t.1 - Z c) + x * ((Z t.2.1 - Z c) - (Z t.1 - Z c)) + y * ((Z t.2.2 - Z c) - (Z t.1 - Z c)) := by
    rintro Z (rfl | rfl) x y <;>
    · simp only [mapTriangle, AffMap.build, AffMap.F, bMatrix, M3.mulVec, V3.add]
      ring
  have hint : integralOn f t = |area2 t.1 t.2.1 t.2.2| *
      ((((X t.1 - X c) + (X t.2.1 - X c) + (X t.2.2 - X c)) * ((Y t.1 - Y c) + (Y t.2.1 - Y c) + (Y t.2.2 - Y c)) +
        (X t.1 - X c) * (Y t.1 - Y c) + (X t.2.1 - X c) * (Y t.2.1 - Y c) + (X t.2.2 - X c) * (Y t.2.2 - Y c)) / 24) := by
    unfold integralOn
    congr 1
    have := triangle_quadratic (X t.1 - X c) (X t.2.1 - X t.1) (X t.2.2 - X t.1) (Y t.1 - Y c) (Y t.2.1 - Y t.1)
      (Y t.2.2 - Y t.1)
    rw [show X t.1 - X c + (X t.2.1 - X t.1) = X t.2.1 - X c by ring,
      show X t.1 - X c + (X t.2.2 - X t.1) = X t.2.2 - X c by ring,
      show Y t.1 - Y c + (Y t.2.1 - Y t.1) = Y t.2.1 - Y c by ring,
      show Y t.1 - Y c + (Y t.2.2 - Y t.1) = Y t.2.2 - Y c by ring] at this
    rw [← this]
    congr 1
    funext u v
    have := hf ⟨t.1.x + u * (t.2.1.x - t.1.x) + v * (t.2.2.x - t.1.x), t.1.y + u * (t.2.1.y - t.1.y) + v * (t.2.2.y - t.1.y), 0⟩
    simp only at this
    rw [this]
    rcases hX with rfl | rfl <;> rcases hY with rfl | rfl <;> (simp only; ring)
  rw [hint]
  simp only [massPoints, List.map_cons, List.map_nil, List.sum_cons, List.sum_nil, hF X hX, hF Y hY, hdet]
  have key := mass_rule (hw X hX t.1 (.inl rfl)) (hw X hX t.2.1 (.inr (.inl rfl))) (hw X hX t.2.2 (.inr (.inr rfl)))
    (hw Y hY t.1 (.inl rfl)) (hw Y hY t.2.1 (.inr (.inl rfl))) (hw Y hY t.2.2 (.inr (.inr rfl)))
  have := mul_le_mul_of_nonneg_right key (abs_nonneg (area2 t.1 t.2.1 t.2.2))
  refine le_trans (le_of_eq ?_) this
  conv_rhs => rw [← abs_abs (area2 t.1 t.2.1 t.2.2), ← abs_mul]
  congr 1
  ring

end Verif
