import Verif.PointPosModel
import Verif.PointPosSpec
import Verif.IntersectLemmas
import Mathlib.Data.Finset.Max
import Mathlib.Data.Finset.Range

/-
Helper lemmas for the properties of the position of a point.
-/
namespace Verif

open Res

variable {K : Type} [Field K] [LinearOrder K] [IsStrictOrderedRing K]

theorem dist2_nonneg (a b : V3 K) : 0 ≤ dist2 a b := by
  rw [← V3.sub_dot_pointAt]; exact dot_self_nonneg _

theorem cross2_eq (o e p : V3 K) :
    ((p.sub o).cross (e.sub o)).dot ((p.sub o).cross (e.sub o)) = cross2 o e p := by
  simp only [V3.cross, V3.sub, V3.dot, cross2]

/-- The distance from the line never exceeds the distance from a point on it. -/
theorem cross2_le (o e p : V3 K) : cross2 o e p ≤ dist2 o e * dist2 o p := by
  rw [← cross2_eq, lagrange, V3.sub_dot_pointAt, V3.sub_dot_pointAt]
  nlinarith [mul_self_nonneg ((p.sub o).dot (e.sub o))]

theorem coordOn_eq (o e p : V3 K) : curvilinear p o e = coordOn o e p := by
  simp only [curvilinear, coordOn, V3.sub, V3.dot, dot4, dist2]
  ring

/-- Square of the sine of the angle between the direction of the point and the tangent. -/
theorem cross_normalized {sqrt : K → K} (hs : IsSqrt sqrt) (a b : V3 K) (ha : 0 < a.dot a)
    (hb : 0 < b.dot b) :
    ((a.normalized sqrt).cross (b.normalized sqrt)).dot ((a.normalized sqrt).cross (b.normalized sqrt)) =
      (a.cross b).dot (a.cross b) / (a.dot a * b.dot b) := by
  rw [lagrange, lagrange, normalized_dot_self hs a ha, normalized_dot_self hs b hb,
    normalized_dot a b ha hb]
  have pa := norm_pos hs ha
  have pb := norm_pos hs hb
  have ea := norm_sq hs a
  have eb := norm_sq hs b
  generalize a.norm sqrt = l at *
  generalize b.norm sqrt = m at *
  rw [← ea, ← eb]
  have hl := pa.ne'
  have hm := pb.ne'
  field_simp

theorem normalized_zero (sqrt : K → K) (v : V3 K) (h : v.dot v = 0) : v.normalized sqrt = v := by
  rw [V3.normalized, if_neg (by rw [h]; exact lt_irrefl _)]

theorem eq_zero_of_dot (v : V3 K) (h : v.dot v = 0) : v = ⟨0, 0, 0⟩ := by
  simp only [V3.dot] at h
  have hx := mul_self_nonneg v.x
  have hy := mul_self_nonneg v.y
  have hz := mul_self_nonneg v.z
  ext
  · exact mul_self_eq_zero.1 (by linarith)
  · exact mul_self_eq_zero.1 (by linarith)
  · exact mul_self_eq_zero.1 (by linarith)

/-- The first test of `PointSegmentPosition`. -/
theorem onLine_iff {sqrt : K → K} (hs : IsSqrt sqrt) (g : GeoCfg K) (p o e : V3 K) :
    (g.isValueZero ((p.sub o).dot (p.sub o)) g.tol1DSquared ||
      g.isValueZero ((((p.sub o).normalized sqrt).cross ((e.sub o).normalized sqrt)).dot
        (((p.sub o).normalized sqrt).cross ((e.sub o).normalized sqrt))) g.tol1DSquared) = true ↔
    g.OnLine o e p := by
  rw [Bool.or_eq_true, g.zero_sq, g.zero_sq, abs_of_nonneg (dot_self_nonneg _),
    abs_of_nonneg (dot_self_nonneg _)]
  unfold GeoCfg.OnLine
  rw [V3.sub_dot_pointAt]
  by_cases hp : dist2 o p = 0
  · rw [hp]
    simp only [g.tolSq_nonneg, true_or]
  · have hp' : 0 < (p.sub o).dot (p.sub o) := by
      rw [V3.sub_dot_pointAt]; exact lt_of_le_of_ne (dist2_nonneg _ _) (Ne.symm hp)
    by_cases he : dist2 o e = 0
    · have h0 : e.sub o = ⟨0, 0, 0⟩ := eq_zero_of_dot _ (by rw [V3.sub_dot_pointAt]; exact he)
      have h1 : cross2 o e p = 0 := by
        rw [← cross2_eq, h0]; simp [V3.cross, V3.dot]
      have h2 : ((p.sub o).normalized sqrt).cross ((e.sub o).normalized sqrt) = ⟨0, 0, 0⟩ := by
        rw [normalized_zero sqrt (e.sub o) (by rw [V3.sub_dot_pointAt]; exact he), h0]
        simp [V3.cross]
      rw [h2, h1, he]
      simp [V3.dot, g.tolSq_nonneg]
    · have he' : 0 < (e.sub o).dot (e.sub o) := by
        rw [V3.sub_dot_pointAt]; exact lt_of_le_of_ne (dist2_nonneg _ _) (Ne.symm he)
      rw [cross_normalized hs _ _ hp' he', cross2_eq, div_le_iff₀ (mul_pos hp' he'),
        V3.sub_dot_pointAt, V3.sub_dot_pointAt, mul_comm (dist2 o p)]

theorem side_on_line {sqrt : K → K} (hs : IsSqrt sqrt) (g : GeoCfg K) (p o e : V3 K)
    (h : g.OnLine o e p) :
    g.pointSegmentSide sqrt p o e =
      if dist2 o e = 0 then ok .onSegmentLineAfterEnd else g.pointSegmentPosition (coordOn o e p) := by
  unfold GeoCfg.pointSegmentSide
  simp only
  rw [if_pos ((onLine_iff hs g p o e).2 h), V3.sub_dot_pointAt, coordOn_eq]

theorem not_onLine (g : GeoCfg K) (p o e : V3 K) (h : ¬ g.OnLine o e p) :
    0 < dist2 o p ∧ 0 < dist2 o e := by
  unfold GeoCfg.OnLine at h
  rw [not_or, not_le, not_le] at h
  have h1 := lt_of_le_of_lt g.tolSq_nonneg h.1
  refine ⟨h1, ?_⟩
  rcases (dist2_nonneg o e).lt_or_eq with k | k
  · exact k
  · have := cross2_le o e p
    rw [← k, zero_mul] at this h
    rw [mul_zero] at h
    exact absurd h.2 (not_lt.2 this)

theorem area2_sq (o e p : V3 K) (ho : o.z = 0) (he : e.z = 0) (hp : p.z = 0) :
    cross2 o e p = area2 o e p * area2 o e p := by
  simp only [cross2, area2, ho, he, hp]; ring

theorem side_off_line_2d {sqrt : K → K} (hs : IsSqrt sqrt) (g : GeoCfg K) (h0 : 0 ≤ g.minTolerance)
    (h1 : g.tolSq ≤ 1) (p o e : V3 K) (ho : o.z = 0) (he : e.z = 0) (hp : p.z = 0)
    (h : ¬ g.OnLine o e p) :
    g.pointSegmentSide sqrt p o e =
      ok (if area2 o e p < 0 then .rightTheSegment else .leftTheSegment) := by
  obtain ⟨pd, pe⟩ := not_onLine g p o e h
  rw [← V3.sub_dot_pointAt] at pd pe
  have hT0 := g.tol1D_nonneg h0
  have hz : ∀ a b : V3 K, a.z = 0 → b.z = 0 → ((b.sub a).normalized sqrt).z = 0 := by
    intro a b ha hb
    rw [V3.normalized]
    split <;> simp [V3.smul, V3.sub, ha, hb]
  unfold GeoCfg.pointSegmentSide
  simp only
  rw [if_neg (fun k => h ((onLine_iff hs g p o e).1 k)), assert_true, ok_bind]
  swap
  · rw [g.zero_1D h0, g.zero_1D h0, hz _ _ ho he, hz _ _ ho hp, abs_zero]
    exact ⟨hT0, hT0⟩
  have nd := norm_pos hs pd
  have ne := norm_pos hs pe
  have hdot : ((p.sub o).normalized sqrt).dot
      ⟨((e.sub o).normalized sqrt).y, -((e.sub o).normalized sqrt).x, 0⟩ =
      -area2 o e p / ((p.sub o).norm sqrt * (e.sub o).norm sqrt) := by
    rw [V3.normalized, V3.normalized, if_pos pd, if_pos pe]
    change _ = _ / (sqrt ((p.sub o).dot (p.sub o)) * sqrt ((e.sub o).dot (e.sub o)))
    rw [div_eq_mul_inv (-area2 o e p), mul_inv]
    generalize sqrt ((p.sub o).dot (p.sub o)) = l
    generalize sqrt ((e.sub o).dot (e.sub o)) = m
    simp only [V3.smul, V3.dot, V3.sub, area2, one_div]
    ring
  rw [hdot]
  unfold GeoCfg.OnLine at h
  rw [not_or, not_le, not_le, area2_sq o e p ho he hp, ← V3.sub_dot_pointAt, ← V3.sub_dot_pointAt,
    ← norm_sq hs (e.sub o), ← norm_sq hs (p.sub o)] at h
  have hpos := mul_pos nd ne
  by_cases ha : area2 o e p < 0
  · rw [if_pos ha, if_pos]
    rw [g.positive_sq, lt_div_iff₀ hpos]
    have ht := g.tolSq_nonneg
    by_contra hc
    rw [not_lt] at hc
    have h3 := h.2
    have : area2 o e p * area2 o e p ≤ (g.tolSq * ((p.sub o).norm sqrt * (e.sub o).norm sqrt)) *
        (g.tolSq * ((p.sub o).norm sqrt * (e.sub o).norm sqrt)) := by nlinarith
    have h4 : (g.tolSq * ((p.sub o).norm sqrt * (e.sub o).norm sqrt)) *
        (g.tolSq * ((p.sub o).norm sqrt * (e.sub o).norm sqrt)) ≤
        g.tolSq * ((e.sub o).norm sqrt * (e.sub o).norm sqrt *
          ((p.sub o).norm sqrt * (p.sub o).norm sqrt)) := by
      have h5 : 0 ≤ g.tolSq * (1 - g.tolSq) := mul_nonneg ht (by linarith)
      have h6 := mul_nonneg h5 (mul_self_nonneg ((p.sub o).norm sqrt * (e.sub o).norm sqrt))
      nlinarith
    linarith
  · rw [if_neg ha, if_neg]
    rw [g.positive_sq, not_lt]
    rw [not_lt] at ha
    exact le_trans (div_nonpos_of_nonpos_of_nonneg (by linarith) hpos.le) g.tolSq_nonneg

/-- The sign off the line is not zero. -/
theorem area2_ne_zero (g : GeoCfg K) (p o e : V3 K) (ho : o.z = 0) (he : e.z = 0) (hp : p.z = 0)
    (h : ¬ g.OnLine o e p) : area2 o e p ≠ 0 := by
  intro h0
  apply h
  right
  rw [area2_sq o e p ho he hp, h0, zero_mul]
  exact mul_nonneg g.tolSq_nonneg (mul_nonneg (dist2_nonneg _ _) (dist2_nonneg _ _))

/-! ### The loop over the edges of a polygon -/

/-- What `PointPolygonPosition` makes of the position with respect to one edge. -/
def verdict (v n : Nat) : PointSegmentPos → Option PointPolygonPos
  | .rightTheSegment => some .outside
  | .insideSegment => some (.borderEdge v)
  | .onSegmentOrigin => some (.borderVertex v)
  | .onSegmentEnd => some (.borderVertex ((v + 1) % n))
  | _ => none

theorem isEdge_of_lt (vs : List (V3 K)) (v : Nat) (h : v < vs.length) :
    ∃ a b, IsEdge vs v a b := by
  have h2 : (v + 1) % vs.length < vs.length := Nat.mod_lt _ (by omega)
  exact ⟨vs[v], vs[(v + 1) % vs.length], List.getElem?_eq_getElem h, List.getElem?_eq_getElem h2⟩

theorem IsEdge.unique {vs : List (V3 K)} {v : Nat} {a b a' b' : V3 K} (h : IsEdge vs v a b)
    (h' : IsEdge vs v a' b') : a' = a ∧ b' = b := by
  obtain ⟨h1, h2⟩ := h
  obtain ⟨h3, h4⟩ := h'
  rw [h1] at h3
  rw [h2] at h4
  cases h3
  cases h4
  exact ⟨rfl, rfl⟩

theorem IsEdge.lt {vs : List (V3 K)} {v : Nat} {a b : V3 K} (h : IsEdge vs v a b) :
    v < vs.length := by
  by_contra hc
  have := h.1
  rw [List.getElem?_eq_none (not_lt.1 hc)] at this
  cases this

theorem vget_of_some {α : Type} {l : List α} {i : Nat} {a : α} (h : l[i]? = some a) :
    vget l i = ok a := by
  unfold vget; rw [h]

theorem polygonLoop_cons (g : GeoCfg K) (sqrt : K → K) (p : V3 K) (vs : List (V3 K)) (v : Nat)
    (rest : List Nat) (a b : V3 K) (h : IsEdge vs v a b) (s : PointSegmentPos)
    (hs : g.pointSegmentSide sqrt p a b = ok s) :
    g.pointPolygonLoop sqrt p vs (v :: rest) =
      match verdict v vs.length s with
      | some r => ok r
      | none => g.pointPolygonLoop sqrt p vs rest := by
  rw [GeoCfg.pointPolygonLoop, vget_of_some h.1, ok_bind, vget_of_some h.2, ok_bind, hs, ok_bind]
  cases s <;> rfl

/-- The result is that of the first edge with a verdict. -/
theorem polygonLoop_skip (g : GeoCfg K) (sqrt : K → K) (p : V3 K) (vs : List (V3 K))
    (l rest : List Nat)
    (h : ∀ v ∈ l, ∃ a b s, IsEdge vs v a b ∧ g.pointSegmentSide sqrt p a b = ok s ∧
      verdict v vs.length s = none) :
    g.pointPolygonLoop sqrt p vs (l ++ rest) = g.pointPolygonLoop sqrt p vs rest := by
  induction l with
  | nil => rfl
  | cons v l ih =>
    obtain ⟨a, b, s, h1, h2, h3⟩ := h v (by simp)
    rw [List.cons_append, polygonLoop_cons g sqrt p vs v _ a b h1 s h2, h3]
    exact ih (fun w hw => h w (by simp [hw]))

theorem polygonLoop_cases (g : GeoCfg K) (sqrt : K → K) (p : V3 K) (vs : List (V3 K))
    (l : List Nat)
    (h : ∀ v ∈ l, ∃ a b s, IsEdge vs v a b ∧ g.pointSegmentSide sqrt p a b = ok s) :
    (g.pointPolygonLoop sqrt p vs l = ok .inside ∧
      ∀ v ∈ l, ∃ a b s, IsEdge vs v a b ∧ g.pointSegmentSide sqrt p a b = ok s ∧
        verdict v vs.length s = none) ∨
    ∃ v ∈ l, ∃ a b s r, IsEdge vs v a b ∧ g.pointSegmentSide sqrt p a b = ok s ∧
      verdict v vs.length s = some r ∧ g.pointPolygonLoop sqrt p vs l = ok r := by
  induction l with
  | nil => left; exact ⟨rfl, fun v hv => absurd hv (by simp)⟩
  | cons v l ih =>
    obtain ⟨a, b, s, h1, h2⟩ := h v (by simp)
    have hc := polygonLoop_cons g sqrt p vs v l a b h1 s h2
    cases hv : verdict v vs.length s with
    | some r =>
      right
      rw [hv] at hc
      exact ⟨v, by simp, a, b, s, r, h1, h2, hv, hc⟩
    | none =>
      rw [hv] at hc
      simp only at hc
      rcases ih (fun w hw => h w (by simp [hw])) with ⟨i1, i2⟩ | ⟨w, hw, i⟩
      · left
        refine ⟨by rw [hc]; exact i1, ?_⟩
        intro w hw
        rcases List.mem_cons.1 hw with rfl | hw
        · exact ⟨a, b, s, h1, h2, hv⟩
        · exact i2 w hw
      · right
        rw [hc]
        exact ⟨w, by simp [hw], i⟩

/-- In the plane `PointSegmentPosition` always returns. -/
theorem side_total {sqrt : K → K} (hs : IsSqrt sqrt) (g : GeoCfg K) (h0 : 0 ≤ g.minTolerance)
    (hT : g.tol1D < 1 / 2) (h1 : g.tolSq ≤ 1) (p o e : V3 K) (ho : o.z = 0) (he : e.z = 0)
    (hp : p.z = 0) : ∃ s, g.pointSegmentSide sqrt p o e = ok s := by
  by_cases h : g.OnLine o e p
  · rw [side_on_line hs g p o e h]
    split
    · exact ⟨_, rfl⟩
    · exact (c29_position g _ h0 hT).2.2.2.2.2
  · rw [side_off_line_2d hs g h0 h1 p o e ho he hp h]
    exact ⟨_, rfl⟩

theorem pointPolygonPosition_eq (g : GeoCfg K) (sqrt : K → K) (p : V3 K) (vs : List (V3 K))
    (hn : 2 < vs.length) (hp : |p.z| ≤ g.tolerance1D) :
    g.pointPolygonPosition sqrt p vs = g.pointPolygonLoop sqrt p vs (List.range vs.length) := by
  unfold GeoCfg.pointPolygonPosition GeoCfg.pointsAre2D
  rw [assert_true (by simp), ok_bind, ok_bind, assert_true, ok_bind]
  simp [hn, hp]

/-! ### Ray casting -/

theorem window_le {t : K} (ht : 0 ≤ t) (a b : K) : window t a b ≤ t * max 1 |a| := by
  unfold window
  apply mul_le_mul_of_nonneg_left _ ht
  split
  · exact le_max_right _ _
  · exact le_max_left _ _

theorem greater_1D (g : GeoCfg K) (h0 : 0 ≤ g.minTolerance) (a b : K) :
    g.isValueGreater a b g.tol1D = true ↔ b < a ∧ window g.tol1D a b < |b - a| := by
  unfold GeoCfg.isValueGreater
  rw [g.compareValues_eq, g.max_tol1D h0]
  have hw := window_nonneg (g.tol1D_nonneg h0) a b
  split
  · rename_i h; simp; exact fun _ => h
  · rename_i h
    split
    · rename_i h2; simp; exact ⟨h2, not_le.1 h⟩
    · rename_i h2; simp; exact fun k => absurd k h2

/-- The position on the ray with the coordinate `x - p.x`. -/
theorem ray_position (g : GeoCfg K) (h0 : 0 ≤ g.minTolerance) (hT : g.tol1D < 1 / 2) (d : K) :
    (d < -g.tol1D ∧ g.pointSegmentPosition d = ok .onSegmentLineBeforeOrigin) ∨
    (|d| ≤ g.tol1D ∧ g.pointSegmentPosition d = ok .onSegmentOrigin) ∨
    (g.tol1D < d ∧ ∃ s, g.pointSegmentPosition d = ok s ∧
      (s = .insideSegment ∨ s = .onSegmentEnd ∨ s = .onSegmentLineAfterEnd)) := by
  obtain ⟨c1, c2, c3, c4, c5, -⟩ := c29_position g d h0 hT
  rcases lt_or_ge d (-g.tol1D) with h | h
  · exact Or.inl ⟨h, c1.2 h⟩
  · rcases le_or_gt d g.tol1D with h' | h'
    · exact Or.inr (Or.inl ⟨abs_le.2 ⟨h, h'⟩, c2.2 (abs_le.2 ⟨h, h'⟩)⟩)
    · refine Or.inr (Or.inr ⟨h', ?_⟩)
      rcases lt_or_ge d (1 - g.tol1D) with k | k
      · exact ⟨_, c3.2 ⟨h', k⟩, Or.inl rfl⟩
      · rcases le_or_gt d (1 + g.tol1D) with k' | k'
        · exact ⟨_, c4.2 (abs_le.2 ⟨by linarith, by linarith⟩), Or.inr (Or.inl rfl)⟩
        · exact ⟨_, c5.2 k', Or.inr (Or.inr rfl)⟩

open Classical in
/-- What an edge that is clear of the ray adds. -/
theorem rayStep_clear (g : GeoCfg K) (h0 : 0 ≤ g.minTolerance) (hT : g.tol1D < 1 / 2)
    (p a b : V3 K) (v w : Nat) (h : g.ClearOfRay p a b) :
    g.rayStep p a b v w = ok (.count (if MeetsRay p a b then 1 else 0)) := by
  have hT0 := g.tol1D_nonneg h0
  rcases h with ⟨he, hc⟩ | ⟨he, hpa, hc⟩ | ⟨hdy, hs⟩
  · have hm : ¬ MeetsRay p a b := by
      rintro ⟨k | k, -⟩
      · rw [he] at k; exact absurd k.2 (not_le.2 k.1)
      · rw [he] at k; exact absurd k.2 (not_le.2 k.1)
    unfold GeoCfg.rayStep
    simp only
    rw [if_pos ((g.zero_1D h0 _).2 (by
      simp only [V3.sub]; rw [he, sub_self, abs_zero]; exact hT0)),
      if_neg (fun k => absurd ((g.zero_1D h0 _).1 k) (not_le.2 hc)), if_neg hm]
  · have hm : ¬ MeetsRay p a b := by
      rintro ⟨k | k, -⟩
      · rw [he] at k; exact absurd k.2 (not_le.2 k.1)
      · rw [he] at k; exact absurd k.2 (not_le.2 k.1)
    have hd : dist2 a b ≠ 0 := by
      intro hd
      have : coordOn a b p = 0 := by unfold coordOn; rw [hd, div_zero]
      rw [this] at hc
      rcases hc with k | k <;> linarith
    unfold GeoCfg.rayStep
    simp only
    rw [if_pos ((g.zero_1D h0 _).2 (by
      simp only [V3.sub]; rw [he, sub_self, abs_zero]; exact hT0)),
      if_pos ((g.zero_1D h0 _).2 (by rw [hpa, sub_self, abs_zero]; exact hT0)),
      V3.sub_dot_pointAt, if_neg hd, coordOn_eq, if_neg hm]
    obtain ⟨c1, -, -, -, c5, -⟩ := c29_position g (coordOn a b p) h0 hT
    rcases hc with k | k
    · rw [c1.2 k]; rfl
    · rw [c5.2 k]; rfl
  · have hdy' : g.tol1D < |b.y - a.y| := by
      refine lt_of_le_of_lt ?_ hdy
      have := mul_le_mul_of_nonneg_left (le_max_left 1 |p.y|) hT0
      linarith
    have hne : b.y - a.y ≠ 0 := by
      intro k; rw [k, abs_zero] at hdy'; linarith
    generalize hsd : (p.y - a.y) / (b.y - a.y) = s at hs
    have hsp : p.y = a.y + s * (b.y - a.y) := by
      rw [← hsd, div_mul_cancel₀ _ hne]; ring
    obtain ⟨c1, c2, c3, c4, c5, -⟩ := c29_position g s h0 hT
    -- the height of the point between those of the ends
    have hm1 : s < 0 → ¬ MeetsRay p a b := by
      rintro hs0 ⟨⟨k1, k2⟩ | ⟨k1, k2⟩, -⟩
      · rw [hsp] at k1 k2
        have := mul_neg_of_neg_of_pos hs0 (show 0 < b.y - a.y by nlinarith)
        linarith
      · rw [hsp] at k1 k2
        have : 0 < s * (b.y - a.y) := mul_pos_of_neg_of_neg hs0 (by nlinarith)
        linarith
    have hm2 : 1 < s → ¬ MeetsRay p a b := by
      rintro hs0 ⟨⟨k1, k2⟩ | ⟨k1, k2⟩, -⟩
      · rw [hsp] at k1 k2
        have : 0 < (s - 1) * (b.y - a.y) := mul_pos (by linarith) (by nlinarith)
        linarith
      · rw [hsp] at k1 k2
        have : (s - 1) * (b.y - a.y) < 0 := mul_neg_of_pos_of_neg (by linarith) (by nlinarith)
        linarith
    unfold GeoCfg.rayStep
    simp only
    rw [if_neg (fun k => absurd ((g.zero_1D h0 (b.sub a).y).1 k) (not_le.2 hdy'))]
    change (g.pointSegmentPosition ((p.y - a.y) / (b.y - a.y)) >>= _) = _
    rw [hsd]
    rcases hs with hs | hs | ⟨hs, hx⟩
    · rw [c1.2 hs, ok_bind, if_neg (hm1 (by linarith))]
    · rw [c5.2 hs, ok_bind, if_neg (hm2 (by linarith))]
    · have hmx : MeetsRay p a b ↔ (a.y < p.y ∧ p.y ≤ b.y ∨ b.y < p.y ∧ p.y ≤ a.y) ∧
          0 < a.x + s * (b.x - a.x) - p.x := by
        unfold MeetsRay; rw [hsd, sub_pos]
      have hgr : ∀ y, |y - p.y| = |b.y - a.y| →
          (g.isValueGreater p.y y g.tol1D = true ↔ y < p.y) := by
        intro y hy
        rw [greater_1D g h0]
        refine ⟨fun k => k.1, fun k => ⟨k, ?_⟩⟩
        rw [hy]
        exact lt_of_le_of_lt (window_le hT0 _ _) hdy
      generalize hxd : a.x + s * (b.x - a.x) - p.x = d at hmx hx
      have hpos := ray_position g h0 hT d
      rcases hs with hs | hs | hs
      · subst hs
        rw [c2.2 (by rw [abs_zero]; exact hT0), ok_bind]
        simp only [V3.sub]
        rw [hsd, hxd]
        have hpa : p.y = a.y := by rw [hsp]; ring
        rcases hpos with ⟨k, hk⟩ | ⟨k, -⟩ | ⟨k, s', hk, hs'⟩
        · rw [hk, ok_bind, if_neg (c := MeetsRay p a b) (by
            rw [hmx]; rintro ⟨-, k'⟩; linarith)]
        · exact absurd k (not_le.2 hx)
        · rw [hk, ok_bind]
          have e : (if MeetsRay p a b then 1 else 0) =
              (if g.isValueGreater p.y b.y g.tol1D = true then 1 else 0) := by
            apply if_congr _ rfl rfl
            rw [hgr b.y (by rw [hpa]), hmx]
            constructor
            · rintro ⟨⟨k1, k2⟩ | ⟨k1, k2⟩, -⟩
              · exact absurd k1 (by rw [hpa]; exact lt_irrefl _)
              · exact k1
            · intro k'
              exact ⟨Or.inr ⟨k', hpa.le⟩, by linarith⟩
          rw [e]
          rcases hs' with rfl | rfl | rfl <;> rfl
      · subst hs
        rw [c4.2 (by rw [sub_self, abs_zero]; exact hT0), ok_bind]
        simp only [V3.sub]
        rw [hsd, hxd]
        have hpb : p.y = b.y := by rw [hsp]; ring
        rcases hpos with ⟨k, hk⟩ | ⟨k, -⟩ | ⟨k, s', hk, hs'⟩
        · rw [hk, ok_bind, if_neg (c := MeetsRay p a b) (by
            rw [hmx]; rintro ⟨-, k'⟩; linarith)]
        · exact absurd k (not_le.2 hx)
        · rw [hk, ok_bind]
          have e : (if MeetsRay p a b then 1 else 0) =
              (if g.isValueGreater p.y a.y g.tol1D = true then 1 else 0) := by
            apply if_congr _ rfl rfl
            rw [hgr a.y (by rw [hpb, abs_sub_comm]), hmx]
            constructor
            · rintro ⟨⟨k1, k2⟩ | ⟨k1, k2⟩, -⟩
              · exact k1
              · exact absurd k1 (by rw [hpb]; exact lt_irrefl _)
            · intro k'
              exact ⟨Or.inl ⟨k', hpb.le⟩, by linarith⟩
          rw [e]
          rcases hs' with rfl | rfl | rfl <;> rfl
      · rw [c3.2 hs, ok_bind]
        simp only [V3.sub]
        rw [hsd, hxd]
        rcases hpos with ⟨k, hk⟩ | ⟨k, -⟩ | ⟨k, s', hk, hs'⟩
        · rw [hk, ok_bind, if_neg (c := MeetsRay p a b) (by
            rw [hmx]; rintro ⟨-, k'⟩; linarith)]
        · exact absurd k (not_le.2 hx)
        · have hm : MeetsRay p a b := by
            rw [hmx]
            refine ⟨?_, by linarith⟩
            have hs0 : 0 < s := by linarith [hs.1]
            have hs1 : 0 < 1 - s := by linarith [hs.2]
            rcases lt_or_gt_of_ne hne with k' | k'
            · right
              have := mul_neg_of_pos_of_neg hs0 k'
              have := mul_neg_of_pos_of_neg hs1 k'
              constructor <;> linarith
            · left
              have := mul_pos hs0 k'
              have := mul_pos hs1 k'
              constructor <;> linarith
          rw [hk, ok_bind, if_pos hm]
          rcases hs' with rfl | rfl | rfl <;> rfl

theorem rayLoop_cons (g : GeoCfg K) (p : V3 K) (vs : List (V3 K)) (v : Nat) (rest : List Nat)
    (n : Nat) (a b : V3 K) (h : IsEdge vs v a b) (s : RayStep)
    (hs : ok s = g.rayStep p a b v ((v + 1) % vs.length)) :
    g.rayLoop p vs (v :: rest) n =
      (match (generalizing := false) s with
      | .stop r => ok r
      | .count k => g.rayLoop p vs rest (n + k)) := by
  rw [GeoCfg.rayLoop, vget_of_some h.1, ok_bind, vget_of_some h.2, ok_bind, ← hs, ok_bind]
  cases s <;> rfl

open Classical in
theorem rayLoop_clear (g : GeoCfg K) (h0 : 0 ≤ g.minTolerance) (hT : g.tol1D < 1 / 2) (p : V3 K)
    (vs : List (V3 K)) (l rest : List Nat) (n : Nat)
    (h : ∀ v ∈ l, ∃ a b, IsEdge vs v a b ∧ g.ClearOfRay p a b) :
    g.rayLoop p vs (l ++ rest) n = g.rayLoop p vs rest
      (n + (l.filter fun v => ∃ a b, IsEdge vs v a b ∧ MeetsRay p a b).length) := by
  induction l generalizing n with
  | nil => rfl
  | cons v l ih =>
    obtain ⟨a, b, h1, h2⟩ := h v (by simp)
    rw [List.cons_append, rayLoop_cons g p vs v _ n a b h1 _ (rayStep_clear g h0 hT p a b _ _ h2).symm]
    simp only
    rw [ih _ (fun w hw => h w (by simp [hw]))]
    congr 1
    by_cases hm : MeetsRay p a b
    · rw [if_pos hm, List.filter_cons_of_pos (by simp only [decide_eq_true_eq]; exact ⟨a, b, h1, hm⟩), List.length_cons]
      omega
    · rw [if_neg hm, List.filter_cons_of_neg]
      · omega
      · simp only [decide_eq_true_eq]
        rintro ⟨a', b', h1', hm'⟩
        obtain ⟨rfl, rfl⟩ := h1.unique h1'
        exact hm hm'

theorem rayCasting_eq (g : GeoCfg K) (p : V3 K) (vs : List (V3 K))
    (hn : 2 < vs.length) (hp : |p.z| ≤ g.tolerance1D) :
    g.pointPolygonRayCasting p vs = g.rayLoop p vs (List.range vs.length) 0 := by
  unfold GeoCfg.pointPolygonRayCasting GeoCfg.pointsAre2D
  rw [assert_true (by simp), ok_bind, ok_bind, assert_true, ok_bind]
  simp [hn, hp]

/-! ### Ray casting for strictly convex polygons -/

theorem cyclic_walk (n : Nat) (P : Nat → Prop) (h : ∀ v < n, P v → P ((v + 1) % n)) (i j : Nat)
    (hi : i < n) (hj : j < n) (hp : P i) : P j := by
  have hk : ∀ k, P ((i + k) % n) := by
    intro k
    induction k with
    | zero => rw [Nat.add_zero, Nat.mod_eq_of_lt hi]; exact hp
    | succ k ih =>
      have := h _ (Nat.mod_lt _ (by omega)) ih
      rw [Nat.mod_add_mod] at this
      exact this
  have := hk (j + n - i)
  have e : i + (j + n - i) = j + n := by omega
  rw [e, Nat.add_mod_right, Nat.mod_eq_of_lt hj] at this
  exact this

/-- The abscissa at which the line through `a` and `b` has the height `h`. -/
def crossX (a b : V3 K) (h : K) : K := a.x + (h - a.y) / (b.y - a.y) * (b.x - a.x)

theorem area2_crossX (a b p : V3 K) (h : b.y ≠ a.y) :
    area2 a b p = (b.y - a.y) * (crossX a b p.y - p.x) := by
  have hne : b.y - a.y ≠ 0 := sub_ne_zero.2 h
  have := div_mul_cancel₀ (p.y - a.y) hne
  simp only [area2, crossX]
  linear_combination (-(b.x - a.x)) * this

theorem area2_at (m k a b : V3 K) (h z : K) (hne : b.y ≠ a.y) :
    area2 m k ⟨crossX a b h, h, z⟩ = (1 - (h - a.y) / (b.y - a.y)) * area2 m k a +
      (h - a.y) / (b.y - a.y) * area2 m k b := by
  have hne : b.y - a.y ≠ 0 := sub_ne_zero.2 hne
  have := div_mul_cancel₀ (h - a.y) hne
  simp only [area2, crossX]
  linear_combination (-(k.x - m.x)) * this

theorem area2_between (m k a b : V3 K) (h z : K)
    (hh : a.y < h ∧ h ≤ b.y ∨ b.y < h ∧ h ≤ a.y) :
    (0 ≤ area2 m k a → 0 ≤ area2 m k b → 0 ≤ area2 m k ⟨crossX a b h, h, z⟩) ∧
    (0 < area2 m k a → 0 < area2 m k b → 0 < area2 m k ⟨crossX a b h, h, z⟩) := by
  have hne : b.y ≠ a.y := by
    rcases hh with k | k
    · exact ne_of_gt (by linarith [k.1, k.2])
    · exact ne_of_lt (by linarith [k.1, k.2])
  rw [area2_at m k a b h z hne]
  have h01 : 0 ≤ (h - a.y) / (b.y - a.y) ∧ (h - a.y) / (b.y - a.y) ≤ 1 := by
    rcases hh with k | k
    · have : 0 < b.y - a.y := by linarith [k.1, k.2]
      exact ⟨div_nonneg (by linarith [k.1]) this.le, (div_le_one this).2 (by linarith [k.2])⟩
    · have : b.y - a.y < 0 := by linarith [k.1, k.2]
      exact ⟨div_nonneg_of_nonpos (by linarith [k.2]) this.le,
        (div_le_one_of_neg this).2 (by linarith [k.1])⟩
  generalize (h - a.y) / (b.y - a.y) = s at h01
  obtain ⟨k0, k1⟩ := h01
  have k1' : 0 ≤ 1 - s := by linarith
  constructor
  · intro ha hb
    exact add_nonneg (mul_nonneg k1' ha) (mul_nonneg k0 hb)
  · intro ha hb
    rcases eq_or_lt_of_le k0 with k | k
    · rw [← k]; simpa using ha
    · exact add_pos_of_nonneg_of_pos (mul_nonneg k1' ha.le) (mul_pos k hb)

theorem StrictlyConvex.nonneg {vs : List (V3 K)} (hc : StrictlyConvex vs) {v i : Nat} {a b c : V3 K}
    (he : IsEdge vs v a b) (hi : vs[i]? = some c) : 0 ≤ area2 a b c := by
  by_cases h1 : i = v
  · subst h1
    have := he.1
    rw [hi] at this
    cases this
    exact le_of_eq (by simp only [area2]; ring)
  · by_cases h2 : i = (v + 1) % vs.length
    · have := he.2
      rw [← h2, hi] at this
      cases this
      exact le_of_eq (by simp only [area2]; ring)
    · exact (hc.2 v a b he i c hi h1 h2).le

theorem next_ne {n v w : Nat} (hv : v < n) (hw : w < n) (h : v ≠ w) :
    (v + 1) % n ≠ (w + 1) % n := by
  intro k
  have h1 : (v + 1) % n = if v + 1 = n then 0 else v + 1 := by
    split
    · rename_i e; rw [e, Nat.mod_self]
    · exact Nat.mod_eq_of_lt (by omega)
  have h2 : (w + 1) % n = if w + 1 = n then 0 else w + 1 := by
    split
    · rename_i e; rw [e, Nat.mod_self]
    · exact Nat.mod_eq_of_lt (by omega)
  rw [h1, h2] at k
  split at k <;> split at k <;> omega

theorem up_unique {vs : List (V3 K)} (hc : StrictlyConvex vs) {v w : Nat} {a b c d : V3 K} {h : K}
    (he : IsEdge vs v a b) (hf : IsEdge vs w c d) (h1 : a.y < h ∧ h ≤ b.y)
    (h2 : c.y < h ∧ h ≤ d.y) : v = w := by
  by_contra hvw
  have key : ∀ {v w : Nat} {a b c d : V3 K}, IsEdge vs v a b → IsEdge vs w c d →
      (a.y < h ∧ h ≤ b.y) → (c.y < h ∧ h ≤ d.y) → v ≠ w → crossX c d h < crossX a b h := by
    intro v w a b c d he hf h1 h2 hvw
    have ac : 0 < area2 a b c := by
      refine hc.2 v a b he w c hf.1 (Ne.symm hvw) ?_
      intro k
      have := he.2
      rw [← k, hf.1] at this
      cases this
      linarith [h1.2, h2.1]
    have ad : 0 < area2 a b d := by
      refine hc.2 v a b he _ d hf.2 ?_ (next_ne hf.lt he.lt (Ne.symm hvw))
      intro k
      have := hf.2
      rw [k, he.1] at this
      cases this
      linarith [h1.1, h2.2]
    have := (area2_between a b c d h 0 (Or.inl h2)).2 ac ad
    rw [area2_crossX _ _ _ (by linarith [h1.1, h1.2] : b.y > a.y).ne'] at this
    have := (mul_pos_iff_of_pos_left (by linarith [h1.1, h1.2] : 0 < b.y - a.y)).1 this
    simp only at this
    linarith
  have k1 := key he hf h1 h2 hvw
  have k2 := key hf he h2 h1 (Ne.symm hvw)
  linarith

theorem down_unique {vs : List (V3 K)} (hc : StrictlyConvex vs) {v w : Nat} {a b c d : V3 K} {h : K}
    (he : IsEdge vs v a b) (hf : IsEdge vs w c d) (h1 : b.y < h ∧ h ≤ a.y)
    (h2 : d.y < h ∧ h ≤ c.y) : v = w := by
  by_contra hvw
  have key : ∀ {v w : Nat} {a b c d : V3 K}, IsEdge vs v a b → IsEdge vs w c d →
      (b.y < h ∧ h ≤ a.y) → (d.y < h ∧ h ≤ c.y) → v ≠ w → crossX a b h < crossX c d h := by
    intro v w a b c d he hf h1 h2 hvw
    have ac : 0 < area2 a b c := by
      refine hc.2 v a b he w c hf.1 (Ne.symm hvw) ?_
      intro k
      have := he.2
      rw [← k, hf.1] at this
      cases this
      linarith [h1.1, h2.2]
    have ad : 0 < area2 a b d := by
      refine hc.2 v a b he _ d hf.2 ?_ (next_ne hf.lt he.lt (Ne.symm hvw))
      intro k
      have := hf.2
      rw [k, he.1] at this
      cases this
      linarith [h1.2, h2.1]
    have := (area2_between a b c d h 0 (Or.inr h2)).2 ac ad
    rw [area2_crossX _ _ _ (by linarith [h1.1, h1.2] : b.y < a.y).ne] at this
    have := neg_of_mul_pos_right this (by linarith [h1.1, h1.2] : b.y - a.y ≤ 0)
    simp only at this
    linarith
  have k1 := key he hf h1 h2 hvw
  have k2 := key hf he h2 h1 (Ne.symm hvw)
  linarith

theorem up_right_of_down {vs : List (V3 K)} (hc : StrictlyConvex vs) {v w : Nat} {a b c d : V3 K}
    {h : K} (he : IsEdge vs v a b) (hf : IsEdge vs w c d) (h1 : a.y < h ∧ h ≤ b.y)
    (h2 : d.y < h ∧ h ≤ c.y) : crossX c d h ≤ crossX a b h := by
  have := (area2_between a b c d h 0 (Or.inr h2)).1 (hc.nonneg he hf.1) (hc.nonneg he hf.2)
  rw [area2_crossX _ _ _ (by linarith [h1.1, h1.2] : b.y > a.y).ne'] at this
  have := nonneg_of_mul_nonneg_right this (by linarith [h1.1, h1.2] : 0 < b.y - a.y)
  simp only at this
  linarith

/-- If there are vertices below and not below the height `h`, there are edges up and down. -/
theorem exists_up (vs : List (V3 K)) (h : K) (i j : Nat) (a b : V3 K) (hi : vs[i]? = some a)
    (hj : vs[j]? = some b) (ha : a.y < h) (hb : h ≤ b.y) :
    (∃ v a b, IsEdge vs v a b ∧ a.y < h ∧ h ≤ b.y) ∧
    (∃ v a b, IsEdge vs v a b ∧ b.y < h ∧ h ≤ a.y) := by
  have li : i < vs.length := by
    by_contra k; rw [List.getElem?_eq_none (not_lt.1 k)] at hi; cases hi
  have lj : j < vs.length := by
    by_contra k; rw [List.getElem?_eq_none (not_lt.1 k)] at hj; cases hj
  constructor
  · by_contra hno
    push Not at hno
    have := cyclic_walk vs.length (fun v => ∀ c, vs[v]? = some c → c.y < h) (fun v hv hp c hc => by
      obtain ⟨a', b', he⟩ := isEdge_of_lt vs v hv
      have := he.2
      rw [hc] at this
      cases this
      exact hno v a' c he (hp a' he.1)) i j li lj (fun c hc => by
        rw [hi] at hc; cases hc; exact ha)
    exact absurd (this b hj) (not_lt.2 hb)
  · by_contra hno
    push Not at hno
    have := cyclic_walk vs.length (fun v => ∀ c, vs[v]? = some c → h ≤ c.y) (fun v hv hp c hc => by
      obtain ⟨a', b', he⟩ := isEdge_of_lt vs v hv
      have := he.2
      rw [hc] at this
      cases this
      by_contra hlt
      exact absurd (hp a' he.1) (not_le.2 (hno v a' c he (not_le.1 hlt)))) j i lj li (fun c hc => by
        rw [hj] at hc; cases hc; exact hb)
    exact absurd (this a hi) (not_le.2 ha)

/-- The edge after and the edge before an edge. -/
theorem IsEdge.next {vs : List (V3 K)} {v : Nat} {a b : V3 K} (h : IsEdge vs v a b) :
    ∃ c, IsEdge vs ((v + 1) % vs.length) b c := by
  have hlt : (v + 1) % vs.length < vs.length := Nat.mod_lt _ (by have := h.lt; omega)
  obtain ⟨b', c, he⟩ := isEdge_of_lt vs _ hlt
  have := he.1
  rw [h.2] at this
  cases this
  exact ⟨c, he⟩

theorem IsEdge.prev {vs : List (V3 K)} {v : Nat} {a b : V3 K} (h : IsEdge vs v a b) :
    ∃ w z, IsEdge vs w z a ∧ (w + 1) % vs.length = v := by
  have hv := h.lt
  have hw : (v + vs.length - 1) % vs.length < vs.length := Nat.mod_lt _ (by omega)
  have e1 : ((v + vs.length - 1) % vs.length + 1) % vs.length = v := by
    rw [Nat.mod_add_mod]
    have : v + vs.length - 1 + 1 = v + vs.length := by omega
    rw [this, Nat.add_mod_right, Nat.mod_eq_of_lt hv]
  obtain ⟨z, a', he⟩ := isEdge_of_lt vs _ hw
  have := he.2
  rw [e1, h.1] at this
  cases this
  exact ⟨_, z, he, e1⟩

/-- If `p` is left of all edges of a strictly convex polygon, some edge goes up at its height. -/
theorem exists_up_of_inside {vs : List (V3 K)} (hc : StrictlyConvex vs) (p : V3 K)
    (hin : ∀ v a b, IsEdge vs v a b → 0 < area2 a b p) :
    ∃ v a b, IsEdge vs v a b ∧ a.y < p.y ∧ p.y ≤ b.y := by
  have hn : 0 < vs.length := by have := hc.1; omega
  -- the three areas at the vertex `a`
  have corner : ∀ (i : Nat) a, vs[i]? = some a → ∃ z b, (∃ j : Nat, vs[j]? = some z) ∧ (∃ j : Nat, vs[j]? = some b) ∧
      0 < area2 z a b ∧ 0 < area2 a b p ∧ 0 < area2 z a p ∧
      area2 z a b * (p.y - a.y) = area2 z a p * (b.y - a.y) + area2 a b p * (z.y - a.y) := by
    intro i a hi
    have li : i < vs.length := by
      by_contra k; rw [List.getElem?_eq_none (not_lt.1 k)] at hi; cases hi
    obtain ⟨a', b, he⟩ := isEdge_of_lt vs i li
    have := he.1
    rw [hi] at this
    cases this
    obtain ⟨w, z, hz, hw⟩ := he.prev
    refine ⟨z, b, ⟨_, hz.1⟩, ⟨_, he.2⟩, ?_, hin _ _ _ he, hin _ _ _ hz, ?_⟩
    · refine hc.2 w z a hz _ b he.2 ?_ ?_
      · intro k
        have h3 := hc.1
        have hwl := hz.lt
        rw [← hw] at k
        have h1 : (w + 1) % vs.length = if w + 1 = vs.length then 0 else w + 1 := by
          split
          · rename_i e; rw [e, Nat.mod_self]
          · exact Nat.mod_eq_of_lt (by omega)
        rw [h1] at k
        split at k
        · rw [Nat.zero_add, Nat.mod_eq_of_lt (by omega)] at k; omega
        · by_cases e : w + 1 + 1 = vs.length
          · rw [e, Nat.mod_self] at k; omega
          · rw [Nat.mod_eq_of_lt (by omega)] at k; omega
      · intro k
        rw [← hw] at k
        have h3 := hc.1
        exact next_ne (Nat.mod_lt (w + 1) hn) hz.lt (by
          intro k'
          have hwl := hz.lt
          by_cases e : w + 1 = vs.length
          · rw [e, Nat.mod_self] at k'; omega
          · rw [Nat.mod_eq_of_lt (by omega)] at k'; omega) k
    · simp only [area2]; ring
  -- a vertex below
  let f : Nat → K := fun i => (vs.getD i ⟨0, 0, 0⟩).y
  have hf : ∀ (i : Nat) c, vs[i]? = some c → f i = c.y := by
    intro i c h; simp only [f]; rw [List.getD_eq_getElem?_getD, h]; rfl
  have hlt : ∀ (i : Nat) c, vs[i]? = some c → i < vs.length := by
    intro i c h; by_contra k; rw [List.getElem?_eq_none (not_lt.1 k)] at h; cases h
  have hne : (Finset.range vs.length).Nonempty := ⟨0, Finset.mem_range.2 hn⟩
  have hlow : ∃ (i : Nat) (a : V3 K), vs[i]? = some a ∧ a.y < p.y := by
    by_contra hno
    push Not at hno
    obtain ⟨i, hi, hmin⟩ := Finset.exists_min_image (Finset.range vs.length) f hne
    have hi' := List.getElem?_eq_getElem (Finset.mem_range.1 hi)
    obtain ⟨z, b, ⟨jz, hz⟩, ⟨jb, hb⟩, c1, c2, c3, c4⟩ := corner i _ hi'
    generalize vs[i]'(Finset.mem_range.1 hi) = a at *
    have hza : a.y ≤ z.y := by
      have := hmin jz (Finset.mem_range.2 (hlt _ _ hz))
      rwa [hf _ _ hi', hf _ _ hz] at this
    have hba : a.y ≤ b.y := by
      have := hmin jb (Finset.mem_range.2 (hlt _ _ hb))
      rwa [hf _ _ hi', hf _ _ hb] at this
    have hpa := hno i a hi'
    have l1 : area2 z a b * (p.y - a.y) ≤ 0 := mul_nonpos_of_nonneg_of_nonpos c1.le (by linarith)
    have l2 := mul_nonneg c3.le (show 0 ≤ b.y - a.y by linarith)
    have l3 := mul_nonneg c2.le (show 0 ≤ z.y - a.y by linarith)
    have e1 : area2 z a p * (b.y - a.y) = 0 := by linarith
    have e2 : area2 a b p * (z.y - a.y) = 0 := by linarith
    have e1' := (mul_eq_zero.1 e1).resolve_left c3.ne'
    have e2' := (mul_eq_zero.1 e2).resolve_left c2.ne'
    have : area2 z a b = 0 := by
      simp only [area2]
      linear_combination (a.x - z.x) * (e1' - e2') + (b.x - z.x) * e2'
    linarith
  have hhigh : ∃ (i : Nat) (a : V3 K), vs[i]? = some a ∧ p.y ≤ a.y := by
    by_contra hno
    push Not at hno
    obtain ⟨i, hi, hmax⟩ := Finset.exists_max_image (Finset.range vs.length) f hne
    have hi' := List.getElem?_eq_getElem (Finset.mem_range.1 hi)
    obtain ⟨z, b, ⟨jz, hz⟩, ⟨jb, hb⟩, c1, c2, c3, c4⟩ := corner i _ hi'
    generalize vs[i]'(Finset.mem_range.1 hi) = a at *
    have hza : z.y ≤ a.y := by
      have := hmax jz (Finset.mem_range.2 (hlt _ _ hz))
      rwa [hf _ _ hi', hf _ _ hz] at this
    have hba : b.y ≤ a.y := by
      have := hmax jb (Finset.mem_range.2 (hlt _ _ hb))
      rwa [hf _ _ hi', hf _ _ hb] at this
    have hpa := hno i a hi'
    have l1 : 0 < area2 z a b * (p.y - a.y) := mul_pos c1 (by linarith)
    have l2 := mul_nonpos_of_nonneg_of_nonpos c3.le (show b.y - a.y ≤ 0 by linarith)
    have l3 := mul_nonpos_of_nonneg_of_nonpos c2.le (show z.y - a.y ≤ 0 by linarith)
    linarith
  obtain ⟨i, a, hi, ha⟩ := hlow
  obtain ⟨j, b, hj, hb⟩ := hhigh
  exact (exists_up vs p.y i j a b hi hj ha hb).1

open Classical in
/-- The number of elements with a property that only one element can have. -/
theorem filter_unique (n : Nat) (P : Nat → Prop) [DecidablePred P]
    (h : ∀ v w, v < n → w < n → P v → P w → v = w) :
    ((List.range n).filter fun v => decide (P v)).length = if ∃ v < n, P v then 1 else 0 := by
  induction n with
  | zero => simp
  | succ n ih =>
    have ih' := ih (fun v w hv hw => h v w (by omega) (by omega))
    rw [List.range_succ, List.filter_append, List.length_append]
    by_cases hn : P n
    · have h1 : (List.range n).filter (fun v => decide (P v)) = [] := by
        rw [List.filter_eq_nil_iff]
        intro v hv
        simp only [decide_eq_true_eq]
        intro k
        have := h v n (by have := List.mem_range.1 hv; omega) (by omega) k hn
        have := List.mem_range.1 hv
        omega
      rw [h1, if_pos ⟨n, by omega, hn⟩]
      simp [hn]
    · have e : (∃ v < n + 1, P v) ↔ ∃ v < n, P v := by
        constructor
        · rintro ⟨v, hv, k⟩
          refine ⟨v, ?_, k⟩
          rcases Nat.lt_succ_iff_lt_or_eq.1 hv with k' | rfl
          · exact k'
          · exact absurd k hn
        · rintro ⟨v, hv, k⟩; exact ⟨v, by omega, k⟩
      classical
      rw [ih']
      simp [hn, e]

theorem filter_or_length (l : List Nat) (P Q : Nat → Prop) [DecidablePred P] [DecidablePred Q]
    (h : ∀ v ∈ l, ¬ (P v ∧ Q v)) :
    (l.filter fun v => decide (P v ∨ Q v)).length =
      (l.filter fun v => decide (P v)).length + (l.filter fun v => decide (Q v)).length := by
  induction l with
  | nil => rfl
  | cons v l ih =>
    have := ih (fun w hw => h w (by simp [hw]))
    have hv := h v (by simp)
    simp only [Bool.decide_or] at this
    by_cases hp : P v <;> by_cases hq : Q v
    · exact absurd ⟨hp, hq⟩ hv
    all_goals simp [List.filter_cons, hp, hq, this]
    all_goals omega

/-- The even-odd rule for a strictly convex polygon. -/
theorem evenOdd_convex {vs : List (V3 K)} (hc : StrictlyConvex vs) (p : V3 K)
    (hoff : ∀ v a b, IsEdge vs v a b → area2 a b p ≠ 0) :
    InsideEvenOdd vs p ↔ ∀ v a b, IsEdge vs v a b → 0 < area2 a b p := by
  classical
  let U : Nat → Prop := fun v => ∃ a b, IsEdge vs v a b ∧ (a.y < p.y ∧ p.y ≤ b.y) ∧ 0 < area2 a b p
  let D : Nat → Prop := fun v => ∃ a b, IsEdge vs v a b ∧ (b.y < p.y ∧ p.y ≤ a.y) ∧ area2 a b p < 0
  have hup : ∀ a b : V3 K, a.y < p.y ∧ p.y ≤ b.y →
      (p.x < crossX a b p.y ↔ 0 < area2 a b p) := by
    intro a b h
    rw [area2_crossX a b p (by linarith [h.1, h.2] : b.y > a.y).ne',
      mul_pos_iff_of_pos_left (by linarith [h.1, h.2] : 0 < b.y - a.y), sub_pos]
  have hdown : ∀ a b : V3 K, b.y < p.y ∧ p.y ≤ a.y →
      (p.x < crossX a b p.y ↔ area2 a b p < 0) := by
    intro a b h
    rw [area2_crossX a b p (by linarith [h.1, h.2] : b.y < a.y).ne]
    have hneg : b.y - a.y < 0 := by linarith [h.1, h.2]
    constructor
    · intro k; exact mul_neg_of_neg_of_pos hneg (by linarith)
    · intro k
      by_contra hc'
      have := mul_nonneg_of_nonpos_of_nonpos hneg.le (show crossX a b p.y - p.x ≤ 0 by linarith)
      linarith
  have hcount : ((List.range vs.length).filter fun v =>
      ∃ a b, IsEdge vs v a b ∧ MeetsRay p a b).length =
      (if ∃ v < vs.length, U v then 1 else 0) + (if ∃ v < vs.length, D v then 1 else 0) := by
    have e : (fun v => decide (∃ a b, IsEdge vs v a b ∧ MeetsRay p a b)) =
        fun v => decide (U v ∨ D v) := by
      funext v
      apply decide_eq_decide.2
      constructor
      · rintro ⟨a, b, he, k | k, hx⟩
        · exact Or.inl ⟨a, b, he, k, (hup a b k).1 hx⟩
        · exact Or.inr ⟨a, b, he, k, (hdown a b k).1 hx⟩
      · rintro (⟨a, b, he, k, hx⟩ | ⟨a, b, he, k, hx⟩)
        · exact ⟨a, b, he, Or.inl k, (hup a b k).2 hx⟩
        · exact ⟨a, b, he, Or.inr k, (hdown a b k).2 hx⟩
    rw [e, filter_or_length, filter_unique, filter_unique]
    · rintro v w - - ⟨a, b, he, k, -⟩ ⟨c, d, hf, k', -⟩
      exact down_unique hc he hf k k'
    · rintro v w - - ⟨a, b, he, k, -⟩ ⟨c, d, hf, k', -⟩
      exact up_unique hc he hf k k'
    · rintro v - ⟨⟨a, b, he, k, -⟩, ⟨c, d, hf, k', -⟩⟩
      obtain ⟨rfl, rfl⟩ := he.unique hf
      linarith [k.1, k'.2, k.2, k'.1]
  unfold InsideEvenOdd
  have hcount' : ((List.range vs.length).filter fun v =>
      @decide (∃ a b, IsEdge vs v a b ∧ MeetsRay p a b) (Classical.propDecidable _)).length =
      (if ∃ v < vs.length, U v then 1 else 0) + (if ∃ v < vs.length, D v then 1 else 0) := by
    rw [← hcount]
  rw [hcount']
  constructor
  · intro hodd
    by_cases hU : ∃ v < vs.length, U v
    · by_cases hD : ∃ v < vs.length, D v
      · rw [if_pos hU, if_pos hD] at hodd; omega
      · obtain ⟨v, -, a, b, he, k, hx⟩ := hU
        obtain ⟨w, c, d, hf, k'⟩ := (exists_up vs p.y _ _ a b he.1 he.2 k.1 k.2).2
        have hx' : ¬ p.x < crossX c d p.y := by
          intro hx'
          exact hD ⟨w, hf.lt, c, d, hf, k', (hdown c d k').1 hx'⟩
        have hux := (hup a b k).2 hx
        intro u m l hml
        have q1 := (area2_between m l a b p.y 0 (Or.inl k)).1 (hc.nonneg hml he.1) (hc.nonneg hml he.2)
        have q2 := (area2_between m l c d p.y 0 (Or.inr k')).1 (hc.nonneg hml hf.1) (hc.nonneg hml hf.2)
        have e : (crossX a b p.y - crossX c d p.y) * area2 m l p =
            (crossX a b p.y - p.x) * area2 m l ⟨crossX c d p.y, p.y, 0⟩ +
            (p.x - crossX c d p.y) * area2 m l ⟨crossX a b p.y, p.y, 0⟩ := by
          simp only [area2]; ring
        have r1 := mul_nonneg (show 0 ≤ crossX a b p.y - p.x by linarith) q2
        have r2 := mul_nonneg (show 0 ≤ p.x - crossX c d p.y by linarith) q1
        have r3 : 0 ≤ (crossX a b p.y - crossX c d p.y) * area2 m l p := by linarith
        have := nonneg_of_mul_nonneg_right r3 (show 0 < crossX a b p.y - crossX c d p.y by linarith)
        exact lt_of_le_of_ne this (Ne.symm (hoff u m l hml))
    · by_cases hD : ∃ v < vs.length, D v
      · exfalso
        obtain ⟨w, -, c, d, hf, k', hx⟩ := hD
        obtain ⟨v, a, b, he, k⟩ := (exists_up vs p.y _ _ d c hf.2 hf.1 k'.1 k'.2).1
        have hle := up_right_of_down hc he hf k k'
        have := (hdown c d k').2 hx
        exact hU ⟨v, he.lt, a, b, he, k, (hup a b k).1 (by linarith)⟩
      · rw [if_neg hU, if_neg hD] at hodd; omega
  · intro hin
    obtain ⟨v, a, b, he, k⟩ := exists_up_of_inside hc p hin
    rw [if_pos ⟨v, he.lt, a, b, he, k, hin v a b he⟩, if_neg]
    rintro ⟨w, -, c, d, hf, -, hx⟩
    linarith [hin w c d hf]

/-- Where `p` is if an edge ends the search. -/
theorem rayStep_stop (g : GeoCfg K) (h0 : 0 ≤ g.minTolerance) (hT : g.tol1D < 1 / 2)
    (p a b : V3 K) (ha : a.z = 0) (hb : b.z = 0) (hp : p.z = 0) (v w : Nat)
    (hab : a.y = b.y ∨ g.tol1D < |b.y - a.y|) :
    (∃ n, g.rayStep p a b v w = ok (.count n)) ∨
    ∃ r s, g.rayStep p a b v w = ok (.stop r) ∧ |(pointAt a b s).x - p.x| ≤ g.tol1D ∧
      |(pointAt a b s).y - p.y| ≤ g.tol1D ∧
      ((r = .borderEdge v ∧ g.tol1D < s ∧ s < 1 - g.tol1D) ∨ (r = .borderVertex v ∧ |s| ≤ g.tol1D) ∨
       (r = .borderVertex w ∧ |s - 1| ≤ g.tol1D)) := by
  have hT0 := g.tol1D_nonneg h0
  rcases hab with hab | hab
  · unfold GeoCfg.rayStep
    simp only
    rw [if_pos ((g.zero_1D h0 _).2 (by
      simp only [V3.sub]; rw [hab, sub_self, abs_zero]; exact hT0))]
    by_cases hy : |p.y - a.y| ≤ g.tol1D
    · rw [if_pos ((g.zero_1D h0 _).2 hy), V3.sub_dot_pointAt]
      by_cases hd : dist2 a b = 0
      · rw [if_pos hd]; left; exact ⟨0, rfl⟩
      · rw [if_neg hd, coordOn_eq]
        have hx : (pointAt a b (coordOn a b p)).x - p.x = 0 := by
          have : coordOn a b p * dist2 a b = dot4 a p a b := by
            unfold coordOn; rw [div_mul_cancel₀ _ hd]
          apply mul_right_cancel₀ hd
          simp only [pointAt]
          simp only [dist2, dot4, ha, hb, hp, hab] at this ⊢
          linear_combination (b.x - a.x) * this
        have hy' : |(pointAt a b (coordOn a b p)).y - p.y| ≤ g.tol1D := by
          rw [abs_sub_comm] at hy
          have : (pointAt a b (coordOn a b p)).y - p.y = a.y - p.y := by
            simp only [pointAt]; rw [hab]; ring
          rw [this]; exact hy
        have hx' : |(pointAt a b (coordOn a b p)).x - p.x| ≤ g.tol1D := by
          rw [hx, abs_zero]; exact hT0
        obtain ⟨c1, c2, c3, c4, c5, s, hs⟩ := c29_position g (coordOn a b p) h0 hT
        have hs' := hs
        unfold GeoCfg.pointSegmentPosition at hs'
        rw [hs] at c1 c2 c3 c4 c5 ⊢
        rw [ok_bind]
        cases s
        · exfalso; repeat' split at hs'
          all_goals cases hs'
        · exfalso; repeat' split at hs'
          all_goals cases hs'
        · left; exact ⟨0, rfl⟩
        · right; exact ⟨_, _, rfl, hx', hy', Or.inr (Or.inl ⟨rfl, c2.1 rfl⟩)⟩
        · right; exact ⟨_, _, rfl, hx', hy', Or.inl ⟨rfl, c3.1 rfl⟩⟩
        · right; exact ⟨_, _, rfl, hx', hy', Or.inr (Or.inr ⟨rfl, c4.1 rfl⟩)⟩
        · left; exact ⟨0, rfl⟩
    · rw [if_neg (fun k => hy ((g.zero_1D h0 _).1 k))]
      left; exact ⟨0, rfl⟩
  · have hne : b.y - a.y ≠ 0 := by
      intro k; rw [k, abs_zero] at hab; linarith
    unfold GeoCfg.rayStep
    simp only
    rw [if_neg (fun k => absurd ((g.zero_1D h0 (b.sub a).y).1 k) (not_le.2 hab))]
    change (∃ n, (g.pointSegmentPosition ((p.y - a.y) / (b.y - a.y)) >>= _) = _) ∨
      ∃ r s, (g.pointSegmentPosition ((p.y - a.y) / (b.y - a.y)) >>= _) = _ ∧ _
    simp only [V3.sub]
    have hsp := div_mul_cancel₀ (p.y - a.y) hne
    generalize (p.y - a.y) / (b.y - a.y) = s at hsp
    have hy' : |(pointAt a b s).y - p.y| ≤ g.tol1D := by
      have : (pointAt a b s).y - p.y = 0 := by
        simp only [pointAt]; linear_combination hsp
      rw [this, abs_zero]; exact hT0
    have hx' : |a.x + s * (b.x - a.x) - p.x| ≤ g.tol1D → |(pointAt a b s).x - p.x| ≤ g.tol1D :=
      fun h => h
    generalize a.x + s * (b.x - a.x) - p.x = d at hx'
    have hpos := ray_position g h0 hT d
    obtain ⟨c1, c2, c3, c4, c5, e, he⟩ := c29_position g s h0 hT
    have he' := he
    unfold GeoCfg.pointSegmentPosition at he'
    rw [he] at c1 c2 c3 c4 c5 ⊢
    rw [ok_bind]
    cases e
    · exfalso; repeat' split at he'
      all_goals cases he'
    · exfalso; repeat' split at he'
      all_goals cases he'
    · left; exact ⟨0, rfl⟩
    · rcases hpos with ⟨-, k⟩ | ⟨k', k⟩ | ⟨-, t, k, rfl | rfl | rfl⟩
      · left; rw [k]; exact ⟨_, rfl⟩
      · right; rw [k]; exact ⟨_, s, rfl, hx' k', hy', Or.inr (Or.inl ⟨rfl, c2.1 rfl⟩)⟩
      all_goals left; rw [k]; exact ⟨_, rfl⟩
    · rcases hpos with ⟨-, k⟩ | ⟨k', k⟩ | ⟨-, t, k, rfl | rfl | rfl⟩
      · left; rw [k]; exact ⟨_, rfl⟩
      · right; rw [k]; exact ⟨_, s, rfl, hx' k', hy', Or.inl ⟨rfl, c3.1 rfl⟩⟩
      all_goals left; rw [k]; exact ⟨_, rfl⟩
    · rcases hpos with ⟨-, k⟩ | ⟨k', k⟩ | ⟨-, t, k, rfl | rfl | rfl⟩
      · left; rw [k]; exact ⟨_, rfl⟩
      · right; rw [k]; exact ⟨_, s, rfl, hx' k', hy', Or.inr (Or.inr ⟨rfl, c4.1 rfl⟩)⟩
      all_goals left; rw [k]; exact ⟨_, rfl⟩
    · left; exact ⟨0, rfl⟩

theorem rayLoop_cases (g : GeoCfg K) (p : V3 K) (vs : List (V3 K)) (l : List Nat) (n : Nat)
    (h : ∀ v ∈ l, ∃ a b s, IsEdge vs v a b ∧ g.rayStep p a b v ((v + 1) % vs.length) = ok s) :
    g.rayLoop p vs l n = ok .inside ∨ g.rayLoop p vs l n = ok .outside ∨
    ∃ v ∈ l, ∃ a b r, IsEdge vs v a b ∧ g.rayStep p a b v ((v + 1) % vs.length) = ok (.stop r) ∧
      g.rayLoop p vs l n = ok r := by
  induction l generalizing n with
  | nil =>
    rw [GeoCfg.rayLoop]
    split
    · left; rfl
    · right; left; rfl
  | cons v l ih =>
    obtain ⟨a, b, s, h1, h2⟩ := h v (by simp)
    have hc := rayLoop_cons g p vs v l n a b h1 s h2.symm
    cases s with
    | stop r => right; right; exact ⟨v, by simp, a, b, r, h1, h2, hc⟩
    | count k =>
      simp only at hc
      rw [hc]
      rcases ih (n + k) (fun w hw => h w (by simp [hw])) with i | i | ⟨w, hw, i⟩
      · left; exact i
      · right; left; exact i
      · right; right; exact ⟨w, by simp [hw], i⟩

end Verif
