import Verif.PointPosLemmas
import Verif.IntersectProps

/-
Properties C68 to C72: position of a point with respect to segments, polygons and polyhedra, and
bounding boxes.
-/
namespace Verif

open Res

variable {K : Type} [Field K] [LinearOrder K] [IsStrictOrderedRing K]

/-! ### C68 -/

/-- C68, on the line: a point on the line of the segment up to the tolerance is placed by the
coordinate of its projection, in the plane and in space. A segment of length zero gives "after the
end". -/
theorem c68_on_line (sqrt : K → K) (hs : IsSqrt sqrt) (g : GeoCfg K) (h0 : 0 ≤ g.minTolerance)
    (hT : g.tol1D < 1 / 2) (p o e : V3 K) (h : g.OnLine o e p) :
    (dist2 o e = 0 → g.pointSegmentSide sqrt p o e = ok .onSegmentLineAfterEnd) ∧
    (dist2 o e ≠ 0 →
      (g.pointSegmentSide sqrt p o e = ok .onSegmentLineBeforeOrigin ↔ coordOn o e p < -g.tol1D) ∧
      (g.pointSegmentSide sqrt p o e = ok .onSegmentOrigin ↔ |coordOn o e p| ≤ g.tol1D) ∧
      (g.pointSegmentSide sqrt p o e = ok .insideSegment ↔
        g.tol1D < coordOn o e p ∧ coordOn o e p < 1 - g.tol1D) ∧
      (g.pointSegmentSide sqrt p o e = ok .onSegmentEnd ↔ |coordOn o e p - 1| ≤ g.tol1D) ∧
      (g.pointSegmentSide sqrt p o e = ok .onSegmentLineAfterEnd ↔ 1 + g.tol1D < coordOn o e p)) := by
  rw [side_on_line hs g p o e h]
  constructor
  · intro h2; rw [if_pos h2]
  · intro h2
    rw [if_neg h2]
    obtain ⟨c1, c2, c3, c4, c5, -⟩ := c29_position g (coordOn o e p) h0 hT
    exact ⟨c1, c2, c3, c4, c5⟩

/-- C68, off the line in the plane: the point is right or left of the segment, according to the sign
of the area of the triangle. -/
theorem c68_off_line (sqrt : K → K) (hs : IsSqrt sqrt) (g : GeoCfg K) (h0 : 0 ≤ g.minTolerance)
    (h1 : g.tolSq ≤ 1) (p o e : V3 K) (ho : o.z = 0) (he : e.z = 0) (hp : p.z = 0)
    (h : ¬ g.OnLine o e p) :
    (g.pointSegmentSide sqrt p o e = ok .rightTheSegment ∧ area2 o e p < 0) ∨
    (g.pointSegmentSide sqrt p o e = ok .leftTheSegment ∧ 0 < area2 o e p) := by
  rw [side_off_line_2d hs g h0 h1 p o e ho he hp h]
  have := area2_ne_zero g p o e ho he hp h
  rcases lt_or_gt_of_ne this with k | k
  · left; rw [if_pos k]; exact ⟨rfl, k⟩
  · right; rw [if_neg (not_lt.2 k.le)]; exact ⟨rfl, k⟩

/-- C68, off the line in space: the call aborts if the segment or the direction of the point leaves
the plane `z = const` by more than the tolerance. -/
theorem c68_off_plane (sqrt : K → K) (hs : IsSqrt sqrt) (g : GeoCfg K) (h0 : 0 ≤ g.minTolerance)
    (p o e : V3 K) (h : ¬ g.OnLine o e p)
    (hz : g.tol1D * (e.sub o).norm sqrt < |e.z - o.z| ∨ g.tol1D * (p.sub o).norm sqrt < |p.z - o.z|) :
    g.pointSegmentSide sqrt p o e = abort := by
  obtain ⟨pd, pe⟩ := not_onLine g p o e h
  rw [← V3.sub_dot_pointAt] at pd pe
  have key : ∀ v : V3 K, 0 < v.dot v → |(v.normalized sqrt).z| = |v.z| / v.norm sqrt := by
    intro v hv
    have hn := norm_pos hs hv
    rw [V3.normalized, if_pos hv]
    change |1 / v.norm sqrt * v.z| = _
    rw [one_div, abs_mul, abs_of_pos (inv_pos.2 hn), div_eq_mul_inv, mul_comm]
  unfold GeoCfg.pointSegmentSide
  simp only
  rw [if_neg (fun k => h ((onLine_iff hs g p o e).1 k)), assert_false]
  · rfl
  · rw [g.zero_1D h0, g.zero_1D h0, key _ pe, key _ pd, div_le_iff₀ (norm_pos hs pe),
      div_le_iff₀ (norm_pos hs pd)]
    rintro ⟨k1, k2⟩
    rcases hz with k | k
    · exact absurd k1 (not_le.2 k)
    · exact absurd k2 (not_le.2 k)

/-- The hypotheses of `c68_off_line` and `c68_on_line`: the segment from (0, 0) to (1, 0) and the points
(1/2, 1) and (1/2, 0). -/
example : ¬ defaultGeo.OnLine ⟨0, 0, 0⟩ ⟨1, 0, 0⟩ ⟨1 / 2, 1, 0⟩ ∧
    defaultGeo.OnLine ⟨0, 0, 0⟩ ⟨1, 0, 0⟩ ⟨1 / 2, 0, 0⟩ ∧ defaultGeo.tolSq ≤ 1 := by
  unfold GeoCfg.OnLine
  rw [defaultGeo_tolSq]
  norm_num [dist2, cross2]

/-! ### C69 -/

/-- The polygon is in the plane `z = 0` and has at least three vertices. -/
def FlatPolygon (vs : List (V3 K)) : Prop := 2 < vs.length ∧ ∀ v ∈ vs, v.z = 0

/-- The polygon is convex and runs counter clockwise: no vertex is right of an edge. -/
def ConvexPolygon (vs : List (V3 K)) : Prop :=
  FlatPolygon vs ∧ ∀ v a b, IsEdge vs v a b → ∀ c ∈ vs, 0 ≤ area2 a b c

theorem FlatPolygon.edge {vs : List (V3 K)} (h : FlatPolygon vs) {v : Nat} {a b : V3 K}
    (he : IsEdge vs v a b) : a.z = 0 ∧ b.z = 0 :=
  ⟨h.2 a (List.mem_of_getElem? he.1), h.2 b (List.mem_of_getElem? he.2)⟩

section polygon

variable (sqrt : K → K) (g : GeoCfg K) (vs : List (V3 K)) (p : V3 K)

theorem polygon_cases {sqrt : K → K} (hs : IsSqrt sqrt) {g : GeoCfg K} (h0 : 0 ≤ g.minTolerance)
    (hT : g.tol1D < 1 / 2) (h1 : g.tolSq ≤ 1) (ht : 0 ≤ g.tolerance1D) {vs : List (V3 K)}
    (hf : FlatPolygon vs) {p : V3 K} (hp : p.z = 0) :
    (g.pointPolygonPosition sqrt p vs = ok .inside ∧
      ∀ v a b, IsEdge vs v a b → ∃ s, g.pointSegmentSide sqrt p a b = ok s ∧
        verdict v vs.length s = none) ∨
    ∃ v a b s r, IsEdge vs v a b ∧ g.pointSegmentSide sqrt p a b = ok s ∧
      verdict v vs.length s = some r ∧ g.pointPolygonPosition sqrt p vs = ok r := by
  rw [pointPolygonPosition_eq g sqrt p vs hf.1 (by rw [hp, abs_zero]; exact ht)]
  rcases polygonLoop_cases g sqrt p vs (List.range vs.length) (fun v hv => by
    obtain ⟨a, b, he⟩ := isEdge_of_lt vs v (List.mem_range.1 hv)
    obtain ⟨hz1, hz2⟩ := hf.edge he
    obtain ⟨s, hs'⟩ := side_total hs g h0 hT h1 p a b hz1 hz2 hp
    exact ⟨a, b, s, he, hs'⟩) with ⟨i1, i2⟩ | ⟨v, -, a, b, s, r, i⟩
  · left
    refine ⟨i1, fun v a b he => ?_⟩
    obtain ⟨a', b', s, he', j1, j2⟩ := i2 v (List.mem_range.2 he.lt)
    obtain ⟨rfl, rfl⟩ := he.unique he'
    exact ⟨s, j1, j2⟩
  · right
    exact ⟨v, a, b, s, r, i⟩

theorem side_right {sqrt : K → K} (hs : IsSqrt sqrt) {g : GeoCfg K} (h0 : 0 ≤ g.minTolerance)
    (hT : g.tol1D < 1 / 2) (h1 : g.tolSq ≤ 1) (p o e : V3 K) (ho : o.z = 0) (he : e.z = 0)
    (hp : p.z = 0) (h : g.pointSegmentSide sqrt p o e = ok .rightTheSegment) :
    area2 o e p < 0 ∧ ¬ g.OnLine o e p := by
  by_cases hon : g.OnLine o e p
  · exfalso
    rw [side_on_line hs g p o e hon] at h
    split at h
    · cases h
    · have hp := h
      unfold GeoCfg.pointSegmentPosition at hp
      repeat' split at hp
      all_goals cases hp
  · refine ⟨?_, hon⟩
    rw [side_off_line_2d hs g h0 h1 p o e ho he hp hon] at h
    by_contra hc
    rw [if_neg hc] at h
    cases h

/-- C69, outside: if a point is reported outside, it is right of an edge. For a convex polygon it is
therefore no convex combination of the vertices. -/
theorem c69_outside (hs : IsSqrt sqrt) (h0 : 0 ≤ g.minTolerance) (hT : g.tol1D < 1 / 2)
    (h1 : g.tolSq ≤ 1) (ht : 0 ≤ g.tolerance1D) (hf : FlatPolygon vs) (hp : p.z = 0)
    (h : g.pointPolygonPosition sqrt p vs = ok .outside) :
    (∃ v a b, IsEdge vs v a b ∧ area2 a b p < 0 ∧ ¬ g.OnLine a b p) ∧
    (ConvexPolygon vs → ¬ ConvexComb vs p) := by
  have h2 : ∃ v a b, IsEdge vs v a b ∧ area2 a b p < 0 ∧ ¬ g.OnLine a b p := by
    rcases polygon_cases hs h0 hT h1 ht hf hp with ⟨i1, -⟩ | ⟨v, a, b, s, r, he, i1, i2, i3⟩
    · rw [i1] at h; cases h
    · rw [i3] at h
      cases h
      obtain ⟨hz1, hz2⟩ := hf.edge he
      cases s <;> simp [verdict] at i2
      exact ⟨v, a, b, he, side_right hs h0 hT h1 p a b hz1 hz2 hp i1⟩
  refine ⟨h2, ?_⟩
  rintro hc ⟨w, hw, hsum, hx, hy, -⟩
  obtain ⟨v, a, b, he, ha, -⟩ := h2
  have hc' := hc.2 v a b he
  have : area2 a b p = (vs.map fun v => w v * area2 a b v).sum := by
    have e1 : ∀ l : List (V3 K), (l.map fun v => w v * area2 a b v).sum =
        (b.x - a.x) * ((l.map fun v => w v * v.y).sum - a.y * (l.map w).sum) -
        (b.y - a.y) * ((l.map fun v => w v * v.x).sum - a.x * (l.map w).sum) := by
      intro l
      induction l with
      | nil => simp
      | cons c l ih =>
        simp only [List.map_cons, List.sum_cons, ih]
        simp only [area2]; ring
    rw [e1, hsum, ← hx, ← hy]
    simp only [area2]; ring
  rw [this] at ha
  have hnn : 0 ≤ (vs.map fun v => w v * area2 a b v).sum := by
    apply List.sum_nonneg
    intro x hx
    obtain ⟨c, hc1, rfl⟩ := List.mem_map.1 hx
    exact mul_nonneg (hw c hc1) (hc' c hc1)
  linarith

/-- C69: a point that is not right of any edge, inside the polygon or on its border, is never
reported outside; there is always an answer. -/
theorem c69_not_outside (hs : IsSqrt sqrt) (h0 : 0 ≤ g.minTolerance) (hT : g.tol1D < 1 / 2)
    (h1 : g.tolSq ≤ 1) (ht : 0 ≤ g.tolerance1D) (hf : FlatPolygon vs) (hp : p.z = 0)
    (hin : ∀ v a b, IsEdge vs v a b → 0 ≤ area2 a b p) :
    ∃ r, g.pointPolygonPosition sqrt p vs = ok r ∧ r ≠ .outside := by
  rcases polygon_cases hs h0 hT h1 ht hf hp with ⟨i1, -⟩ | ⟨v, a, b, s, r, he, i1, i2, i3⟩
  · exact ⟨_, i1, by simp⟩
  · refine ⟨r, i3, ?_⟩
    rintro rfl
    obtain ⟨w, a', b', he', hr, -⟩ := (c69_outside sqrt g vs p hs h0 hT h1 ht hf hp i3).1
    exact absurd hr (not_lt.2 (hin w a' b' he'))

/-- C69, points that are off the lines of all edges: inside exactly if left of all edges, outside
exactly if right of some edge. -/
theorem c69_off_lines (hs : IsSqrt sqrt) (h0 : 0 ≤ g.minTolerance) (hT : g.tol1D < 1 / 2)
    (h1 : g.tolSq ≤ 1) (ht : 0 ≤ g.tolerance1D) (hf : FlatPolygon vs) (hp : p.z = 0)
    (hoff : ∀ v a b, IsEdge vs v a b → ¬ g.OnLine a b p) :
    (g.pointPolygonPosition sqrt p vs = ok .inside ∧ ∀ v a b, IsEdge vs v a b → 0 < area2 a b p) ∨
    (g.pointPolygonPosition sqrt p vs = ok .outside ∧ ∃ v a b, IsEdge vs v a b ∧ area2 a b p < 0) := by
  rcases polygon_cases hs h0 hT h1 ht hf hp with ⟨i1, i2⟩ | ⟨v, a, b, s, r, he, i1, i2, i3⟩
  · left
    refine ⟨i1, fun v a b he => ?_⟩
    obtain ⟨hz1, hz2⟩ := hf.edge he
    obtain ⟨s, j1, j2⟩ := i2 v a b he
    rcases c68_off_line sqrt hs g h0 h1 p a b hz1 hz2 hp (hoff v a b he) with ⟨k, -⟩ | ⟨-, k⟩
    · rw [k] at j1; cases j1; simp [verdict] at j2
    · exact k
  · obtain ⟨hz1, hz2⟩ := hf.edge he
    rcases c68_off_line sqrt hs g h0 h1 p a b hz1 hz2 hp (hoff v a b he) with ⟨k, k'⟩ | ⟨k, -⟩
    · right
      rw [k] at i1; cases i1; simp only [verdict, Option.some.injEq] at i2
      subst i2
      exact ⟨i3, v, a, b, he, k'⟩
    · rw [k] at i1; cases i1; simp [verdict] at i2

/-- C69, inside: every edge has the point on its left, except edges on whose line the point is, up
to the tolerance, beyond the ends.

Full statement: a point that is reported inside a convex polygon is left of all its edges. Missing:
the exception, which the code skips in the belief that another edge decides; see
`c69_inside_violated`. -/
theorem c69_inside_partial (hs : IsSqrt sqrt) (h0 : 0 ≤ g.minTolerance) (hT : g.tol1D < 1 / 2)
    (h1 : g.tolSq ≤ 1) (ht : 0 ≤ g.tolerance1D) (hf : FlatPolygon vs) (hp : p.z = 0)
    (h : g.pointPolygonPosition sqrt p vs = ok .inside) (v : Nat) (a b : V3 K)
    (he : IsEdge vs v a b) :
    (0 < area2 a b p ∧ ¬ g.OnLine a b p) ∨ (g.OnLine a b p ∧
      (dist2 a b = 0 ∨ coordOn a b p < -g.tol1D ∨ 1 + g.tol1D < coordOn a b p)) := by
  rcases polygon_cases hs h0 hT h1 ht hf hp with ⟨-, i2⟩ | ⟨v, a, b, s, r, he, i1, i2, i3⟩
  · obtain ⟨s, j1, j2⟩ := i2 v a b he
    obtain ⟨hz1, hz2⟩ := hf.edge he
    by_cases hon : g.OnLine a b p
    · right
      refine ⟨hon, ?_⟩
      by_cases hd : dist2 a b = 0
      · exact Or.inl hd
      · right
        obtain ⟨c1, c2, c3, c4, c5⟩ := (c68_on_line sqrt hs g h0 hT p a b hon).2 hd
        rw [j1] at c1 c2 c3 c4 c5
        rw [side_on_line hs g p a b hon, if_neg hd] at j1
        cases s <;> simp [verdict] at j2
        · exfalso
          unfold GeoCfg.pointSegmentPosition at j1
          repeat' split at j1
          all_goals cases j1
        · exact Or.inl (c1.1 rfl)
        · exact Or.inr (c5.1 rfl)
    · left
      rcases c68_off_line sqrt hs g h0 h1 p a b hz1 hz2 hp hon with ⟨k, -⟩ | ⟨-, k⟩
      · rw [k] at j1; cases j1; simp [verdict] at j2
      · exact ⟨k, hon⟩
  · rw [i3] at h
    cases h
    cases s <;> simp [verdict] at i2

theorem OnLine.dist_le {g : GeoCfg K} (a b p : V3 K) (hd : dist2 a b ≠ 0) (h : g.OnLine a b p)
    (h1 : g.tolSq ≤ 1 / 2) : dist2 a p ≤ max g.tolSq (2 * (coordOn a b p * coordOn a b p * dist2 a b)) := by
  rcases h with h | h
  · exact le_max_of_le_left h
  · apply le_max_of_le_right
    have hL : 0 < dist2 a b := lt_of_le_of_ne (dist2_nonneg _ _) (Ne.symm hd)
    have e1 : cross2 a b p = dist2 a p * dist2 a b - dot4 a p a b * dot4 a p a b := by
      rw [← cross2_eq, lagrange, V3.sub_dot_pointAt, V3.sub_dot_pointAt, sub_sub_dot]
    have e2 : dot4 a p a b = coordOn a b p * dist2 a b := by
      unfold coordOn; rw [div_mul_cancel₀ _ hd]
    rw [e1, e2] at h
    have h3 := dist2_nonneg a p
    have h4 : dist2 a p * dist2 a b ≤ 2 * (coordOn a b p * dist2 a b * (coordOn a b p * dist2 a b)) := by
      have : g.tolSq * (dist2 a b * dist2 a p) ≤ 1 / 2 * (dist2 a b * dist2 a p) :=
        mul_le_mul_of_nonneg_right h1 (mul_nonneg hL.le h3)
      linarith
    apply le_of_mul_le_mul_right _ hL
    linarith

/-- C69, on the border: a point that is reported on edge `v` is on the line of this edge up to the
tolerance, with its projection between the ends; a point that is reported on vertex `v` is at most
the tolerance, times the length of an edge of this vertex, away from it. -/
theorem c69_border (hs : IsSqrt sqrt) (h0 : 0 ≤ g.minTolerance) (hT : g.tol1D < 1 / 2)
    (h1 : g.tolSq ≤ 1 / 2) (ht : 0 ≤ g.tolerance1D) (hf : FlatPolygon vs) (hp : p.z = 0) (v : Nat) :
    (g.pointPolygonPosition sqrt p vs = ok (.borderEdge v) →
      ∃ a b, IsEdge vs v a b ∧ g.OnLine a b p ∧ g.tol1D < coordOn a b p ∧
        coordOn a b p < 1 - g.tol1D) ∧
    (g.pointPolygonPosition sqrt p vs = ok (.borderVertex v) →
      ∃ w a b c, IsEdge vs w a b ∧ vs[v]? = some c ∧ (c = a ∨ c = b) ∧ g.OnLine a b p ∧
        ((c = a ∧ |coordOn a b p| ≤ g.tol1D ∧
          dist2 c p ≤ max g.tolSq (2 * (g.tol1D * g.tol1D * dist2 a b))) ∨
         (c = b ∧ |coordOn a b p - 1| ≤ g.tol1D))) := by
  have h1' : g.tolSq ≤ 1 := le_trans h1 (by linarith [h0])
  have hside : ∀ (a b : V3 K) (s : PointSegmentPos), a.z = 0 → b.z = 0 →
      g.pointSegmentSide sqrt p a b = ok s → s ≠ .rightTheSegment → s ≠ .leftTheSegment →
      g.OnLine a b p := by
    intro a b s ha hb hs' n1 n2
    by_contra hon
    rw [side_off_line_2d hs g h0 h1' p a b ha hb hp hon] at hs'
    split at hs' <;> cases hs' <;> simp at n1 n2
  constructor
  · intro h
    rcases polygon_cases hs h0 hT h1' ht hf hp with ⟨i1, -⟩ | ⟨w, a, b, s, r, he, i1, i2, i3⟩
    · rw [i1] at h; cases h
    · rw [i3] at h
      cases h
      obtain ⟨hz1, hz2⟩ := hf.edge he
      cases s <;> simp [verdict] at i2
      subst i2
      have hon := hside a b _ hz1 hz2 i1 (by simp) (by simp)
      by_cases hd : dist2 a b = 0
      · rw [(c68_on_line sqrt hs g h0 hT p a b hon).1 hd] at i1; cases i1
      · have := ((c68_on_line sqrt hs g h0 hT p a b hon).2 hd).2.2.1.1 i1
        exact ⟨a, b, he, hon, this.1, this.2⟩
  · intro h
    rcases polygon_cases hs h0 hT h1' ht hf hp with ⟨i1, -⟩ | ⟨w, a, b, s, r, he, i1, i2, i3⟩
    · rw [i1] at h; cases h
    · rw [i3] at h
      cases h
      obtain ⟨hz1, hz2⟩ := hf.edge he
      have hd : ∀ s', g.OnLine a b p → ok s' = g.pointSegmentSide sqrt p a b →
          s' ≠ .onSegmentLineAfterEnd → dist2 a b ≠ 0 := by
        intro s' hon k k' hd
        rw [(c68_on_line sqrt hs g h0 hT p a b hon).1 hd] at k
        cases k
        exact k' rfl
      cases s <;> simp [verdict] at i2
      · subst i2
        have hon := hside a b _ hz1 hz2 i1 (by simp) (by simp)
        have hd' := hd _ hon i1.symm (by simp)
        have := ((c68_on_line sqrt hs g h0 hT p a b hon).2 hd').2.1.1 i1
        refine ⟨w, a, b, a, he, he.1, Or.inl rfl, hon, Or.inl ⟨rfl, this, ?_⟩⟩
        refine le_trans (OnLine.dist_le a b p hd' hon h1) (max_le_max le_rfl ?_)
        have hL := dist2_nonneg a b
        have hsq : coordOn a b p * coordOn a b p ≤ g.tol1D * g.tol1D := by
          rw [← abs_mul_abs_self (coordOn a b p)]
          exact mul_self_le_mul_self (abs_nonneg _) this
        have := mul_le_mul_of_nonneg_right hsq hL
        linarith
      · subst i2
        have hon := hside a b _ hz1 hz2 i1 (by simp) (by simp)
        have hd' := hd _ hon i1.symm (by simp)
        have := ((c68_on_line sqrt hs g h0 hT p a b hon).2 hd').2.2.2.1.1 i1
        exact ⟨w, a, b, b, he, he.2, Or.inr rfl, hon, Or.inr ⟨rfl, this⟩⟩

/-- C69, inside, for strictly convex polygons: if no edge has the point on its line only up to the
tolerance, a point that is reported inside is left of all edges. -/
theorem c69_inside_exact (hs : IsSqrt sqrt) (h0 : 0 ≤ g.minTolerance) (hT : g.tol1D < 1 / 2)
    (h1 : g.tolSq ≤ 1) (ht : 0 ≤ g.tolerance1D) (hf : FlatPolygon vs) (hp : p.z = 0)
    (hconv : ∀ v a b c, IsEdge vs v a b → IsEdge vs ((v + 1) % vs.length) b c → 0 < area2 a b c)
    (hrob : ∀ v a b, IsEdge vs v a b → g.OnLine a b p → area2 a b p = 0) 
    (h : g.pointPolygonPosition sqrt p vs = ok .inside) (v : Nat) (a b : V3 K)
    (he : IsEdge vs v a b) : 0 < area2 a b p := by
  have hin := c69_inside_partial sqrt g vs p hs h0 hT h1 ht hf hp h
  rcases hin v a b he with ⟨k, -⟩ | ⟨hon, hk⟩
  · exact k
  · exfalso
    obtain ⟨c, hc⟩ := he.next
    obtain ⟨w, z, hz, hw⟩ := he.prev
    have hz' : 0 < area2 z a b := hconv w z a b hz (by rw [hw]; exact he)
    have hc' := hconv v a b c he hc
    obtain ⟨az, bz⟩ := hf.edge he
    have ha := hrob v a b he hon
    have hT0 := g.tol1D_nonneg h0
    have nn : ∀ w a b, IsEdge vs w a b → 0 ≤ area2 a b p := fun w a b hw => by
      rcases hin w a b hw with ⟨k, -⟩ | ⟨k, -⟩
      · exact k.le
      · exact (hrob w a b hw k).ge
    by_cases hd : dist2 a b = 0
    · have := eq_zero_of_dot (b.sub a) (by rw [V3.sub_dot_pointAt]; exact hd)
      simp only [V3.sub, V3.mk.injEq] at this
      have e1 : area2 a b c = 0 := by
        simp only [area2]; rw [this.1, this.2.1]; ring
      linarith
    · have hd' : 0 < dist2 a b := lt_of_le_of_ne (dist2_nonneg _ _) (Ne.symm hd)
      -- the point is `a + t (b - a)`
      have ht' : coordOn a b p * dist2 a b = dot4 a p a b := by
        unfold coordOn; rw [div_mul_cancel₀ _ hd]
      have ex : (p.x - a.x) * dist2 a b = coordOn a b p * dist2 a b * (b.x - a.x) := by
        rw [ht']
        simp only [area2, dist2, dot4, az, bz, hp] at ha ⊢
        linear_combination (-(b.y - a.y)) * ha
      have ey : (p.y - a.y) * dist2 a b = coordOn a b p * dist2 a b * (b.y - a.y) := by
        rw [ht']
        simp only [area2, dist2, dot4, az, bz, hp] at ha ⊢
        linear_combination (b.x - a.x) * ha
      have ex' : p.x - a.x = coordOn a b p * (b.x - a.x) := by
        apply mul_right_cancel₀ hd; rw [ex]; ring
      have ey' : p.y - a.y = coordOn a b p * (b.y - a.y) := by
        apply mul_right_cancel₀ hd; rw [ey]; ring
      rcases hk with hk | hk | hk
      · exact hd hk
      · have e2 : area2 z a p = coordOn a b p * area2 z a b := by
          simp only [area2]
          linear_combination (a.x - z.x) * ey' - (a.y - z.y) * ex'
        have := nn w z a hz
        rw [e2] at this
        have := mul_neg_of_neg_of_pos (show coordOn a b p < 0 by linarith) hz'
        linarith
      · have e2 : area2 b c p = -(coordOn a b p - 1) * area2 a b c := by
          simp only [area2]
          linear_combination (c.x - b.x) * ey' - (c.y - b.y) * ex'
        have := nn _ b c hc
        rw [e2] at this
        have := mul_pos (show 0 < coordOn a b p - 1 by linarith) hc'
        linarith

/-- C69, points of the border: a point of an edge that is off the lines of all other edges and left of
them is reported on this edge, a vertex on this vertex. -/
theorem c69_on_border (hs : IsSqrt sqrt) (h0 : 0 ≤ g.minTolerance) (hT : g.tol1D < 1 / 2)
    (h1 : g.tolSq ≤ 1) (ht : 0 ≤ g.tolerance1D) (hf : FlatPolygon vs) (hp : p.z = 0) (v : Nat)
    (a b : V3 K) (he : IsEdge vs v a b) (hd : dist2 a b ≠ 0) :
    (∀ t, g.tol1D < t → t < 1 - g.tol1D → p = pointAt a b t →
      (∀ w c d, IsEdge vs w c d → w ≠ v → ¬ g.OnLine c d p ∧ 0 < area2 c d p) →
      g.pointPolygonPosition sqrt p vs = ok (.borderEdge v)) ∧
    (p = a →
      (∀ w c d, IsEdge vs w c d → w ≠ v → (w + 1) % vs.length ≠ v →
        ¬ g.OnLine c d p ∧ 0 < area2 c d p) →
      (∀ w c d, IsEdge vs w c d → dist2 c d ≠ 0) →
      g.pointPolygonPosition sqrt p vs = ok (.borderVertex v)) := by
  have hT0 := g.tol1D_nonneg h0
  have hsq := g.tolSq_nonneg
  constructor
  · intro t ht1 ht2 hpt hoth
    have hcross : cross2 a b p = 0 := by
      rw [hpt]; simp only [cross2, pointAt]; ring
    have hon : g.OnLine a b p := by
      right; rw [hcross]; exact mul_nonneg hsq (mul_nonneg (dist2_nonneg _ _) (dist2_nonneg _ _))
    have hco : coordOn a b p = t := by
      unfold coordOn
      rw [div_eq_iff hd, hpt]; simp only [dot4, dist2, pointAt]; ring
    have hside : g.pointSegmentSide sqrt p a b = ok .insideSegment :=
      ((c68_on_line sqrt hs g h0 hT p a b hon).2 hd).2.2.1.2 (by rw [hco]; exact ⟨ht1, ht2⟩)
    rcases polygon_cases hs h0 hT h1 ht hf hp with ⟨i1, i2⟩ | ⟨w, c, d, s, r, hw, i1, i2, i3⟩
    · obtain ⟨s, j1, j2⟩ := i2 v a b he
      rw [hside] at j1; cases j1; simp [verdict] at j2
    · by_cases hwv : w = v
      · subst hwv
        obtain ⟨rfl, rfl⟩ := he.unique hw
        rw [hside] at i1; cases i1
        simp only [verdict, Option.some.injEq] at i2
        rw [i3, ← i2]
      · obtain ⟨k1, k2⟩ := hoth w c d hw hwv
        obtain ⟨cz, dz⟩ := hf.edge hw
        rw [side_off_line_2d hs g h0 h1 p c d cz dz hp k1, if_neg (not_lt.2 k2.le)] at i1
        cases i1
        simp [verdict] at i2
  · rintro rfl hoth hnd
    have hside : ∀ b, dist2 p b ≠ 0 → g.pointSegmentSide sqrt p p b = ok .onSegmentOrigin := by
      intro b hd
      have hon : g.OnLine p b p := by
        left; have : dist2 p p = 0 := by simp [dist2]
        rw [this]; exact hsq
      apply ((c68_on_line sqrt hs g h0 hT p p b hon).2 hd).2.1.2
      have : coordOn p b p = 0 := by simp [coordOn, dot4]
      rw [this, abs_zero]; exact hT0
    have hside2 : ∀ c, dist2 c p ≠ 0 → g.pointSegmentSide sqrt p c p = ok .onSegmentEnd := by
      intro c hd
      have hon : g.OnLine c p p := by
        right
        have : cross2 c p p = 0 := by simp only [cross2]; ring
        rw [this]; exact mul_nonneg hsq (mul_nonneg (dist2_nonneg _ _) (dist2_nonneg _ _))
      apply ((c68_on_line sqrt hs g h0 hT p c p hon).2 hd).2.2.2.1.2
      have : coordOn c p p = 1 := by
        unfold coordOn
        rw [div_eq_iff hd]; simp only [dot4, dist2]; ring
      rw [this, sub_self, abs_zero]; exact hT0
    rcases polygon_cases hs h0 hT h1 ht hf hp with ⟨i1, i2⟩ | ⟨w, c, d, s, r, hw, i1, i2, i3⟩
    · obtain ⟨s, j1, j2⟩ := i2 v p b he
      rw [hside b hd] at j1; cases j1; simp [verdict] at j2
    · by_cases hwv : w = v
      · subst hwv
        obtain ⟨rfl, rfl⟩ := he.unique hw
        rw [hside _ hd] at i1; cases i1
        simp only [verdict, Option.some.injEq] at i2
        rw [i3, ← i2]
      · by_cases hwn : (w + 1) % vs.length = v
        · have hdp : d = p := by
            have := hw.2
            rw [hwn, he.1] at this
            cases this; rfl
          subst hdp
          rw [hside2 c (hnd w c d hw)] at i1; cases i1
          simp only [verdict, Option.some.injEq] at i2
          rw [i3, ← i2, hwn]
        · obtain ⟨k1, k2⟩ := hoth w c d hw hwv hwn
          obtain ⟨cz, dz⟩ := hf.edge hw
          rw [side_off_line_2d hs g h0 h1 p c d cz dz hp k1, if_neg (not_lt.2 k2.le)] at i1
          cases i1
          simp [verdict] at i2

end polygon

/-- The hypotheses of the theorems on C69: the triangle (0, 0), (1, 0), (0, 1) with a point inside, one
outside and one on the edge 0. -/
example : let vs : List (V3 ℝ) := [⟨0, 0, 0⟩, ⟨1, 0, 0⟩, ⟨0, 1, 0⟩]
    FlatPolygon vs ∧ ConvexPolygon vs ∧ 0 ≤ defaultGeo.tolerance1D ∧
    (∀ v a b c, IsEdge vs v a b → IsEdge vs ((v + 1) % vs.length) b c → 0 < area2 a b c) ∧
    (∀ v a b, IsEdge vs v a b → ¬ defaultGeo.OnLine a b ⟨1 / 4, 1 / 4, 0⟩ ∧
      0 < area2 a b ⟨1 / 4, 1 / 4, 0⟩) ∧
    (∀ v a b, IsEdge vs v a b → ¬ defaultGeo.OnLine a b ⟨1 / 2, -1, 0⟩) ∧
    (∀ v a b, IsEdge vs v a b → v ≠ 0 → ¬ defaultGeo.OnLine a b ⟨1 / 2, 0, 0⟩ ∧
      0 < area2 a b ⟨1 / 2, 0, 0⟩) ∧
    (⟨1 / 2, 0, 0⟩ : V3 ℝ) = pointAt ⟨0, 0, 0⟩ ⟨1, 0, 0⟩ (1 / 2) := by
  intro vs
  have key : ∀ v a b, IsEdge vs v a b → v = 0 ∧ a = ⟨0, 0, 0⟩ ∧ b = ⟨1, 0, 0⟩ ∨
      v = 1 ∧ a = ⟨1, 0, 0⟩ ∧ b = ⟨0, 1, 0⟩ ∨ v = 2 ∧ a = ⟨0, 1, 0⟩ ∧ b = ⟨0, 0, 0⟩ := by
    intro v a b h
    have hl := h.lt
    obtain ⟨h1, h2⟩ := h
    simp only [vs, List.length_cons, List.length_nil] at hl h1 h2
    have : v = 0 ∨ v = 1 ∨ v = 2 := by omega
    rcases this with rfl | rfl | rfl <;> simp_all
  have hmem : ∀ v ∈ vs, v = ⟨0, 0, 0⟩ ∨ v = ⟨1, 0, 0⟩ ∨ v = ⟨0, 1, 0⟩ := by simp [vs]
  have hflat : FlatPolygon vs := ⟨by simp [vs], fun v hv => by
    rcases hmem v hv with rfl | rfl | rfl <;> rfl⟩
  refine ⟨hflat, ⟨hflat, ?_⟩, by norm_num [defaultGeo], ?_, ?_, ?_, ?_, by norm_num [pointAt]⟩
  · intro v a b he c hc
    rcases key v a b he with ⟨-, rfl, rfl⟩ | ⟨-, rfl, rfl⟩ | ⟨-, rfl, rfl⟩ <;>
    rcases hmem c hc with rfl | rfl | rfl <;> norm_num [area2]
  · intro v a b c he hc
    rcases key v a b he with ⟨rfl, rfl, rfl⟩ | ⟨rfl, rfl, rfl⟩ | ⟨rfl, rfl, rfl⟩ <;>
    rcases key _ _ c hc with ⟨k, -, rfl⟩ | ⟨k, -, rfl⟩ | ⟨k, -, rfl⟩ <;> simp [vs] at k <;>
    norm_num [area2]
  · intro v a b he
    rcases key v a b he with ⟨-, rfl, rfl⟩ | ⟨-, rfl, rfl⟩ | ⟨-, rfl, rfl⟩ <;>
    unfold GeoCfg.OnLine <;> rw [defaultGeo_tolSq] <;> norm_num [area2, dist2, cross2]
  · intro v a b he
    rcases key v a b he with ⟨-, rfl, rfl⟩ | ⟨-, rfl, rfl⟩ | ⟨-, rfl, rfl⟩ <;>
    unfold GeoCfg.OnLine <;> rw [defaultGeo_tolSq] <;> norm_num [area2, dist2, cross2]
  · intro v a b he hv
    rcases key v a b he with ⟨rfl, rfl, rfl⟩ | ⟨-, rfl, rfl⟩ | ⟨-, rfl, rfl⟩ <;>
    first | exact absurd rfl hv | (unfold GeoCfg.OnLine; rw [defaultGeo_tolSq]; norm_num [area2, dist2, cross2])

/-- C69 is violated for thin triangles: with the default tolerances the point (3, 0) is reported inside
the triangle (0, 0), (1, 0), (2, 2⁻²⁵), although it is right of an edge: it is on the lines of all
three edges up to the tolerance, and beyond their ends. -/
theorem c69_inside_violated :
    let vs : List (V3 ℝ) := [⟨0, 0, 0⟩, ⟨1, 0, 0⟩, ⟨2, 1 / 2 ^ 25, 0⟩]
    let p : V3 ℝ := ⟨3, 0, 0⟩
    ConvexPolygon vs ∧ defaultGeo.pointPolygonPosition Real.sqrt p vs = ok .inside ∧
    IsEdge vs 1 ⟨1, 0, 0⟩ ⟨2, 1 / 2 ^ 25, 0⟩ ∧ area2 ⟨1, 0, 0⟩ ⟨2, 1 / 2 ^ 25, 0⟩ p < 0 := by
  intro vs p
  have key : ∀ v a b, IsEdge vs v a b → v = 0 ∧ a = ⟨0, 0, 0⟩ ∧ b = ⟨1, 0, 0⟩ ∨
      v = 1 ∧ a = ⟨1, 0, 0⟩ ∧ b = ⟨2, 1 / 2 ^ 25, 0⟩ ∨
      v = 2 ∧ a = ⟨2, 1 / 2 ^ 25, 0⟩ ∧ b = ⟨0, 0, 0⟩ := by
    intro v a b h
    have hl := h.lt
    obtain ⟨h1, h2⟩ := h
    simp only [vs, List.length_cons, List.length_nil] at hl h1 h2
    have : v = 0 ∨ v = 1 ∨ v = 2 := by omega
    rcases this with rfl | rfl | rfl <;> simp_all
  have hmem : ∀ v ∈ vs, v = ⟨0, 0, 0⟩ ∨ v = ⟨1, 0, 0⟩ ∨ v = ⟨2, 1 / 2 ^ 25, 0⟩ := by simp [vs]
  have hflat : FlatPolygon vs := ⟨by simp [vs], fun v hv => by
    rcases hmem v hv with rfl | rfl | rfl <;> rfl⟩
  have h0 : (0 : ℝ) ≤ defaultGeo.minTolerance := by norm_num [defaultGeo]
  have hT : defaultGeo.tol1D < 1 / 2 := by rw [defaultGeo_tol1D]; norm_num
  have h1 : defaultGeo.tolSq ≤ 1 := by rw [defaultGeo_tolSq]; norm_num
  refine ⟨⟨hflat, ?_⟩, ?_, ⟨rfl, rfl⟩, by norm_num [area2, p]⟩
  · intro v a b he c hc
    rcases key v a b he with ⟨-, rfl, rfl⟩ | ⟨-, rfl, rfl⟩ | ⟨-, rfl, rfl⟩ <;>
    rcases hmem c hc with rfl | rfl | rfl <;> norm_num [area2]
  · rcases polygon_cases isSqrt_real h0 hT h1 (by norm_num [defaultGeo]) hflat (p := p) rfl with
      ⟨i1, -⟩ | ⟨v, a, b, s, r, he, i1, i2, -⟩
    · exact i1
    · exfalso
      have hon : defaultGeo.OnLine a b p := by
        right
        rw [defaultGeo_tolSq]
        rcases key v a b he with ⟨-, rfl, rfl⟩ | ⟨-, rfl, rfl⟩ | ⟨-, rfl, rfl⟩ <;>
          norm_num [dist2, cross2, p]
      have hd : dist2 a b ≠ 0 := by
        rcases key v a b he with ⟨-, rfl, rfl⟩ | ⟨-, rfl, rfl⟩ | ⟨-, rfl, rfl⟩ <;>
          norm_num [dist2]
      have hbeyond : coordOn a b p < -defaultGeo.tol1D ∨ 1 + defaultGeo.tol1D < coordOn a b p := by
        rw [defaultGeo_tol1D]
        rcases key v a b he with ⟨-, rfl, rfl⟩ | ⟨-, rfl, rfl⟩ | ⟨-, rfl, rfl⟩
        · right; norm_num [coordOn, dist2, dot4, p]
        · right; norm_num [coordOn, dist2, dot4, p]
        · left; norm_num [coordOn, dist2, dot4, p]
      obtain ⟨c1, -, -, -, c5⟩ := (c68_on_line Real.sqrt isSqrt_real defaultGeo h0 hT p a b hon).2 hd
      rcases hbeyond with k | k
      · rw [c1.2 k] at i1; cases i1; simp [verdict] at i2
      · rw [c5.2 k] at i1; cases i1; simp [verdict] at i2

/-! ### C70 -/

open Classical in
/-- C70: if all edges are clear of the ray from the point with respect to the tolerance, the point is
reported inside exactly if the number of edges that meet the ray is odd, and outside otherwise. The
polygon need not be convex, and vertices may be on the ray. -/
theorem c70_even_odd (g : GeoCfg K) (h0 : 0 ≤ g.minTolerance) (hT : g.tol1D < 1 / 2)
    (ht : 0 ≤ g.tolerance1D) (vs : List (V3 K)) (hn : 2 < vs.length) (p : V3 K) (hp : p.z = 0)
    (hclear : ∀ v a b, IsEdge vs v a b → g.ClearOfRay p a b) :
    g.pointPolygonRayCasting p vs = ok (if InsideEvenOdd vs p then .inside else .outside) := by
  rw [rayCasting_eq g p vs hn (by rw [hp, abs_zero]; exact ht)]
  have := rayLoop_clear g h0 hT p vs (List.range vs.length) [] 0 (fun v hv => by
    obtain ⟨a, b, he⟩ := isEdge_of_lt vs v (List.mem_range.1 hv)
    exact ⟨a, b, he, hclear v a b he⟩)
  rw [List.append_nil] at this
  rw [this, GeoCfg.rayLoop, Nat.zero_add]
  exact congrArg ok (if_congr Iff.rfl rfl rfl)

/-- C70 for strictly convex polygons: the point is reported inside exactly if it is left of all
edges. -/
theorem c70_convex (g : GeoCfg K) (h0 : 0 ≤ g.minTolerance) (hT : g.tol1D < 1 / 2)
    (ht : 0 ≤ g.tolerance1D) (vs : List (V3 K)) (hc : StrictlyConvex vs) (p : V3 K) (hp : p.z = 0)
    (hclear : ∀ v a b, IsEdge vs v a b → g.ClearOfRay p a b)
    (hoff : ∀ v a b, IsEdge vs v a b → area2 a b p ≠ 0) :
    (g.pointPolygonRayCasting p vs = ok .inside ∧ ∀ v a b, IsEdge vs v a b → 0 < area2 a b p) ∨
    (g.pointPolygonRayCasting p vs = ok .outside ∧
      ∃ v a b, IsEdge vs v a b ∧ area2 a b p < 0) := by
  rw [c70_even_odd g h0 hT ht vs hc.1 p hp hclear, evenOdd_convex hc p hoff]
  by_cases h : ∀ v a b, IsEdge vs v a b → 0 < area2 a b p
  · left; rw [if_pos h]; exact ⟨rfl, h⟩
  · right
    rw [if_neg h]
    refine ⟨rfl, ?_⟩
    push Not at h
    obtain ⟨v, a, b, he, k⟩ := h
    exact ⟨v, a, b, he, lt_of_le_of_ne k (hoff v a b he)⟩

/-- C70, the two algorithms agree on strictly convex polygons for points that are off the lines of all
edges. -/
theorem c70_agree (sqrt : K → K) (hs : IsSqrt sqrt) (g : GeoCfg K) (h0 : 0 ≤ g.minTolerance)
    (hT : g.tol1D < 1 / 2) (h1 : g.tolSq ≤ 1)
    (ht : 0 ≤ g.tolerance1D) (vs : List (V3 K)) (hc : StrictlyConvex vs) (hf : FlatPolygon vs)
    (p : V3 K) (hp : p.z = 0)
    (hclear : ∀ v a b, IsEdge vs v a b → g.ClearOfRay p a b)
    (hoff : ∀ v a b, IsEdge vs v a b → ¬ g.OnLine a b p) :
    g.pointPolygonRayCasting p vs = g.pointPolygonPosition sqrt p vs := by
  have hoff' : ∀ v a b, IsEdge vs v a b → area2 a b p ≠ 0 := fun v a b he =>
    area2_ne_zero g p a b (hf.edge he).1 (hf.edge he).2 hp (hoff v a b he)
  rcases c70_convex g h0 hT ht vs hc p hp hclear hoff' with ⟨i1, i2⟩ | ⟨i1, v, a, b, he, i2⟩ <;>
  rcases c69_off_lines sqrt g vs p hs h0 hT h1 ht hf hp hoff with ⟨j1, j2⟩ | ⟨j1, w, c, d, hf', j2⟩
  · rw [i1, j1]
  · linarith [i2 w c d hf']
  · linarith [j2 v a b he]
  · rw [i1, j1]

/-- C70, on the border: there is always an answer, and if it is an edge or a vertex, the point is
within the tolerance, in both coordinates, of a point of the line of an edge that is on the edge or,
up to the tolerance in the coordinate on the edge, at the vertex. The polygon must have no edges of
a height between zero and the tolerance. -/
theorem c70_border (g : GeoCfg K) (h0 : 0 ≤ g.minTolerance) (hT : g.tol1D < 1 / 2)
    (ht : 0 ≤ g.tolerance1D) (vs : List (V3 K)) (hf : FlatPolygon vs) (p : V3 K) (hp : p.z = 0)
    (hflat : ∀ v a b, IsEdge vs v a b → a.y = b.y ∨ g.tol1D < |b.y - a.y|) :
    g.pointPolygonRayCasting p vs = ok .inside ∨ g.pointPolygonRayCasting p vs = ok .outside ∨
    ∃ v a b s r, IsEdge vs v a b ∧ g.pointPolygonRayCasting p vs = ok r ∧
      |(pointAt a b s).x - p.x| ≤ g.tol1D ∧ |(pointAt a b s).y - p.y| ≤ g.tol1D ∧
      ((r = .borderEdge v ∧ g.tol1D < s ∧ s < 1 - g.tol1D) ∨ (r = .borderVertex v ∧ |s| ≤ g.tol1D) ∨
       (r = .borderVertex ((v + 1) % vs.length) ∧ |s - 1| ≤ g.tol1D)) := by
  rw [rayCasting_eq g p vs hf.1 (by rw [hp, abs_zero]; exact ht)]
  have hst : ∀ v a b, IsEdge vs v a b → _ := fun v a b he =>
    rayStep_stop g h0 hT p a b (hf.edge he).1 (hf.edge he).2 hp v ((v + 1) % vs.length)
      (hflat v a b he)
  rcases rayLoop_cases g p vs (List.range vs.length) 0 (fun v hv => by
    obtain ⟨a, b, he⟩ := isEdge_of_lt vs v (List.mem_range.1 hv)
    rcases hst v a b he with ⟨n, k⟩ | ⟨r, s, k, -⟩
    · exact ⟨a, b, _, he, k⟩
    · exact ⟨a, b, _, he, k⟩) with h | h | ⟨v, -, a, b, r, he, h1, h2⟩
  · left; exact h
  · right; left; exact h
  · right; right
    rcases hst v a b he with ⟨n, k⟩ | ⟨r', s, k, k2, k3, k4⟩
    · rw [h1] at k; cases k
    · rw [h1] at k; cases k
      exact ⟨v, a, b, s, r, he, h2, k2, k3, k4⟩

/-- C70, points of the border: a point of an edge is reported on this edge if all other edges are
clear of the ray. -/
theorem c70_on_edge (g : GeoCfg K) (h0 : 0 ≤ g.minTolerance) (hT : g.tol1D < 1 / 2)
    (ht : 0 ≤ g.tolerance1D) (vs : List (V3 K)) (hf : FlatPolygon vs) (p : V3 K)
    (v : Nat) (a b : V3 K) (he : IsEdge vs v a b) (hab : a.y = b.y ∧ dist2 a b ≠ 0 ∨ g.tol1D < |b.y - a.y|)
    (t : K) (ht1 : g.tol1D < t) (ht2 : t < 1 - g.tol1D) (hpt : p = pointAt a b t)
    (hclear : ∀ w c d, IsEdge vs w c d → w ≠ v → g.ClearOfRay p c d) :
    g.pointPolygonRayCasting p vs = ok (.borderEdge v) := by
  have hT0 := g.tol1D_nonneg h0
  obtain ⟨az, bz⟩ := hf.edge he
  have hp : p.z = 0 := by rw [hpt]; simp only [pointAt]; rw [az, bz]; ring
  rw [rayCasting_eq g p vs hf.1 (by rw [hp, abs_zero]; exact ht)]
  have hstep : ∀ w, g.rayStep p a b v w = ok (.stop (.borderEdge v)) := by
    intro w
    rcases hab with ⟨hab, hd⟩ | hab
    · unfold GeoCfg.rayStep
      simp only
      have hy : p.y - a.y = 0 := by rw [hpt]; simp only [pointAt]; rw [hab]; ring
      have hco : coordOn a b p = t := by
        unfold coordOn
        rw [div_eq_iff hd, hpt]; simp only [dot4, dist2, pointAt]; ring
      rw [if_pos ((g.zero_1D h0 _).2 (by
        simp only [V3.sub]; rw [hab, sub_self, abs_zero]; exact hT0)),
        if_pos ((g.zero_1D h0 _).2 (by rw [hy, abs_zero]; exact hT0)), V3.sub_dot_pointAt,
        if_neg hd, coordOn_eq, hco, (c29_position g t h0 hT).2.2.1.2 ⟨ht1, ht2⟩]
      rfl
    · have hne : b.y - a.y ≠ 0 := by
        intro k; rw [k, abs_zero] at hab; linarith
      have hst : (p.y - a.y) / (b.y - a.y) = t := by
        rw [div_eq_iff hne, hpt]; simp only [pointAt]; ring
      unfold GeoCfg.rayStep
      simp only
      rw [if_neg (fun k => absurd ((g.zero_1D h0 (b.sub a).y).1 k) (not_le.2 hab))]
      simp only [V3.sub]
      have hx : a.x + t * (b.x - a.x) - p.x = 0 := by rw [hpt]; simp only [pointAt]; ring
      rw [hst, (c29_position g t h0 hT).2.2.1.2 ⟨ht1, ht2⟩, ok_bind]
      simp only
      rw [hx, (c29_position g 0 h0 hT).2.1.2 (by rw [abs_zero]; exact hT0), ok_bind]
      rfl
  have hv := he.lt
  have hsplit : List.range vs.length = List.range v ++ (v :: (List.range vs.length).drop (v + 1)) := by
    have h1 := (List.take_append_drop v (List.range vs.length)).symm
    have h2 : (List.range vs.length).take v = List.range v := by
      rw [List.take_range, min_eq_left hv.le]
    have h3 : (List.range vs.length).drop v = v :: (List.range vs.length).drop (v + 1) := by
      rw [List.drop_eq_getElem_cons (by rw [List.length_range]; exact hv), List.getElem_range]
    rw [h2, h3] at h1
    exact h1
  rw [hsplit, rayLoop_clear g h0 hT p vs (List.range v) _ 0 (fun w hw => by
    have hw' := List.mem_range.1 hw
    obtain ⟨c, d, hcd⟩ := isEdge_of_lt vs w (by omega)
    exact ⟨c, d, hcd, hclear w c d hcd (by omega)⟩),
    rayLoop_cons g p vs v _ _ a b he _ (hstep _).symm]

/-- The hypotheses of the theorems on C70: the square (0, 0), (1, 0), (1, 1), (0, 1) with the point
(1/2, 1/2). -/
example : let vs : List (V3 ℝ) := [⟨0, 0, 0⟩, ⟨1, 0, 0⟩, ⟨1, 1, 0⟩, ⟨0, 1, 0⟩]
    StrictlyConvex vs ∧ FlatPolygon vs ∧
    (∀ v a b, IsEdge vs v a b → defaultGeo.ClearOfRay ⟨1 / 2, 1 / 2, 0⟩ a b ∧
      ¬ defaultGeo.OnLine a b ⟨1 / 2, 1 / 2, 0⟩ ∧ area2 a b ⟨1 / 2, 1 / 2, 0⟩ ≠ 0 ∧
      (a.y = b.y ∨ defaultGeo.tol1D < |b.y - a.y|)) ∧
    (∀ v a b, IsEdge vs v a b → v ≠ 1 → defaultGeo.ClearOfRay ⟨1, 1 / 2, 0⟩ a b) := by
  intro vs
  have key : ∀ v a b, IsEdge vs v a b → v = 0 ∧ a = ⟨0, 0, 0⟩ ∧ b = ⟨1, 0, 0⟩ ∨
      v = 1 ∧ a = ⟨1, 0, 0⟩ ∧ b = ⟨1, 1, 0⟩ ∨ v = 2 ∧ a = ⟨1, 1, 0⟩ ∧ b = ⟨0, 1, 0⟩ ∨
      v = 3 ∧ a = ⟨0, 1, 0⟩ ∧ b = ⟨0, 0, 0⟩ := by
    intro v a b h
    have hl := h.lt
    obtain ⟨h1, h2⟩ := h
    simp only [vs, List.length_cons, List.length_nil] at hl h1 h2
    have : v = 0 ∨ v = 1 ∨ v = 2 ∨ v = 3 := by omega
    rcases this with rfl | rfl | rfl | rfl <;> simp_all
  have hmem : ∀ (i : Nat) c, vs[i]? = some c → i = 0 ∧ c = ⟨0, 0, 0⟩ ∨ i = 1 ∧ c = ⟨1, 0, 0⟩ ∨
      i = 2 ∧ c = ⟨1, 1, 0⟩ ∨ i = 3 ∧ c = ⟨0, 1, 0⟩ := by
    intro i c h
    have hl : i < 4 := by
      by_contra k
      rw [List.getElem?_eq_none (by simpa [vs] using k)] at h
      cases h
    have : i = 0 ∨ i = 1 ∨ i = 2 ∨ i = 3 := by omega
    rcases this with rfl | rfl | rfl | rfl <;> simp_all [vs]
  refine ⟨⟨by simp [vs], ?_⟩, ⟨by simp [vs], ?_⟩, ?_, ?_⟩
  · intro v a b he i c hi hv hw
    have hw' : i ≠ (v + 1) % 4 := hw
    rcases key v a b he with ⟨rfl, rfl, rfl⟩ | ⟨rfl, rfl, rfl⟩ | ⟨rfl, rfl, rfl⟩ | ⟨rfl, rfl, rfl⟩ <;>
    rcases hmem i c hi with ⟨rfl, rfl⟩ | ⟨rfl, rfl⟩ | ⟨rfl, rfl⟩ | ⟨rfl, rfl⟩ <;>
    first | exact absurd rfl hv | exact absurd rfl hw' | norm_num [area2]
  · intro v hv
    simp only [vs, List.mem_cons, List.not_mem_nil, or_false] at hv
    rcases hv with rfl | rfl | rfl | rfl <;> rfl
  · intro v a b he
    rcases key v a b he with ⟨-, rfl, rfl⟩ | ⟨-, rfl, rfl⟩ | ⟨-, rfl, rfl⟩ | ⟨-, rfl, rfl⟩ <;>
    unfold GeoCfg.OnLine GeoCfg.ClearOfRay <;> rw [defaultGeo_tolSq, defaultGeo_tol1D] <;>
    norm_num [area2, dist2, cross2, coordOn, dot4]
  · intro v a b he hv
    rcases key v a b he with ⟨rfl, rfl, rfl⟩ | ⟨rfl, rfl, rfl⟩ | ⟨rfl, rfl, rfl⟩ | ⟨rfl, rfl, rfl⟩ <;>
    first | exact absurd rfl hv |
      (unfold GeoCfg.ClearOfRay; rw [defaultGeo_tol1D]; norm_num [coordOn, dist2, dot4])

/-- C70 is violated if the ray passes a vertex at a height within the tolerance: the triangle
(0, -1/10), (1, 0), (0, 1) and a point half a tolerance above the height of (1, 0). The tolerance is
relative to the height of the edge, so the ray ends after one edge and at the vertex for the other
one, and neither is counted. The point is well inside the triangle and is reported outside. -/
theorem c70_violated :
    let vs : List (V3 ℝ) := [⟨0, -1 / 10, 0⟩, ⟨1, 0, 0⟩, ⟨0, 1, 0⟩]
    let p : V3 ℝ := ⟨1 / 2, defaultGeo.tol1D / 2, 0⟩
    defaultGeo.pointPolygonRayCasting p vs = ok .outside ∧
    (∀ v a b, IsEdge vs v a b → 1 / 25 < area2 a b p) ∧
    defaultGeo.pointPolygonPosition Real.sqrt p vs = ok .inside := by
  intro vs p
  have key : ∀ v a b, IsEdge vs v a b → v = 0 ∧ a = ⟨0, -1 / 10, 0⟩ ∧ b = ⟨1, 0, 0⟩ ∨
      v = 1 ∧ a = ⟨1, 0, 0⟩ ∧ b = ⟨0, 1, 0⟩ ∨
      v = 2 ∧ a = ⟨0, 1, 0⟩ ∧ b = ⟨0, -1 / 10, 0⟩ := by
    intro v a b h
    have hl := h.lt
    obtain ⟨h1, h2⟩ := h
    simp only [vs, List.length_cons, List.length_nil] at hl h1 h2
    have : v = 0 ∨ v = 1 ∨ v = 2 := by omega
    rcases this with rfl | rfl | rfl <;> simp_all
  have h0 : (0 : ℝ) ≤ defaultGeo.minTolerance := by norm_num [defaultGeo]
  have hT : defaultGeo.tol1D < 1 / 2 := by rw [defaultGeo_tol1D]; norm_num
  have h1 : defaultGeo.tolSq ≤ 1 := by rw [defaultGeo_tolSq]; norm_num
  have ht : 0 ≤ defaultGeo.tolerance1D := by norm_num [defaultGeo]
  have harea : ∀ v a b, IsEdge vs v a b → 1 / 25 < area2 a b p := by
    intro v a b he
    simp only [p]
    rw [defaultGeo_tol1D]
    rcases key v a b he with ⟨-, rfl, rfl⟩ | ⟨-, rfl, rfl⟩ | ⟨-, rfl, rfl⟩ <;> norm_num [area2]
  refine ⟨?_, harea, ?_⟩
  · rw [rayCasting_eq defaultGeo p vs (by simp [vs]) (by simp [p]; exact ht)]
    have e : List.range vs.length = [0, 1, 2] := by simp [vs, List.range_succ]
    have hpos := fun t => c29_position defaultGeo t h0 hT
    have hz : ∀ y : ℝ, defaultGeo.tol1D < |y| → ¬ (defaultGeo.isValueZero y defaultGeo.tol1D = true) :=
      fun y hy k => absurd ((defaultGeo.zero_1D h0 y).1 k) (not_le.2 hy)
    have s0 : ∀ v w, defaultGeo.rayStep p ⟨0, -1 / 10, 0⟩ ⟨1, 0, 0⟩ v w = ok (.count 0) := by
      intro v w
      unfold GeoCfg.rayStep
      simp only [V3.sub, p]
      rw [if_neg (hz _ (by rw [defaultGeo_tol1D]; norm_num)),
        (hpos _).2.2.2.2.1.2 (by rw [defaultGeo_tol1D]; norm_num)]
      rfl
    have s1 : ∀ v w, defaultGeo.rayStep p ⟨1, 0, 0⟩ ⟨0, 1, 0⟩ v w = ok (.count 0) := by
      intro v w
      unfold GeoCfg.rayStep
      simp only [V3.sub, p]
      rw [if_neg (hz _ (by rw [defaultGeo_tol1D]; norm_num)),
        (hpos _).2.1.2 (by rw [defaultGeo_tol1D]; norm_num), ok_bind]
      simp only
      rw [(hpos _).2.2.1.2 (by rw [defaultGeo_tol1D]; norm_num), ok_bind]
      have : ¬ (defaultGeo.isValueGreater (defaultGeo.tol1D / 2) 1 defaultGeo.tol1D = true) := by
        rw [greater_1D defaultGeo h0]
        rintro ⟨k, -⟩
        linarith
      simp only
      rw [if_pos trivial, if_neg this]
    have s2 : ∀ v w, defaultGeo.rayStep p ⟨0, 1, 0⟩ ⟨0, -1 / 10, 0⟩ v w = ok (.count 0) := by
      intro v w
      unfold GeoCfg.rayStep
      simp only [V3.sub, p]
      rw [if_neg (hz _ (by rw [defaultGeo_tol1D]; norm_num)),
        (hpos _).2.2.1.2 (by rw [defaultGeo_tol1D]; norm_num), ok_bind]
      simp only
      rw [(hpos _).1.2 (by rw [defaultGeo_tol1D]; norm_num)]
      rfl
    rw [e, rayLoop_cons defaultGeo p vs 0 _ _ _ _ ⟨rfl, rfl⟩ _ (s0 _ _).symm]
    simp only
    rw [rayLoop_cons defaultGeo p vs 1 _ _ _ _ ⟨rfl, rfl⟩ _ (s1 _ _).symm]
    simp only
    rw [rayLoop_cons defaultGeo p vs 2 _ _ _ _ ⟨rfl, by simp [vs]⟩ _ (s2 _ _).symm]
    rfl
  · have hflat : FlatPolygon vs := ⟨by simp [vs], fun v hv => by
      simp only [vs, List.mem_cons, List.not_mem_nil, or_false] at hv
      rcases hv with rfl | rfl | rfl <;> rfl⟩
    rcases c69_off_lines Real.sqrt defaultGeo vs p isSqrt_real h0 hT h1 ht hflat rfl (fun v a b he => by
      unfold GeoCfg.OnLine
      rw [defaultGeo_tolSq]
      simp only [p]
      rw [defaultGeo_tol1D]
      rcases key v a b he with ⟨-, rfl, rfl⟩ | ⟨-, rfl, rfl⟩ | ⟨-, rfl, rfl⟩ <;>
        norm_num [dist2, cross2]) with ⟨i, -⟩ | ⟨-, v, a, b, he, i⟩
    · exact i
    · linarith [harea v a b he]

end Verif
