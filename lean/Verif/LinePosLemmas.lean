import Verif.LinePosSpec
import Verif.IntersectProps

/-
Lemmas for the position of a line with respect to a polygon.
-/
namespace Verif

open Res

variable {K : Type} [Field K] [LinearOrder K] [IsStrictOrderedRing K]

/-- A triangle taken for aligned has a cross product that is small in comparison with its sides. -/
theorem aligned_cross {sqrt : K → K} (hs : IsSqrt sqrt) (g : GeoCfg K) (h0 : 0 ≤ g.minTolerance)
    (a b c : V3 K) (h : g.pointIsAligned sqrt a b c = true) :
    ((b.sub a).cross (c.sub a)).dot ((b.sub a).cross (c.sub a)) ≤
      g.tol1D * g.tol1D * (dist2 a b * dist2 a c) := by
  rw [GeoCfg.pointIsAligned, g.zero_1D h0] at h
  have n1 := smul_norm_normalized hs (b.sub a)
  have n2 := smul_norm_normalized hs (c.sub a)
  have q1 := norm_sq hs (b.sub a)
  have q2 := norm_sq hs (c.sub a)
  rw [V3.sub_dot_pointAt] at q1 q2
  have q3 := norm_sq hs (((b.sub a).normalized sqrt).cross ((c.sub a).normalized sqrt))
  generalize (b.sub a).normalized sqrt = u at *
  generalize (c.sub a).normalized sqrt = v at *
  have hT := g.tol1D_nonneg h0
  have hle : (u.cross v).norm sqrt * (u.cross v).norm sqrt ≤ g.tol1D * g.tol1D := by
    rw [← abs_mul_abs_self ((u.cross v).norm sqrt)]
    exact mul_le_mul h h (abs_nonneg _) hT
  have e : ((b.sub a).cross (c.sub a)).dot ((b.sub a).cross (c.sub a)) =
      (u.cross v).dot (u.cross v) * (dist2 a b * dist2 a c) := by
    rw [← q1, ← q2]
    conv_lhs => rw [← n1, ← n2]
    simp only [V3.smul, V3.cross, V3.dot]; ring
  rw [e, ← q3]
  exact mul_le_mul_of_nonneg_right hle (by
    rw [← q1, ← q2]; exact mul_nonneg (mul_self_nonneg _) (mul_self_nonneg _))

/-- The lines through parallel segments are coplanar. -/
theorem coplanar_of_parallel {sqrt : K → K} (g : GeoCfg K) (h0 : 0 ≤ g.minTolerance) (x₁ x₂ x₃ : V3 K)
    (c : K) : g.areLineCoplanar sqrt x₁ (x₂.sub x₁) x₃ (V3.smul c (x₂.sub x₁)) = true := by
  have hz : ∀ v : V3 K, ∃ c, v.normalized sqrt = V3.smul c v := by
    intro v
    unfold V3.normalized
    split
    · exact ⟨_, rfl⟩
    · exact ⟨1, by ext <;> simp [V3.smul]⟩
  obtain ⟨c0, e0⟩ := hz (x₃.sub x₁)
  obtain ⟨c1, e1⟩ := hz (x₂.sub x₁)
  obtain ⟨c2, e2⟩ := hz ((x₃.add (V3.smul c (x₂.sub x₁))).sub x₁)
  unfold GeoCfg.areLineCoplanar
  simp only
  rw [e0, e1, e2]
  generalize hd : M3.det (K := K) _ = d
  have hdet : d = 0 := by
    rw [← hd]
    simp only [M3.det, V3.smul, V3.sub, V3.add]
    ring
  rw [hdet, abs_zero]
  have : g.isValuePositive 0 g.tol1D = false := by
    rw [← Bool.not_eq_true, g.positive_1D h0]
    exact not_lt.2 (g.tol1D_nonneg h0)
  rw [this]
  simp

theorem onDirLine_iff (o t p : V3 K) : OnDirLine o t p ↔ ∃ q, p = pointAt o (o.add t) q := by
  unfold OnDirLine
  have : ∀ q : K, (⟨o.x + q * t.x, o.y + q * t.y, o.z + q * t.z⟩ : V3 K) = pointAt o (o.add t) q := by
    intro q
    ext <;> simp only [pointAt, V3.add] <;> ring
  simp only [this]

/-- The round of the loop for one edge. -/
def GeoCfg.lineEdge (g : GeoCfg K) (sqrt : K → K) (o t a b : V3 K) (e : Nat) : Res (Option (EdgeHit K)) :=
  g.intersectionSegmentSegment sqrt a b o (o.add t) >>= edgeHit e

theorem add_sub_self (o t : V3 K) : (o.add t).sub o = t := by
  ext <;> simp only [V3.add, V3.sub] <;> ring

/-- An edge on the line that touches the segment from the origin of the line. -/
theorem lineEdge_on {sqrt : K → K} (hs : IsSqrt sqrt) (g : GeoCfg K) (h0 : 0 ≤ g.minTolerance)
    (hT : g.tol1D < 1 / 2) (a b : V3 K) (α β : K) (e : Nat) (t : V3 K)
    (ht : (pointAt a b α).add t = pointAt a b β) (ha : g.tolSq < dist2 a b)
    (hb : g.tolSq < dist2 (pointAt a b α) (pointAt a b β)) (hlo : min α β ≤ 1) (hhi : 0 ≤ max α β) :
    g.lineEdge sqrt (pointAt a b α) t a b e = ok (some ⟨.parallel, e, 0⟩) ∧
      ∀ s, OnDirLine (pointAt a b α) t (pointAt a b s) := by
  have hb' : g.tolSq < (β - α) * (β - α) * dist2 a b := by
    refine lt_of_lt_of_eq hb ?_
    simp only [dist2, pointAt]; ring
  obtain ⟨rel, a0, a1, b0, b1, hr, _⟩ := c65_collinear_partial sqrt hs g h0 hT a b α β ha hb' hlo hhi
  constructor
  · rw [GeoCfg.lineEdge, ht, hr]; rfl
  · intro s
    have hab : β - α ≠ 0 := by
      intro h
      rw [h] at hb'
      simp only [zero_mul] at hb'
      exact absurd hb' (not_lt.2 g.tolSq_nonneg)
    rw [onDirLine_iff, ht]
    refine ⟨(s - α) / (β - α), ?_⟩
    ext <;> simp only [pointAt] <;> field_simp <;> ring

/-- An edge parallel to the line and away from it. -/
theorem lineEdge_away {sqrt : K → K} (hs : IsSqrt sqrt) (g : GeoCfg K) (h0 : 0 ≤ g.minTolerance)
    (a b o : V3 K) (c : K) (e : Nat) (ha : g.tolSq < dist2 a b)
    (hb : g.tolSq < dist2 o (o.add (V3.smul c (b.sub a))))
    (h1 : g.tol1D * g.tol1D * (dist2 a b * dist2 a o) <
        ((b.sub a).cross (o.sub a)).dot ((b.sub a).cross (o.sub a)))
    (h2 : g.tol1D * g.tol1D * (dist2 a b * dist2 a (o.add (V3.smul c (b.sub a)))) <
        ((b.sub a).cross (o.sub a)).dot ((b.sub a).cross (o.sub a))) :
    g.lineEdge sqrt o (V3.smul c (b.sub a)) a b e = ok none ∧
      ∀ s, ¬ OnDirLine o (V3.smul c (b.sub a)) (pointAt a b s) := by
  have hc : c ≠ 0 := by
    rintro rfl
    have : dist2 o (o.add (V3.smul 0 (b.sub a))) = 0 := by
      simp only [dist2, V3.add, V3.smul]; ring
    rw [this] at hb
    exact absurd hb (not_lt.2 g.tolSq_nonneg)
  have hpa : 0 < (b.sub a).dot (b.sub a) := by
    rw [V3.sub_dot_pointAt]; exact lt_of_le_of_lt g.tolSq_nonneg ha
  have n1 : g.pointIsAligned sqrt a b o = false := by
    rw [← Bool.not_eq_true]
    intro h
    exact absurd (aligned_cross hs g h0 a b o h) (not_le.2 h1)
  have n2 : g.pointIsAligned sqrt a b (o.add (V3.smul c (b.sub a))) = false := by
    rw [← Bool.not_eq_true]
    intro h
    refine absurd (aligned_cross hs g h0 a b _ h) (not_le.2 (lt_of_lt_of_eq h2 ?_))
    simp only [V3.cross, V3.dot, V3.sub, V3.add, V3.smul]; ring
  constructor
  · rw [GeoCfg.lineEdge, segSeg_cases hs g _ _ _ _ (by rw [V3.sub_dot_pointAt]; exact ha)
      (by rw [V3.sub_dot_pointAt]; exact hb), add_sub_self, coplanar_of_parallel g h0, if_neg (by simp),
      notParallel_collinear hs g a b hpa c hc, if_neg (by simp)]
    unfold GeoCfg.parallelSegments
    simp only
    rw [n1, n2]
    rfl
  · rintro s ⟨q, hq⟩
    have hz : ((b.sub a).cross (o.sub a)).dot ((b.sub a).cross (o.sub a)) = 0 := by
      have : o.sub a = V3.smul (s - q * c) (b.sub a) := by
        simp only [pointAt, V3.smul, V3.sub, V3.mk.injEq] at hq ⊢
        obtain ⟨hx, hy, hz⟩ := hq
        refine ⟨?_, ?_, ?_⟩
        · linear_combination -hx
        · linear_combination -hy
        · linear_combination -hz
      rw [this]
      simp only [V3.cross, V3.dot, V3.smul]; ring
    rw [hz] at h1
    refine absurd h1 (not_lt.2 ?_)
    have d : ∀ x y : V3 K, 0 ≤ dist2 x y := fun x y => by
      rw [← V3.sub_dot_pointAt]; exact dot_self_nonneg _
    exact mul_nonneg (mul_self_nonneg _) (mul_nonneg (d _ _) (d _ _))

/-- An edge whose line meets the line at an angle. -/
theorem lineEdge_cross {sqrt : K → K} (hs : IsSqrt sqrt) (g : GeoCfg K) (h0 : 0 ≤ g.minTolerance)
    (hT : g.tol1D < 1 / 2) (h1 : g.tolSq ≤ 1) (a b o t : V3 K) (e : Nat) (s q : K)
    (ha : g.tolSq < dist2 a b) (hb : g.tolSq < dist2 o (o.add t))
    (hd : dot4 a b o (o.add t) * dot4 a b o (o.add t) <
      (1 - g.tolSq) * (1 - g.tolSq) * (dist2 a b * dist2 o (o.add t)))
    (hm : pointAt a b s = pointAt o (o.add t) q) :
    ∃ p, g.pointSegmentPosition s = ok p ∧ g.lineEdge sqrt o t a b e = ok (edgeHitOf e ⟨p, s⟩) ∧
      ∀ s', OnDirLine o t (pointAt a b s') ↔ s' = s := by
  rw [← V3.sub_dot_pointAt, ← V3.sub_dot_pointAt o, ← sub_sub_dot] at hd
  rw [← V3.sub_dot_pointAt] at ha hb
  have pa := lt_of_le_of_lt g.tolSq_nonneg ha
  have pb := lt_of_le_of_lt g.tolSq_nonneg hb
  have hp := notParallel_of_lt hs g _ _ pa pb h1 hd
  have hD := (notParallel_det hs g _ _ pa pb hp).ne'
  obtain ⟨e1, e2⟩ := nearest_unique a b o (o.add t) hD s q hm
  obtain ⟨ps, hps⟩ := (c29_position g s h0 hT).2.2.2.2.2
  obtain ⟨pq, hpq⟩ := (c29_position g q h0 hT).2.2.2.2.2
  refine ⟨ps, hps, ?_, fun s' => ⟨fun h => ?_, fun h => ?_⟩⟩
  · rw [GeoCfg.lineEdge, segSeg_cases hs g _ _ _ _ ha hb, coplanar_of_meet g h0 a b o _ s q hm,
      if_neg (by simp), if_pos hp, e1, e2, hps, ok_bind, hpq, ok_bind]
    have hty : edgeHit e (⟨.coPlanarIntersecting, if (onSegment ps && onSegment pq) = true then
        SegmentsType.singleIntersection else SegmentsType.noIntersection, [0], [⟨ps, s⟩], [⟨pq, q⟩]⟩ :
        SegSegResult K) = ok (edgeHitOf e ⟨ps, s⟩) := by
      unfold edgeHit
      split <;> simp [vget, ok_bind]
    exact hty
  · obtain ⟨q', hq'⟩ := (onDirLine_iff o t _).1 h
    exact ((nearest_unique a b o (o.add t) hD s' q' hq').1.symm.trans e1)
  · rw [h]
    exact (onDirLine_iff o t _).2 ⟨q, hm⟩

/-- The entry of a resolved edge is the right one. -/
theorem lineEdge_ok {sqrt : K → K} (hs : IsSqrt sqrt) (g : GeoCfg K) (h0 : 0 ≤ g.minTolerance)
    (hT : g.tol1D < 1 / 2) (h1 : g.tolSq ≤ 1) (o t a b : V3 K) (e : Nat)
    (h : LineEdgeResolved g o t a b) :
    ∃ x, g.lineEdge sqrt o t a b e = ok x ∧ EdgeEntry o t a b e x := by
  obtain ⟨ha, hb, ⟨α, β, ho, hf, hlo, hhi⟩ | ⟨⟨c, hc⟩, hn, hf⟩ | ⟨hd, s, q, hm, hs1⟩⟩ := h
  · rw [hf] at hb
    rw [ho] at hb hf ⊢
    obtain ⟨h1, h2⟩ := lineEdge_on hs g h0 hT a b α β e t hf ha hb hlo hhi
    exact ⟨_, h1, rfl, by simpa using h2⟩
  · rw [hc] at hb hf ⊢
    obtain ⟨h1, h2⟩ := lineEdge_away hs g h0 a b o c e ha hb hn hf
    exact ⟨_, h1, fun s _ _ => h2 s⟩
  · obtain ⟨p, hp, hr, hl⟩ := lineEdge_cross hs g h0 hT h1 a b o t e s q ha hb hd hm
    refine ⟨_, hr, ?_⟩
    have hT0 := g.tol1D_nonneg h0
    obtain ⟨k1, k2, k3, k4, k5, _⟩ := c29_position g s h0 hT
    rw [hp] at k1 k2 k3 k4 k5
    simp only [ok.injEq] at k1 k2 k3 k4 k5
    by_cases c1 : s = 0
    · have : p = .onSegmentOrigin := k2.2 (by rw [c1, abs_zero]; exact hT0)
      subst this
      refine ⟨rfl, ?_⟩
      rw [if_neg (by simp)]
      exact ⟨c1.ge, by simp only; rw [c1]; exact zero_le_one, hl, by simp [c1], by simp [c1]⟩
    by_cases c2 : s = 1
    · have : p = .onSegmentEnd := k4.2 (by rw [c2, sub_self, abs_zero]; exact hT0)
      subst this
      refine ⟨rfl, ?_⟩
      rw [if_neg (by simp)]
      exact ⟨by simp only; rw [c2]; exact zero_le_one, c2.le, hl, by simp [c2], by simp [c2]⟩
    obtain ⟨r1, r2⟩ := (hs1.resolve_left c1).resolve_left c2
    by_cases c3 : s < 0
    · have : p = .onSegmentLineBeforeOrigin := k1.2 (by rw [abs_of_neg c3] at r1; linarith)
      subst this
      intro s' hs0 _ hon
      rw [(hl s').1 hon] at hs0
      exact absurd hs0 (not_le.2 c3)
    by_cases c4 : 1 < s
    · have : p = .onSegmentLineAfterEnd := k5.2 (by rw [abs_of_pos (by linarith)] at r2; linarith)
      subst this
      intro s' _ hs1' hon
      rw [(hl s').1 hon] at hs1'
      exact absurd hs1' (not_le.2 c4)
    push Not at c3 c4
    have : p = .insideSegment := k3.2 (by
      rw [abs_of_nonneg c3] at r1
      rw [abs_of_nonpos (by linarith)] at r2
      exact ⟨r1, by linarith⟩)
    subst this
    refine ⟨rfl, ?_⟩
    rw [if_neg (by simp)]
    exact ⟨c3, c4, hl, by simp [c1], by simp [c2]⟩

theorem linePolygonStep_eq {sqrt : K → K} (g : GeoCfg K) (t o : V3 K) (vs : List (V3 K))
    (acc : LinePolygonResult K) (e : Nat) {a b : V3 K} (ha : vs[e]? = some a)
    (hb : vs[(e + 1) % vs.length]? = some b) :
    g.linePolygonStep sqrt t o vs acc e = (g.lineEdge sqrt o t a b e >>= fun h =>
      match h with
      | none => ok acc
      | some x => ok ⟨true, acc.hits ++ [x]⟩) := by
  unfold GeoCfg.linePolygonStep GeoCfg.lineEdge
  rw [vget_eq_ok.2 ha, ok_bind, vget_eq_ok.2 hb, ok_bind]
  cases g.intersectionSegmentSegment sqrt a b o (o.add t) <;> rfl

/-- The loop collects the entries of the edges. -/
theorem linePolygon_fold {sqrt : K → K} (g : GeoCfg K) (t o : V3 K) (vs : List (V3 K))
    (entry : Nat → Option (EdgeHit K))
    (h : ∀ e a b, vs[e]? = some a → vs[(e + 1) % vs.length]? = some b →
      g.lineEdge sqrt o t a b e = ok (entry e)) (n : Nat) (hn : n ≤ vs.length) :
    foldRes (g.linePolygonStep sqrt t o vs) ⟨false, []⟩ (List.range n) =
      ok ⟨decide (((List.range n).map entry).filterMap id ≠ []),
        ((List.range n).map entry).filterMap id⟩ := by
  induction n with
  | zero => simp
  | succ n ih =>
    obtain ⟨a, ha⟩ : ∃ a, vs[n]? = some a := ⟨_, List.getElem?_eq_getElem hn⟩
    obtain ⟨b, hb⟩ : ∃ b, vs[(n + 1) % vs.length]? = some b :=
      ⟨_, List.getElem?_eq_getElem (Nat.mod_lt _ (by omega))⟩
    rw [List.range_succ, foldRes_append, ih (by omega), ok_bind, foldRes_cons,
      linePolygonStep_eq g t o vs _ n ha hb, h n a b ha hb, ok_bind, List.map_append,
      List.filterMap_append]
    cases he : entry n <;> simp [he, foldRes_nil, ok_bind]

end Verif
