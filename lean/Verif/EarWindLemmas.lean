import Verif.EarSpec
import Verif.PolygonLemmas
import Mathlib.Tactic.LinearCombination

/-
The winding number: additivity on lines and its value for a triangle.
-/
namespace Verif

variable {K : Type} [Field K] [LinearOrder K] [IsStrictOrderedRing K]

theorem sign_same {x y s t : K} (h : x * s = y * t) (hs : 0 < s) (ht : 0 < t) :
    (0 < x ↔ 0 < y) ∧ (x < 0 ↔ y < 0) := by
  constructor
  · rw [← mul_pos_iff_of_pos_right hs, h, mul_pos_iff_of_pos_right ht]
  · have e : -x * s = -y * t := by linear_combination -h
    rw [← neg_pos, ← mul_pos_iff_of_pos_right hs, e, mul_pos_iff_of_pos_right ht, neg_pos]

/-- Crossings of an edge that is divided by a point of its line. -/
theorem rayCrossing_add {a b c : V3 K} (p : V3 K) (h : area2 a b c = 0) :
    rayCrossing p a b + rayCrossing p b c = rayCrossing p a c := by
  have r1 : area2 a b p * (c.y - a.y) = area2 a c p * (b.y - a.y) := by
    simp only [area2] at *; linear_combination (p.y - a.y) * h
  have r2 : area2 a b p * (c.y - b.y) = area2 b c p * (b.y - a.y) := by
    simp only [area2] at *; linear_combination (p.y - b.y) * h
  have r3 : area2 b c p * (c.y - a.y) = area2 a c p * (c.y - b.y) := by
    simp only [area2] at *; linear_combination (c.y - p.y) * h
  unfold rayCrossing
  generalize area2 a b p = A at *
  generalize area2 b c p = B at *
  generalize area2 a c p = C at *
  by_cases ha : a.y ≤ p.y <;> by_cases hb : b.y ≤ p.y <;> by_cases hc : c.y ≤ p.y <;>
    simp only [ha, hb, hc, not_lt.2, not_le.1, lt_irrefl, true_and, false_and, if_false, add_zero, zero_add]
  · -- a, b below
    have := sign_same r3 (by linarith [not_le.1 hc]) (by linarith [not_le.1 hc])
    simp [not_le.1 hc, not_lt.2 ha, not_lt.2 hb, this]
  · have := sign_same (x := A) (y := -B) (s := b.y - c.y) (t := b.y - a.y) (by linear_combination -r2)
      (by linarith [not_le.1 hb]) (by linarith [not_le.1 hb])
    have h1 : 0 < A ↔ B < 0 := by rw [this.1]; exact neg_pos
    simp only [not_le.1 hb, not_lt.2 ha, not_lt.2 hc, true_and, false_and, if_false, h1]
    split <;> rfl
  · have := sign_same r1 (by linarith [not_le.1 hc]) (by linarith [not_le.1 hb])
    simp [not_le.1 hb, not_le.1 hc, not_lt.2 ha, this]
  · have := sign_same (x := A) (y := C) (s := a.y - c.y) (t := a.y - b.y) (by linear_combination -r1)
      (by linarith [not_le.1 ha]) (by linarith [not_le.1 ha])
    simp [not_le.1 ha, not_lt.2 hb, not_lt.2 hc, this]
  · have := sign_same (x := A) (y := -B) (s := c.y - b.y) (t := a.y - b.y) (by linear_combination r2)
      (by linarith [not_le.1 hc]) (by linarith [not_le.1 ha])
    have h1 : A < 0 ↔ 0 < B := by rw [this.2]; exact neg_lt_zero
    simp only [not_le.1 ha, not_le.1 hc, not_lt.2 hb, true_and, false_and, if_false, h1]
    split <;> rfl
  · have := sign_same (x := B) (y := C) (s := a.y - c.y) (t := b.y - c.y) (by linear_combination -r3)
      (by linarith [not_le.1 ha]) (by linarith [not_le.1 hb])
    simp [not_le.1 ha, not_le.1 hb, not_lt.2 hc, this]

theorem onSegment_up {a b p : V3 K} (ha : a.z = 0) (hb : b.z = 0) (hp : p.z = 0) (h1 : a.y ≤ p.y) (h2 : p.y < b.y)
    (h : area2 a b p = 0) : OnSegment a b p := by
  have hd : 0 < b.y - a.y := by linarith
  refine ⟨(p.y - a.y) / (b.y - a.y), div_nonneg (by linarith) hd.le, (div_le_one hd).2 (by linarith), ?_, ?_, ?_⟩
  · field_simp
    simp only [area2] at h
    linear_combination -h
  · field_simp; ring
  · rw [ha, hb, hp]; ring

theorem OnSegment.symm {a b p : V3 K} (h : OnSegment a b p) : OnSegment b a p := by
  obtain ⟨s, h1, h2, h3, h4, h5⟩ := h
  exact ⟨1 - s, by linarith, by linarith, by rw [h3]; ring, by rw [h4]; ring, by rw [h5]; ring⟩

theorem onSegment_down {a b p : V3 K} (ha : a.z = 0) (hb : b.z = 0) (hp : p.z = 0) (h1 : b.y ≤ p.y) (h2 : p.y < a.y)
    (h : area2 a b p = 0) : OnSegment a b p := by
  refine (onSegment_up hb ha hp h1 h2 ?_).symm
  simp only [area2] at *; linear_combination -h

theorem windingNumber_triangle (a b c p : V3 K) :
    windingNumber [a, b, c] p = rayCrossing p a b + (rayCrossing p b c + rayCrossing p c a) := by
  simp [windingNumber]

/-- Two corners of the triangle above the ray. -/
theorem winding_case1 {a b c p : V3 K} (ha : a.z = 0) (hb : b.z = 0) (hc : c.z = 0) (hp : p.z = 0)
    (hpos : 0 < area2 a b c) (hoff : OffSides (a, b, c) p) (h1 : a.y ≤ p.y) (h2 : p.y < b.y) (h3 : p.y < c.y) :
    (InsideTriangle (a, b, c) p → windingNumber [a, b, c] p = 1) ∧
    (¬ InsideTriangle (a, b, c) p → windingNumber [a, b, c] p = 0) := by
  obtain ⟨o1, -, o3⟩ := hoff
  have hA : area2 a b p ≠ 0 := fun h => o1 (onSegment_up ha hb hp h1 h2 h)
  have hC : area2 c a p ≠ 0 := fun h => o3 (onSegment_down hc ha hp h1 h3 h)
  have hsum : area2 a b p + area2 b c p + area2 c a p = area2 a b c := by simp only [area2]; ring
  have hy : area2 a b p * (c.y - p.y) + area2 b c p * (a.y - p.y) + area2 c a p * (b.y - p.y) = 0 := by
    simp only [area2]; ring
  rw [windingNumber_triangle]
  unfold rayCrossing InsideTriangle
  simp only
  generalize area2 a b p = A at *
  generalize area2 b c p = B at *
  generalize area2 c a p = C at *
  simp only [h1, h2, h3, not_lt.2 h1, not_le.2 h2, not_le.2 h3, true_and, false_and, and_false, if_false, zero_add]
  rcases lt_or_gt_of_ne hA with kA | kA <;> rcases lt_or_gt_of_ne hC with kC | kC
  · exfalso
    have e1 := mul_neg_of_neg_of_pos kA (sub_pos.2 h3)
    have e2 := mul_neg_of_neg_of_pos kC (sub_pos.2 h2)
    have e3 : 0 < B * (a.y - p.y) := by linarith
    have : B < 0 := by
      by_contra hB
      have := mul_nonneg (not_lt.1 hB) (sub_nonneg.2 h1)
      linarith
    linarith
  · rw [if_neg (not_lt.2 kA.le), if_neg (not_lt.2 kC.le)]
    exact ⟨fun h => absurd h.1 (not_lt.2 kA.le), fun _ => rfl⟩
  · rw [if_pos kA, if_pos kC]
    exact ⟨fun h => absurd h.2.2 (not_lt.2 kC.le), fun _ => by norm_num⟩
  · rw [if_pos kA, if_neg (not_lt.2 kC.le)]
    refine ⟨fun _ => by norm_num, fun h => absurd ?_ h⟩
    refine ⟨kA, ?_, kC⟩
    by_contra hB
    have e1 := mul_pos kA (sub_pos.2 h3)
    have e2 := mul_pos kC (sub_pos.2 h2)
    have := mul_nonneg (neg_nonneg.2 (not_lt.1 hB)) (sub_nonneg.2 h1)
    linarith

/-- One corner of the triangle above the ray. -/
theorem winding_case2 {a b c p : V3 K} (ha : a.z = 0) (hb : b.z = 0) (hc : c.z = 0) (hp : p.z = 0)
    (hpos : 0 < area2 a b c) (hoff : OffSides (a, b, c) p) (h1 : a.y ≤ p.y) (h2 : b.y ≤ p.y) (h3 : p.y < c.y) :
    (InsideTriangle (a, b, c) p → windingNumber [a, b, c] p = 1) ∧
    (¬ InsideTriangle (a, b, c) p → windingNumber [a, b, c] p = 0) := by
  obtain ⟨o1, o2, o3⟩ := hoff
  simp only at o1
  have hB : area2 b c p ≠ 0 := fun h => o2 (onSegment_up hb hc hp h2 h3 h)
  have hC : area2 c a p ≠ 0 := fun h => o3 (onSegment_down hc ha hp h1 h3 h)
  have hsum : area2 a b p + area2 b c p + area2 c a p = area2 a b c := by simp only [area2]; ring
  have hy : area2 a b p * (c.y - p.y) + area2 b c p * (a.y - p.y) + area2 c a p * (b.y - p.y) = 0 := by
    simp only [area2]; ring
  have hA : 0 < area2 b c p → 0 < area2 c a p → area2 a b p ≠ 0 := by
    intro kB kC h
    apply o1
    rw [h, zero_mul, zero_add] at hy
    have e1 := mul_nonneg kB.le (sub_nonneg.2 h1)
    have e2 := mul_nonneg kC.le (sub_nonneg.2 h2)
    have e3 : area2 b c p * (p.y - a.y) = 0 := by linarith
    have e4 : area2 c a p * (p.y - b.y) = 0 := by linarith
    have ya : p.y = a.y := sub_eq_zero.1 ((mul_eq_zero.1 e3).resolve_left hB)
    have yb : p.y = b.y := sub_eq_zero.1 ((mul_eq_zero.1 e4).resolve_left hC)
    have kB' : 0 < (c.y - p.y) * (b.x - p.x) := by
      have : area2 b c p = (c.y - p.y) * (b.x - p.x) := by simp only [area2]; rw [← yb]; ring
      rwa [← this]
    have kC' : 0 < (c.y - p.y) * (p.x - a.x) := by
      have : area2 c a p = (c.y - p.y) * (p.x - a.x) := by simp only [area2]; rw [← ya]; ring
      rwa [← this]
    have x1 := (mul_pos_iff_of_pos_left (sub_pos.2 h3)).1 kB'
    have x2 := (mul_pos_iff_of_pos_left (sub_pos.2 h3)).1 kC'
    have hd : 0 < b.x - a.x := by linarith
    refine ⟨(p.x - a.x) / (b.x - a.x), div_nonneg x2.le hd.le, (div_le_one hd).2 (by linarith), ?_, ?_, ?_⟩
    · field_simp; ring
    · rw [← ya, ← yb]; ring
    · rw [ha, hb, hp]; ring
  rw [windingNumber_triangle]
  unfold rayCrossing InsideTriangle
  simp only
  generalize area2 a b p = A at *
  generalize area2 b c p = B at *
  generalize area2 c a p = C at *
  simp only [h1, h2, h3, not_lt.2 h1, not_lt.2 h2, not_le.2 h3, true_and, false_and, and_false, if_false, zero_add]
  rcases lt_or_gt_of_ne hB with kB | kB <;> rcases lt_or_gt_of_ne hC with kC | kC
  · exfalso
    have e1 := mul_nonneg (neg_nonneg.2 kB.le) (sub_nonneg.2 h1)
    have e2 := mul_nonneg (neg_nonneg.2 kC.le) (sub_nonneg.2 h2)
    have : A ≤ 0 := by
      by_contra hA'
      have := mul_pos (not_le.1 hA') (sub_pos.2 h3)
      linarith
    linarith
  · rw [if_neg (not_lt.2 kB.le), if_neg (not_lt.2 kC.le)]
    exact ⟨fun h => absurd h.2.1 (not_lt.2 kB.le), fun _ => rfl⟩
  · rw [if_pos kB, if_pos kC]
    exact ⟨fun h => absurd h.2.2 (not_lt.2 kC.le), fun _ => by norm_num⟩
  · rw [if_pos kB, if_neg (not_lt.2 kC.le)]
    refine ⟨fun _ => by norm_num, fun h => absurd ?_ h⟩
    refine ⟨?_, kB, kC⟩
    by_contra hA'
    have hlt : A < 0 := lt_of_le_of_ne (not_lt.1 hA') (hA kB kC)
    have e1 := mul_nonneg kB.le (sub_nonneg.2 h1)
    have e2 := mul_nonneg kC.le (sub_nonneg.2 h2)
    have := mul_neg_of_neg_of_pos hlt (sub_pos.2 h3)
    linarith

theorem inside_rot {a b c p : V3 K} : InsideTriangle (b, c, a) p ↔ InsideTriangle (a, b, c) p := by
  unfold InsideTriangle; simp only; tauto

theorem offSides_rot {a b c p : V3 K} (h : OffSides (a, b, c) p) : OffSides (b, c, a) p :=
  ⟨h.2.1, h.2.2, h.1⟩

theorem winding_rot (a b c p : V3 K) : windingNumber [b, c, a] p = windingNumber [a, b, c] p := by
  rw [windingNumber_triangle, windingNumber_triangle]; ring

/-- The winding number of a triangle that runs counter clockwise is one inside and zero outside. -/
theorem winding_triangle {a b c p : V3 K} (ha : a.z = 0) (hb : b.z = 0) (hc : c.z = 0) (hp : p.z = 0)
    (hpos : 0 < area2 a b c) (hoff : OffSides (a, b, c) p) :
    (InsideTriangle (a, b, c) p → windingNumber [a, b, c] p = 1) ∧
    (¬ InsideTriangle (a, b, c) p → windingNumber [a, b, c] p = 0) := by
  have p2 : 0 < area2 b c a := by simp only [area2] at *; linarith
  have p3 : 0 < area2 c a b := by simp only [area2] at *; linarith
  have hsum : area2 a b p + area2 b c p + area2 c a p = area2 a b c := by simp only [area2]; ring
  have hy : area2 a b p * (c.y - p.y) + area2 b c p * (a.y - p.y) + area2 c a p * (b.y - p.y) = 0 := by
    simp only [area2]; ring
  by_cases k1 : a.y ≤ p.y <;> by_cases k2 : b.y ≤ p.y <;> by_cases k3 : c.y ≤ p.y
  · refine ⟨fun h => ?_, fun _ => ?_⟩
    · exfalso
      obtain ⟨i1, i2, i3⟩ := h
      simp only at i1 i2 i3
      have e1 := mul_nonneg i1.le (sub_nonneg.2 k3)
      have e2 := mul_nonneg i2.le (sub_nonneg.2 k1)
      have e3 := mul_nonneg i3.le (sub_nonneg.2 k2)
      have f1 : area2 a b p * (p.y - c.y) = 0 := by linarith
      have f2 : area2 b c p * (p.y - a.y) = 0 := by linarith
      have f3 : area2 c a p * (p.y - b.y) = 0 := by linarith
      have y1 := sub_eq_zero.1 ((mul_eq_zero.1 f1).resolve_left i1.ne')
      have y2 := sub_eq_zero.1 ((mul_eq_zero.1 f2).resolve_left i2.ne')
      have y3 := sub_eq_zero.1 ((mul_eq_zero.1 f3).resolve_left i3.ne')
      have : area2 a b c = 0 := by simp only [area2]; rw [← y1, ← y2, ← y3]; ring
      linarith
    · rw [windingNumber_triangle]
      simp [rayCrossing, not_lt.2 k1, not_lt.2 k2, not_lt.2 k3]
  · exact winding_case2 ha hb hc hp hpos hoff k1 k2 (not_le.1 k3)
  · rw [← inside_rot, ← inside_rot, ← winding_rot, ← winding_rot]
    exact winding_case2 hc ha hb hp p3 (offSides_rot (offSides_rot hoff)) k3 k1 (not_le.1 k2)
  · exact winding_case1 ha hb hc hp hpos hoff k1 (not_le.1 k2) (not_le.1 k3)
  · rw [← inside_rot, ← winding_rot]
    exact winding_case2 hb hc ha hp p2 (offSides_rot hoff) k2 k3 (not_le.1 k1)
  · rw [← inside_rot, ← winding_rot]
    exact winding_case1 hb hc ha hp p2 (offSides_rot hoff) k2 (not_le.1 k3) (not_le.1 k1)
  · rw [← inside_rot, ← inside_rot, ← winding_rot, ← winding_rot]
    exact winding_case1 hc ha hb hp p3 (offSides_rot (offSides_rot hoff)) k3 (not_le.1 k1) (not_le.1 k2)
  · refine ⟨fun h => ?_, fun _ => ?_⟩
    · exfalso
      obtain ⟨i1, i2, i3⟩ := h
      simp only at i1 i2 i3
      have e1 := mul_pos i1 (sub_pos.2 (not_le.1 k3))
      have e2 := mul_pos i2 (sub_pos.2 (not_le.1 k1))
      have e3 := mul_pos i3 (sub_pos.2 (not_le.1 k2))
      linarith
    · rw [windingNumber_triangle]
      simp [rayCrossing, k1, k2, k3]

end Verif
