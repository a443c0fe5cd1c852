import Mathlib.Tactic.Linarith
import Mathlib.Tactic.Ring
import Mathlib.Tactic.FieldSimp
import Mathlib.Tactic.Positivity
import Mathlib.Data.List.Forall2
import Verif.AlignModel
import Verif.AlignSpec
import Verif.IntersectLemmas
import Verif.PointPosLemmas
import Verif.GraphProps

/-!
# Lemmas for the lines of the edges of a polyhedron: geometry and groups
-/

namespace Verif
open Res

variable {K : Type} [Field K] [LinearOrder K] [IsStrictOrderedRing K]

/-! ### Lines -/

theorem onLine_self (a b : V3 K) : OnLine a b a := ⟨0, (pointAt_zero a b).symm⟩

theorem onLine_end (a b : V3 K) : OnLine a b b := ⟨1, (pointAt_one a b).symm⟩

/-- Two points of a line give the same line. -/
theorem onLine_of {a b c d p : V3 K} (hcd : c ≠ d) (hc : OnLine a b c) (hd : OnLine a b d) (hp : OnLine a b p) :
    OnLine c d p := by
  obtain ⟨s, rfl⟩ := hc
  obtain ⟨t, rfl⟩ := hd
  obtain ⟨r, rfl⟩ := hp
  have hst : t - s ≠ 0 := by
    intro h
    exact hcd (by rw [sub_eq_zero.1 h])
  refine ⟨(r - s) / (t - s), ?_⟩
  ext <;> simp only [pointAt] <;> field_simp <;> ring

theorem onLine_back {a b c d p : V3 K} (hcd : c ≠ d) (hc : OnLine a b c) (hd : OnLine a b d)
    (hp : OnLine c d p) : OnLine a b p := by
  obtain ⟨s, rfl⟩ := hc
  obtain ⟨t, rfl⟩ := hd
  obtain ⟨r, rfl⟩ := hp
  refine ⟨s + r * (t - s), ?_⟩
  ext <;> simp only [pointAt] <;> ring

theorem onLine_swap {a b p : V3 K} (h : OnLine a b p) : OnLine b a p := by
  obtain ⟨r, rfl⟩ := h
  refine ⟨1 - r, ?_⟩
  ext <;> simp only [pointAt] <;> ring

/-- The line from one of its points along its direction. -/
theorem onLine_from {a b o p : V3 K} (ho : o = a ∨ o = b) :
    OnLine a b p ↔ ∃ s, p = o.add (V3.smul s (b.sub a)) := by
  rcases ho with rfl | rfl
  · constructor
    · rintro ⟨s, rfl⟩
      exact ⟨s, by ext <;> simp only [pointAt, V3.add, V3.smul, V3.sub]⟩
    · rintro ⟨s, rfl⟩
      exact ⟨s, by ext <;> simp only [pointAt, V3.add, V3.smul, V3.sub]⟩
  · constructor
    · rintro ⟨s, rfl⟩
      exact ⟨s - 1, by ext <;> simp only [pointAt, V3.add, V3.smul, V3.sub] <;> ring⟩
    · rintro ⟨s, rfl⟩
      exact ⟨s + 1, by ext <;> simp only [pointAt, V3.add, V3.smul, V3.sub] <;> ring⟩

theorem V3.dot_self_pos {a b : V3 K} (h : a ≠ b) : 0 < (b.sub a).dot (b.sub a) := by
  rcases lt_or_eq_of_le (show 0 ≤ (b.sub a).dot (b.sub a) by
    simp only [V3.dot]; nlinarith [mul_self_nonneg (b.sub a).x, mul_self_nonneg (b.sub a).y,
      mul_self_nonneg (b.sub a).z]) with h' | h'
  · exact h'
  · exfalso
    simp only [V3.dot, V3.sub] at h'
    have hx := mul_self_nonneg (b.x - a.x)
    have hy := mul_self_nonneg (b.y - a.y)
    have hz := mul_self_nonneg (b.z - a.z)
    have h1 : (b.x - a.x) * (b.x - a.x) = 0 := by linarith
    have h2 : (b.y - a.y) * (b.y - a.y) = 0 := by linarith
    have h3 : (b.z - a.z) * (b.z - a.z) = 0 := by linarith
    exact h (by
      ext
      · linarith [mul_self_eq_zero.1 h1]
      · linarith [mul_self_eq_zero.1 h2]
      · linarith [mul_self_eq_zero.1 h3])

/-- The test of `PointsAreOnLine`, exact where the tolerance tells the lines apart. -/
theorem pointIsOnLine_iff {sqrt : K → K} (hs : IsSqrt sqrt) (g : GeoCfg K) (h0 : 0 ≤ g.minTolerance)
    {a b o c : V3 K} (hab : a ≠ b) (ho : o = a ∨ o = b) (t : V3 K) (ht : t = b.sub a)
    (hc : OnLine a b c ∨ g.tol1D ^ 2 * (dist2 a b * dist2 o c) < lineCross a b o c) :
    g.pointIsOnLine sqrt o t c = true ↔ OnLine a b c := by
  subst ht
  have htol := g.tol1D_nonneg h0
  have hsm : ∀ v : V3 K, ∃ k, v.normalized sqrt = V3.smul k v ∧ (0 < v.dot v → k ^ 2 * v.dot v = 1) ∧
      (v.dot v = 0 → k = 1) := by
    intro v
    unfold V3.normalized
    by_cases h : 0 < v.dot v
    · rw [if_pos h]
      refine ⟨_, rfl, fun _ => ?_, fun h' => absurd h' h.ne'⟩
      obtain ⟨h1, h2⟩ := hs _ h.le
      have h3 : sqrt (v.dot v) ≠ 0 := by
        intro h3
        rw [h3] at h2
        linarith
      field_simp
      rw [sq, h2]
    · rw [if_neg h]
      exact ⟨1, by ext <;> simp [V3.smul], fun h' => absurd h' h, fun _ => rfl⟩
  obtain ⟨k1, e1, i1, -⟩ := hsm (b.sub a)
  obtain ⟨k2, e2, i2, i2'⟩ := hsm (c.sub o)
  have hp := V3.dot_self_pos hab
  unfold GeoCfg.pointIsOnLine
  simp only
  rw [e1, e2, g.zero_1D h0]
  constructor
  · intro h
    rcases hc with hc | hc
    · exact hc
    · exfalso
      obtain ⟨n1, n2⟩ := hs (((V3.smul k1 (b.sub a)).cross (V3.smul k2 (c.sub o))).dot
        ((V3.smul k1 (b.sub a)).cross (V3.smul k2 (c.sub o)))) (by
          simp only [V3.dot]
          nlinarith [mul_self_nonneg ((V3.smul k1 (b.sub a)).cross (V3.smul k2 (c.sub o))).x,
            mul_self_nonneg ((V3.smul k1 (b.sub a)).cross (V3.smul k2 (c.sub o))).y,
            mul_self_nonneg ((V3.smul k1 (b.sub a)).cross (V3.smul k2 (c.sub o))).z])
      have hle : ((V3.smul k1 (b.sub a)).cross (V3.smul k2 (c.sub o))).dot
          ((V3.smul k1 (b.sub a)).cross (V3.smul k2 (c.sub o))) ≤ g.tol1D ^ 2 := by
        rw [← n2, sq]
        have : |V3.norm sqrt ((V3.smul k1 (b.sub a)).cross (V3.smul k2 (c.sub o)))| =
            sqrt (((V3.smul k1 (b.sub a)).cross (V3.smul k2 (c.sub o))).dot
              ((V3.smul k1 (b.sub a)).cross (V3.smul k2 (c.sub o)))) := abs_of_nonneg n1
        rw [this] at h
        gcongr
      have hex : ((V3.smul k1 (b.sub a)).cross (V3.smul k2 (c.sub o))).dot
          ((V3.smul k1 (b.sub a)).cross (V3.smul k2 (c.sub o))) = k1 ^ 2 * k2 ^ 2 * lineCross a b o c := by
        simp only [V3.cross, V3.smul, V3.sub, V3.dot, lineCross]
        ring
      have hd1 : dist2 a b = (b.sub a).dot (b.sub a) := by
        simp only [dist2, V3.dot, V3.sub]; ring
      have hd2 : dist2 o c = (c.sub o).dot (c.sub o) := by
        simp only [dist2, V3.dot, V3.sub]; ring
      have hq : 0 ≤ (c.sub o).dot (c.sub o) := by
        simp only [V3.dot]
        nlinarith [mul_self_nonneg (c.sub o).x, mul_self_nonneg (c.sub o).y, mul_self_nonneg (c.sub o).z]
      rcases lt_or_eq_of_le hq with hq | hq
      · have e3 := i1 hp
        have e4 := i2 hq
        have hk1 : 0 < k1 ^ 2 := by
          rcases lt_or_eq_of_le (sq_nonneg k1) with h | h
          · exact h
          · rw [← h] at e3; simp at e3
        have hk2 : 0 < k2 ^ 2 := by
          rcases lt_or_eq_of_le (sq_nonneg k2) with h | h
          · exact h
          · rw [← h] at e4; simp at e4
        have := mul_lt_mul_of_pos_left hc (mul_pos hk1 hk2)
        rw [← hex, hd1, hd2] at this
        have e5 : k1 ^ 2 * k2 ^ 2 * (g.tol1D ^ 2 * ((b.sub a).dot (b.sub a) * (c.sub o).dot (c.sub o))) =
            g.tol1D ^ 2 * ((k1 ^ 2 * (b.sub a).dot (b.sub a)) * (k2 ^ 2 * (c.sub o).dot (c.sub o))) := by ring
        rw [e5, e3, e4] at this
        linarith
      · have hco : c = o := by
          by_contra hne
          have := V3.dot_self_pos (a := o) (b := c) (Ne.symm hne)
          linarith
        subst hco
        have : lineCross a b c c = 0 := by simp [lineCross]
        rw [this] at hc
        have : dist2 c c = 0 := by simp [dist2]
        rw [this] at hc
        simp at hc
  · intro h
    obtain ⟨s, rfl⟩ := (onLine_from ho).1 h
    have : (V3.smul k1 (b.sub a)).cross (V3.smul k2 ((o.add (V3.smul s (b.sub a))).sub o)) = V3.zero := by
      ext <;> simp only [V3.cross, V3.smul, V3.sub, V3.add, V3.zero] <;> ring
    rw [this, norm_zero' hs _ rfl, abs_zero]
    exact htol

end Verif
