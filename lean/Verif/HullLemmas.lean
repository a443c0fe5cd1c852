import Verif.HullSpec
import Mathlib.Data.List.Triplewise
import Mathlib.Tactic.LinearCombination
import Mathlib.Tactic.FieldSimp
import Mathlib.Tactic.Positivity

/-
Lemmas on the algorithm of Graham: the geometry of points sorted around the lowest one, and the stack.
-/
namespace Verif

open Res

variable {K : Type} [Field K] [LinearOrder K] [IsStrictOrderedRing K]

/-- Positive if `b` comes after `a` clockwise around `p`. -/
def cw (p a b : V3 K) : K := area2 p b a

theorem cw_swap (p a b : V3 K) : cw p b a = -cw p a b := by unfold cw area2; ring

theorem cw_self (p a : V3 K) : cw p a a = 0 := by unfold cw area2; ring

theorem turn_eq (p a b c : V3 K) : area2 c b a = cw p a b + cw p b c - cw p a c := by unfold cw area2; ring

theorem turn_pole (p a b : V3 K) : area2 b a p = cw p a b := by unfold cw area2; ring

theorem pluecker1 (p a b c d : V3 K) :
    area2 d b a * cw p b c = area2 c b a * cw p b d + area2 d c b * cw p a b := by unfold cw area2; ring

theorem pluecker2 (p a b c d : V3 K) :
    area2 d c a * cw p b c = area2 d c b * cw p a c + area2 c b a * cw p c d := by unfold cw area2; ring

/-- `a` is above `p`, or at the same height to the right. -/
def Upper (p a : V3 K) : Prop := p.y < a.y ∨ (p.y = a.y ∧ p.x < a.x)

/-- `b` is in the direction of `a` from `p`, at `s` times the distance. -/
def Along (p a b : V3 K) (s : K) : Prop :=
  b.x - p.x = s * (a.x - p.x) ∧ b.y - p.y = s * (a.y - p.y) ∧ b.z - p.z = s * (a.z - p.z)

theorem along_cw_right {p a b : V3 K} {s : K} (h : Along p a b s) (c : V3 K) : cw p c b = s * cw p c a := by
  obtain ⟨h1, h2, -⟩ := h
  unfold cw area2
  rw [h1, h2]; ring

theorem along_cw_left {p a b : V3 K} {s : K} (h : Along p a b s) (c : V3 K) : cw p b c = s * cw p a c := by
  rw [← neg_inj, ← cw_swap, along_cw_right h, cw_swap p c a]; ring

theorem cw_trans {p a b c : V3 K} (ha : Upper p a) (hb : Upper p b) (hc : Upper p c) (h1 : 0 ≤ cw p a b)
    (h2 : 0 ≤ cw p b c) : 0 ≤ cw p a c ∧ (cw p a c = 0 → cw p a b = 0 ∧ cw p b c = 0) := by
  have hy : cw p a c * (b.y - p.y) = cw p a b * (c.y - p.y) + cw p b c * (a.y - p.y) := by
    unfold cw area2; ring
  have hx : cw p a c * (b.x - p.x) = cw p a b * (c.x - p.x) + cw p b c * (a.x - p.x) := by
    unfold cw area2; ring
  have ya : 0 ≤ a.y - p.y := by rcases ha with h | ⟨h, -⟩ <;> linarith
  have yb : 0 ≤ b.y - p.y := by rcases hb with h | ⟨h, -⟩ <;> linarith
  have yc : 0 ≤ c.y - p.y := by rcases hc with h | ⟨h, -⟩ <;> linarith
  rcases yb.lt_or_eq with hb' | hb'
  · have h3 : 0 ≤ cw p a c * (b.y - p.y) := by
      rw [hy]; exact add_nonneg (mul_nonneg h1 yc) (mul_nonneg h2 ya)
    refine ⟨nonneg_of_mul_nonneg_left h3 hb', fun h => ?_⟩
    rw [h, zero_mul] at hy hx
    have e1 : cw p a b * (c.y - p.y) = 0 := by nlinarith [mul_nonneg h1 yc, mul_nonneg h2 ya]
    have e2 : cw p b c * (a.y - p.y) = 0 := by nlinarith [mul_nonneg h1 yc, mul_nonneg h2 ya]
    have f1 : cw p a b = 0 := by
      rcases mul_eq_zero.1 e1 with h | h
      · exact h
      · rcases hc with hc | ⟨-, hc⟩
        · linarith
        · have : cw p b c = (b.y - p.y) * (c.x - p.x) - (b.x - p.x) * (c.y - p.y) := by unfold cw area2; ring
          rw [h, mul_zero, sub_zero] at this
          have hp : 0 < cw p b c := by rw [this]; exact mul_pos hb' (by linarith)
          rcases mul_eq_zero.1 e2 with h' | h'
          · linarith
          · rcases ha with ha | ⟨-, ha⟩
            · linarith
            · have : cw p a b = (a.y - p.y) * (b.x - p.x) - (a.x - p.x) * (b.y - p.y) := by
                unfold cw area2; ring
              rw [h', zero_mul, zero_sub] at this
              have : 0 < (a.x - p.x) * (b.y - p.y) := mul_pos (by linarith) hb'
              linarith
    refine ⟨f1, ?_⟩
    rcases mul_eq_zero.1 e2 with h | h
    · exact h
    · rcases ha with ha | ⟨-, ha⟩
      · linarith
      · have : cw p a b = (a.y - p.y) * (b.x - p.x) - (a.x - p.x) * (b.y - p.y) := by
          unfold cw area2; ring
        rw [h, zero_mul, zero_sub, f1] at this
        have : 0 < (a.x - p.x) * (b.y - p.y) := mul_pos (by linarith) hb'
        linarith
  · have xb : 0 < b.x - p.x := by
      rcases hb with hb | ⟨-, hb⟩ <;> linarith
    have e2 : cw p b c = -((b.x - p.x) * (c.y - p.y)) := by
      have : cw p b c = (b.y - p.y) * (c.x - p.x) - (b.x - p.x) * (c.y - p.y) := by unfold cw area2; ring
      rw [this, ← hb']; ring
    have yc0 : c.y - p.y = 0 := by nlinarith [mul_nonneg xb.le yc]
    have xc : 0 < c.x - p.x := by
      rcases hc with hc | ⟨-, hc⟩ <;> linarith
    have e1 : cw p a b = (a.y - p.y) * (b.x - p.x) := by
      have : cw p a b = (a.y - p.y) * (b.x - p.x) - (a.x - p.x) * (b.y - p.y) := by unfold cw area2; ring
      rw [this, ← hb']; ring
    have e3 : cw p a c = (a.y - p.y) * (c.x - p.x) := by
      have : cw p a c = (a.y - p.y) * (c.x - p.x) - (a.x - p.x) * (c.y - p.y) := by unfold cw area2; ring
      rw [this, yc0]; ring
    refine ⟨by rw [e3]; exact mul_nonneg ya xc.le, fun h => ?_⟩
    have : a.y - p.y = 0 := by
      rw [e3] at h
      rcases mul_eq_zero.1 h with h | h
      · exact h
      · linarith
    rw [e1, e2, this, yc0]
    simp

theorem cw_trans_pos {p a b c : V3 K} (ha : Upper p a) (hb : Upper p b) (hc : Upper p c) (h1 : 0 < cw p a b)
    (h2 : 0 ≤ cw p b c) : 0 < cw p a c := by
  obtain ⟨h3, h4⟩ := cw_trans ha hb hc h1.le h2
  exact lt_of_le_of_ne h3 fun h => h1.ne' (h4 h.symm).1

/-- Points in the same direction. -/
theorem along_of_cw {p a b : V3 K} (ha : Upper p a) (hb : Upper p b) (hz : p.z = 0 ∧ a.z = 0 ∧ b.z = 0)
    (h : cw p a b = 0) : ∃ s, 0 < s ∧ Along p a b s := by
  have e : (a.y - p.y) * (b.x - p.x) = (a.x - p.x) * (b.y - p.y) := by
    unfold cw area2 at h; linear_combination h
  unfold Along
  rw [hz.1, hz.2.1, hz.2.2]
  rcases ha with ha | ⟨ha, hax⟩
  · have hay : 0 < a.y - p.y := by linarith
    have hby : 0 < b.y - p.y := by
      rcases hb with hb | ⟨hb, hbx⟩
      · linarith
      · have : b.y - p.y = 0 := by linarith
        rw [this, mul_zero] at e
        have : 0 < (a.y - p.y) * (b.x - p.x) := mul_pos hay (by linarith)
        linarith
    refine ⟨(b.y - p.y) / (a.y - p.y), div_pos hby hay, ?_, ?_, by simp⟩
    · field_simp
      linear_combination e
    · field_simp
  · have hay : a.y - p.y = 0 := by linarith
    have hax' : 0 < a.x - p.x := by linarith
    rw [hay, zero_mul] at e
    have hby : b.y - p.y = 0 := by
      rcases mul_eq_zero.1 e.symm with h | h
      · linarith
      · exact h
    have hbx : 0 < b.x - p.x := by
      rcases hb with hb | ⟨-, hb⟩ <;> linarith
    refine ⟨(b.x - p.x) / (a.x - p.x), div_pos hbx hax', ?_, ?_, by simp⟩
    · field_simp
    · rw [hay, hby]; simp

/-- Convex combinations, two points at a time. -/
inductive InHull (S : List (V3 K)) : V3 K → Prop
  | pt (p : V3 K) : p ∈ S → InHull S p
  | comb (a b : V3 K) (s t : K) : InHull S a → InHull S b → 0 ≤ s → 0 ≤ t → s + t = 1 →
      InHull S ((V3.smul s a).add (V3.smul t b))

theorem InHull.trans {S T : List (V3 K)} (h : ∀ p ∈ S, InHull T p) {p : V3 K} (hp : InHull S p) : InHull T p := by
  induction hp with
  | pt p hp => exact h p hp
  | comb a b s t _ _ hs ht hst iha ihb => exact .comb a b s t iha ihb hs ht hst

theorem InHull.two {S : List (V3 K)} {a b q : V3 K} (ha : InHull S a) (hb : InHull S b) {s t : K} (hs : 0 ≤ s)
    (ht : 0 ≤ t) (h : s + t = 1) (hx : q.x = s * a.x + t * b.x) (hy : q.y = s * a.y + t * b.y)
    (hz : q.z = s * a.z + t * b.z) : InHull S q := by
  have : q = (V3.smul s a).add (V3.smul t b) := by
    ext <;> simp only [V3.smul, V3.add, hx, hy, hz]
  rw [this]
  exact .comb a b s t ha hb hs ht h

theorem InHull.three {S : List (V3 K)} {a b c q : V3 K} (ha : InHull S a) (hb : InHull S b) (hc : InHull S c)
    {s t u : K} (hs : 0 ≤ s) (ht : 0 ≤ t) (hu : 0 ≤ u) (h : s + t + u = 1)
    (hx : q.x = s * a.x + t * b.x + u * c.x) (hy : q.y = s * a.y + t * b.y + u * c.y)
    (hz : q.z = s * a.z + t * b.z + u * c.z) : InHull S q := by
  rcases (add_nonneg hs ht).lt_or_eq with h0 | h0
  · have hab : InHull S ((V3.smul (s / (s + t)) a).add (V3.smul (t / (s + t)) b)) :=
      .comb a b _ _ ha hb (div_nonneg hs h0.le) (div_nonneg ht h0.le) (by rw [← add_div, div_self h0.ne'])
    refine InHull.two hab hc h0.le hu h ?_ ?_ ?_ <;> simp only [V3.smul, V3.add]
    · rw [hx]; field_simp
    · rw [hy]; field_simp
    · rw [hz]; field_simp
  · have hs0 : s = 0 := by linarith
    have ht0 : t = 0 := by linarith
    refine InHull.two hc hc hu (le_refl 0) (by linarith) ?_ ?_ ?_
    · rw [hx, hs0, ht0]; ring
    · rw [hy, hs0, ht0]; ring
    · rw [hz, hs0, ht0]; ring

/-- The half plane left of a line contains the hull of its points. -/
theorem InHull.left {S : List (V3 K)} {a b : V3 K} (h : ∀ p ∈ S, 0 ≤ area2 a b p) {p : V3 K} (hp : InHull S p) :
    0 ≤ area2 a b p := by
  induction hp with
  | pt p hp => exact h p hp
  | comb u v s t _ _ hs ht hst iha ihb =>
    have : area2 a b ((V3.smul s u).add (V3.smul t v)) = s * area2 a b u + t * area2 a b v := by
      obtain rfl : s = 1 - t := by linarith
      simp only [area2, V3.smul, V3.add]; ring
    rw [this]
    exact add_nonneg (mul_nonneg hs iha) (mul_nonneg ht ihb)

/-- A point of the stack that is removed is in the triangle of the lowest point, the point below it on the stack
and the new point. -/
theorem pop_in_triangle {S : List (V3 K)} {p a b r : V3 K} (hz : p.z = 0 ∧ a.z = 0 ∧ b.z = 0 ∧ r.z = 0)
    (hp : InHull S p) (ha : InHull S a) (hr : InHull S r) (h0 : 0 < cw p a r) (h1 : 0 ≤ cw p a b)
    (h2 : 0 ≤ cw p b r) (h3 : area2 r b a ≤ 0) : InHull S b := by
  rw [turn_eq p a b r] at h3
  refine InHull.three ha hr hp (s := cw p b r / cw p a r) (t := cw p a b / cw p a r)
    (u := (cw p a r - cw p b r - cw p a b) / cw p a r) (div_nonneg h2 h0.le) (div_nonneg h1 h0.le)
    (div_nonneg (by linarith) h0.le) ?_ ?_ ?_ ?_
  · field_simp
    ring
  · field_simp
    unfold cw area2; ring
  · field_simp
    unfold cw area2; ring
  · rw [hz.1, hz.2.1, hz.2.2.1, hz.2.2.2]; ring

theorem along_in_segment {S : List (V3 K)} {p b r : V3 K} {s : K} (hs : 1 ≤ s) (h : Along p b r s)
    (hp : InHull S p) (hr : InHull S r) : InHull S b := by
  obtain ⟨h1, h2, h3⟩ := h
  have hs0 : 0 < s := by linarith
  have hs1 : 1 / s ≤ 1 := by rw [div_le_one hs0]; exact hs
  refine InHull.two hr hp (s := 1 / s) (t := 1 - 1 / s) (by positivity) (by linarith) (by ring) ?_ ?_ ?_
  · field_simp; linear_combination -h1
  · field_simp; linear_combination -h2
  · field_simp; linear_combination -h3

end Verif
