import Verif.CutEndsLemmas
import Mathlib.Algebra.Order.Field.Rat

/-
C140, C141: the ends and the segments of the intersection of a mesh with a segment.
-/
namespace Verif

open Res

variable {K : Type} [Field K] [LinearOrder K] [IsStrictOrderedRing K]

/-- C140. Two or more points on the segment keep their number, order and what they have; the first is moved to 0 and the last to 1 unless
they are there up to the tolerance, and no other moves. Fewer points end the call. -/
theorem c140_ends (g : GeoCfg K) (h0 : 0 ≤ g.minTolerance) (hT : g.tol1D < 1 / 2) (pts : List (K × CutPoint)) :
    (1 < pts.length → CutsOnSegment g.tol1D pts → ∃ new, cutEnds g pts = ok new ∧ WithEnds g.tol1D pts new) ∧
    (pts.length ≤ 1 → cutEnds g pts = abort) := by
  constructor
  · intro hl h
    have hT0 : 0 ≤ g.tol1D := le_trans h0 (le_max_left _ _)
    obtain ⟨a, r, rfl⟩ : ∃ a r, pts = a :: r := by
      cases pts with
      | nil => simp at hl
      | cons a r => exact ⟨a, r, rfl⟩
    obtain ⟨l, b, rfl⟩ : ∃ l b, r = l ++ [b] := by
      rcases List.eq_nil_or_concat r with rfl | ⟨l, b, rfl⟩
      · simp at hl
      · exact ⟨l, b, by simp⟩
    have hs := List.pairwise_cons.1 h.increasing
    have hs2 := List.pairwise_append.1 hs.2
    have ra := h.range a (by simp)
    have rb := h.range b (by simp)
    have hab : a.1 < b.1 := hs.1 b (by simp)
    -- the new keys
    obtain ⟨u, hu⟩ : ∃ u, u = if |a.1| ≤ g.tol1D then a.1 else 0 := ⟨_, rfl⟩
    obtain ⟨w, hw⟩ : ∃ w, w = if |b.1 - 1| ≤ g.tol1D then b.1 else 1 := ⟨_, rfl⟩
    have hua : u ≤ a.1 ∧ -g.tol1D ≤ u := by
      rw [hu]
      split
      · exact ⟨le_refl _, ra.1⟩
      · rename_i hn
        refine ⟨?_, by linarith⟩
        by_contra hc
        exact hn (abs_le.2 ⟨ra.1, by linarith [not_le.1 hc]⟩)
    have hwb : b.1 ≤ w ∧ w ≤ 1 + g.tol1D := by
      rw [hw]
      split
      · exact ⟨le_refl _, rb.2⟩
      · rename_i hn
        refine ⟨?_, by linarith⟩
        by_contra hc
        exact hn (abs_le.2 ⟨by linarith [not_le.1 hc], by linarith [rb.2]⟩)
    have s1 : CutsOnSegment g.tol1D ((u, a.2) :: l ++ [b]) := by
      refine ⟨List.pairwise_cons.2 ⟨fun p hp => lt_of_le_of_lt hua.1 (hs.1 p hp), hs.2⟩, ?_⟩
      intro p hp
      rw [List.cons_append] at hp
      rcases List.mem_cons.1 hp with rfl | hp
      · exact ⟨hua.2, hua.1.trans ra.2⟩
      · exact h.range p (by rw [List.mem_cons]; exact Or.inr hp)
    have e1 := cutEnd_origin h0 hT h
    have e2 := cutEnd_target h0 hT s1
    rw [← hu] at e1
    rw [← hw] at e2
    refine ⟨(u, a.2) :: l ++ [(w, b.2)], ?_, ?_, ?_, ?_, ?_, ?_⟩
    · unfold cutEnds
      rw [assert_true hl, ok_bind]
      simp only [List.head?_cons, e1, ok_bind]
      rw [show ((u, a.2) :: (l ++ [b])).getLast? = some b by simp [List.getLast?_cons]]
      exact e2
    · refine ⟨?_, ?_⟩
      · rw [List.pairwise_append]
        refine ⟨List.pairwise_cons.2 ⟨fun p hp => lt_of_le_of_lt hua.1 (hs.1 p (by simp [hp])), hs2.1⟩, by simp, ?_⟩
        intro p hp q hq
        rw [List.mem_singleton.1 hq]
        refine lt_of_lt_of_le ?_ hwb.1
        rcases List.mem_cons.1 hp with rfl | hp
        · exact lt_of_le_of_lt hua.1 hab
        · exact hs2.2.2 p hp b (by simp)
      · intro p hp
        rcases List.mem_append.1 hp with hp | hp
        · exact s1.range p (List.mem_append_left _ hp)
        · rw [List.mem_singleton.1 hp]
          exact ⟨rb.1.trans hwb.1, hwb.2⟩
    · simp
    · intro i hi hi2
      obtain ⟨i, rfl⟩ : ∃ j, i = j + 1 := ⟨i - 1, by omega⟩
      simp only [List.length_cons, List.length_append, List.length_nil] at hi2
      have hil : i < l.length := by omega
      rw [List.cons_append, List.getElem?_cons_succ, List.getElem?_cons_succ, List.getElem?_append_left hil,
        List.getElem?_append_left hil]
    · intro x hx
      simp only [List.head?_cons, Option.some.injEq] at hx
      subst hx
      rw [← hu]
      rfl
    · intro x hx
      rw [show (a :: (l ++ [b])).getLast? = some b by simp [List.getLast?_cons]] at hx
      rw [← Option.some.inj hx, ← hw, List.getLast?_concat]
  · intro hl
    unfold cutEnds
    rw [assert_false (by omega)]
    rfl

/-- C141. For one or more points there is one segment between each point and the next, and it has exactly the polygons and edges of the mesh
that both points have; without points the call ends with an exception. -/
theorem c141_segments (pts : List (K × CutPoint)) (hset : ∀ p ∈ pts, p.2.cells2.Pairwise (· < ·) ∧ p.2.cells1.Pairwise (· < ·)) :
    (pts ≠ [] → ∃ S, cutSegments pts = ok S ∧ IsCutSegments pts S) ∧ (pts = [] → cutSegments pts = throw) := by
  constructor
  · intro h
    refine ⟨_, ?_, cutSegmentsLoop_spec pts hset h⟩
    unfold cutSegments
    rw [if_neg (by simpa using h)]
  · rintro rfl
    rfl

/-- Three points of a segment that begins and ends outside of a mesh of two polygons, which share edge 5. -/
def threeCuts : List (ℚ × CutPoint) := [(1 / 4, ⟨[0], [2], []⟩), (1 / 2, ⟨[0, 1], [5], []⟩), (3 / 4, ⟨[1], [7], []⟩)]

/-- The first point is moved to 0 and the last to 1, the one in the middle stays. -/
example : ∃ new, cutEnds (⟨0, 1 / 100⟩ : GeoCfg ℚ) threeCuts = ok new ∧ new.head? = some (0, ⟨[0], [2], []⟩) ∧
    new[1]? = some (1 / 2, ⟨[0, 1], [5], []⟩) ∧ new.getLast? = some (1, ⟨[1], [7], []⟩) := by
  have t : (⟨0, 1 / 100⟩ : GeoCfg ℚ).tol1D = 1 / 100 := by norm_num [GeoCfg.tol1D]
  obtain ⟨new, hn, h⟩ := (c140_ends (⟨0, 1 / 100⟩ : GeoCfg ℚ) (le_refl _) (by rw [t]; norm_num) threeCuts).1 (by decide) (by
    rw [t]
    refine ⟨?_, ?_⟩
    · norm_num [threeCuts]
    · intro p hp
      simp only [threeCuts, List.mem_cons, List.not_mem_nil, or_false] at hp
      rcases hp with rfl | rfl | rfl <;> norm_num)
  rw [t] at h
  refine ⟨new, hn, ?_, ?_, ?_⟩
  · rw [h.origin _ rfl, if_neg]
    norm_num [abs_of_pos]
  · rw [h.inner 1 (by decide) (by decide)]
    rfl
  · rw [h.target (3 / 4, ⟨[1], [7], []⟩) rfl, if_neg]
    rw [not_le, lt_abs]
    right
    norm_num

/-- The segments between the points have the polygon that both ends have, and no edge. -/
example : ∃ S, cutSegments threeCuts = ok S ∧ IsCutSegments threeCuts S ∧ S.map (·.cells2) = [[0], [1]] ∧ S.map (·.cells1) = [[], []] := by
  obtain ⟨S, hS, h⟩ := (c141_segments threeCuts (by
    intro p hp
    simp only [threeCuts, List.mem_cons, List.not_mem_nil, or_false] at hp
    rcases hp with rfl | rfl | rfl <;> simp)).1 (by simp [threeCuts])
  have e : cutSegments threeCuts = ok [⟨(1 / 4, 1 / 2), [0], []⟩, ⟨(1 / 2, 3 / 4), [1], []⟩] := rfl
  refine ⟨S, hS, h, ?_, ?_⟩
  · rw [e] at hS
    rw [← ok.inj hS]
    rfl
  · rw [e] at hS
    rw [← ok.inj hS]
    rfl

/-- One point is not enough. -/
example : cutEnds (⟨0, 1 / 100⟩ : GeoCfg ℚ) [(1 / 2, {})] = abort :=
  (c140_ends _ (le_refl _) (by norm_num [GeoCfg.tol1D]) _).2 (by decide)

end Verif
