import Verif.SegPairsLemmas

/-
C138: the intersections between segments.
-/
namespace Verif

open Res

variable {K : Type} [Field K] [LinearOrder K] [IsStrictOrderedRing K]

/-- C138. For segments longer than the tolerance, with their centers and lengths, the call gives a list for each segment. The list of a
segment has one coordinate for each other segment that touches it, in the order of the segments; the other segment has a coordinate in
turn, and the two points are nearest to each other, on the segments and equal up to the tolerance. Two segments with a common point are
found, with the exact coordinates of the point, if they are not nearly parallel.

Full statement: `found` without `Oblique`, for all segments whose directions differ. Missing: nearly parallel segments, see
`c138_crossings_violated`. -/
theorem c138_crossings_partial (sqrt : K → K) (hs : IsSqrt sqrt) (g : GeoCfg K) (h0 : 0 ≤ g.minTolerance) (hT : g.tol1D < 1 / 2)
    (h1 : g.tolSq ≤ 1) (d : SegmentsData K) (hd : d.Right g sqrt) :
    ∃ I C, g.betweenSegments sqrt d = ok I ∧ SegmentCrossings g d.ends C I := by
  classical
  have key : ∀ s t : Nat, ∃ p, s < d.ends.length → t < d.ends.length → g.segPair sqrt d s t = ok p := by
    intro s t
    by_cases h : s < d.ends.length ∧ t < d.ends.length
    · obtain ⟨p, hp, _⟩ := segPair_cases hs h0 hT h1 hd (List.getElem?_eq_getElem h.1) (List.getElem?_eq_getElem h.2)
      exact ⟨p, fun _ _ => hp⟩
    · exact ⟨none, fun a b => absurd ⟨a, b⟩ h⟩
  choose P hP using key
  have hP' : ∀ (s t : Nat) a b, d.ends[s]? = some a → d.ends[t]? = some b → (∀ x y, P s t = some (x, y) → Touching g a b x y) ∧
      ∀ x y, Oblique g a b → 0 ≤ x → x ≤ 1 → 0 ≤ y → y ≤ 1 → pointAt a.1 a.2 x = pointAt b.1 b.2 y → P s t = some (x, y) := by
    intro s t a b ha hb
    obtain ⟨p, hp, h⟩ := segPair_cases hs h0 hT h1 hd ha hb
    rw [hP s t (List.getElem?_eq_some_iff.1 ha).1 (List.getElem?_eq_some_iff.1 hb).1] at hp
    rw [ok.inj hp]
    exact h
  refine ⟨_, crossOf P, betweenSegments_eq P fun s t hst ht => hP s t (by omega) ht, by simp, ?_, ?_, ?_, ?_, ?_⟩
  · intro s L hL
    obtain ⟨hl, rfl⟩ := List.getElem?_eq_some_iff.1 hL
    simp
  · intro s
    simp [crossOf]
  · intro s t a b x ha hb hst hx
    unfold crossOf at hx ⊢
    rw [if_pos hst] at hx
    rw [if_neg (by omega), if_pos hst]
    cases hp : P s t with
    | none => rw [hp] at hx; cases hx
    | some p =>
      rw [hp] at hx
      simp only [Option.map_some, Option.some.injEq] at hx
      subst hx
      exact ⟨p.2, rfl, (hP' s t a b ha hb).1 _ _ hp⟩
  · intro s t h
    unfold crossOf at h ⊢
    by_cases h1 : s < t
    · rw [if_pos h1] at h
      rw [if_neg (by omega), if_pos h1]
      rw [Option.map_eq_none_iff] at h ⊢
      exact h
    · rw [if_neg h1] at h
      by_cases h2 : t < s
      · rw [if_pos h2] at h ⊢
        rw [Option.map_eq_none_iff] at h ⊢
        exact h
      · rw [if_neg h2, if_neg h1]
  · intro s t a b x y ha hb hst ho hx0 hx1 hy0 hy1 hm
    unfold crossOf
    rcases Nat.lt_or_gt_of_ne hst with h | h
    · have := (hP' s t a b ha hb).2 x y ho hx0 hx1 hy0 hy1 hm
      rw [if_pos h, if_neg (by omega), if_pos h, this]
      exact ⟨rfl, rfl⟩
    · have ho' : Oblique g b a := by
        unfold Oblique dot4 dist2 at ho ⊢
        linarith [ho]
      have := (hP' t s b a hb ha).2 y x ho' hy0 hy1 hx0 hx1 hm.symm
      rw [if_neg (by omega), if_pos h, if_pos h, this]
      exact ⟨rfl, rfl⟩

/-- C138 fails for segments that cross at a small angle: two segments of length 2 that cross in their middle points, with ends farther
apart than 10⁻⁸, get empty lists. -/
theorem c138_crossings_violated : ∃ a b : V3 ℝ × V3 ℝ, pointAt a.1 a.2 (1 / 2) = pointAt b.1 b.2 (1 / 2) ∧
    (1 / 10 ^ 8) * (1 / 10 ^ 8) < dist2 a.1 b.1 ∧
    (SegmentsData.mk [a, b] [pointAt a.1 a.2 (1 / 2), pointAt b.1 b.2 (1 / 2)] [2, 2]).Right defaultGeo Real.sqrt ∧
    defaultGeo.betweenSegments Real.sqrt ⟨[a, b], [pointAt a.1 a.2 (1 / 2), pointAt b.1 b.2 (1 / 2)], [2, 2]⟩ = ok [[], []] := by
  obtain ⟨x₁, x₂, x₃, x₄, hm, d1, d2, hfar, hr⟩ := c65_crossing_violated
  have s4 : Real.sqrt 4 = 2 := by rw [show (4 : ℝ) = 2 ^ 2 by norm_num, Real.sqrt_sq (by norm_num)]
  have hd : (SegmentsData.mk [(x₁, x₂), (x₃, x₄)] [pointAt x₁ x₂ (1 / 2), pointAt x₃ x₄ (1 / 2)] [2, 2]).Right defaultGeo
      Real.sqrt := by
    refine ⟨rfl, rfl, ?_, ?_, ?_⟩
    · intro i s c hs hc
      rcases i with _ | _ | i <;> simp at hs hc
      · subst hs; rw [← hc]; norm_num
      · subst hs; rw [← hc]; norm_num
    · intro i s c hs hc
      rcases i with _ | _ | i <;> simp at hs hc
      · subst hs hc; rw [d1, s4]
      · subst hs hc; rw [d2, s4]
    · intro s hs
      rw [defaultGeo_tolSq]
      simp only [List.mem_cons, List.not_mem_nil, or_false] at hs
      rcases hs with rfl | rfl
      · rw [d1]; norm_num
      · rw [d2]; norm_num
  refine ⟨(x₁, x₂), (x₃, x₄), hm, hfar, hd, ?_⟩
  rw [betweenSegments_eq (fun _ _ => none)]
  · simp [crossOf, List.range_succ]
  · intro s t hst ht
    have ht : t < 2 := ht
    obtain ⟨rfl, rfl⟩ : s = 0 ∧ t = 1 := by omega
    unfold GeoCfg.segPair
    simp [vget, hr]

/-- Two segments that cross in their middle points. -/
noncomputable def crossData : SegmentsData ℝ :=
  ⟨[(⟨0, 0, 0⟩, ⟨2, 0, 0⟩), (⟨1, -1, 0⟩, ⟨1, 1, 0⟩)], [⟨1, 0, 0⟩, ⟨1, 0, 0⟩], [2, 2]⟩

theorem crossData_right : crossData.Right defaultGeo Real.sqrt := by
  have s4 : Real.sqrt 4 = 2 := by rw [show (4 : ℝ) = 2 ^ 2 by norm_num, Real.sqrt_sq (by norm_num)]
  refine ⟨rfl, rfl, ?_, ?_, ?_⟩
  · intro i s c hs hc
    rcases i with _ | _ | i <;> simp [crossData] at hs hc
    · subst hs hc; norm_num [pointAt]
    · subst hs hc; norm_num [pointAt]
  · intro i s c hs hc
    rcases i with _ | _ | i <;> simp [crossData] at hs hc
    · subst hs hc; norm_num [dist2, s4]
    · subst hs hc; norm_num [dist2, s4]
  · intro s hs
    have := defaultGeo_tolSq
    simp only [crossData, List.mem_cons, List.not_mem_nil, or_false] at hs
    rcases hs with rfl | rfl <;> norm_num [dist2] <;> linarith

/-- The crossing of the two segments is found. -/
example : ∃ I, defaultGeo.betweenSegments Real.sqrt crossData = ok I ∧ I = [[1 / 2], [1 / 2]] := by
  have h := defaultGeo_tolSq
  obtain ⟨I, C, hI, hC⟩ := c138_crossings_partial Real.sqrt isSqrt_real defaultGeo defaultGeo_min_nonneg defaultGeo_lt_half
    (by linarith) crossData crossData_right
  refine ⟨I, hI, ?_⟩
  have f := hC.found 0 1 _ _ (1 / 2) (1 / 2) rfl rfl (by omega) (by
    unfold Oblique dot4 dist2
    norm_num
    linarith) (by norm_num) (by norm_num) (by norm_num) (by norm_num) (by norm_num [pointAt])
  refine List.ext_getElem? ?_
  have hl : I.length = 2 := hC.length
  intro i
  rcases i with _ | _ | i
  · have h0 : I[0]? = some I[0] := List.getElem?_eq_getElem _
    rw [h0, hC.lists 0 _ h0]
    simp [crossData, List.range_succ, hC.itself, f.1]
  · have h0 : I[1]? = some I[1] := List.getElem?_eq_getElem _
    rw [h0, hC.lists 1 _ h0]
    simp [crossData, List.range_succ, hC.itself, f.2]
  · rw [List.getElem?_eq_none (by omega)]
    simp

end Verif
