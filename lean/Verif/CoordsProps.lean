import Verif.CoordsLemmas
import Mathlib.Algebra.Order.Floor.Ring

/-
The coordinates of points on a segment.
-/
namespace Verif

open Res

variable {K : Type} [Field K] [LinearOrder K] [IsStrictOrderedRing K]

/-- C78: `EquispaceCoordinates` returns as many coordinates as asked for; with the ends of the segment, added
when they were not asked for, they go from one end to the other in equal steps. -/
theorem c78_equispace {size : Nat} (h0 : size ≠ 0) {ins : Bool} (h1 : ¬ (size = 1 ∧ ins = true)) (a b : K) :
    ∃ l d, equispaceCoordinates size a b ins = ok l ∧ l.length = size ∧
      Equispaced (withExtremes ins a b l) a b d := by
  obtain ⟨l, e, hl, hw⟩ := equispace_eq h0 h1 a b
  refine ⟨l, (b - a) / (((if ins then size else size + 2 : Nat) : K) - 1), e, hl, ?_⟩
  rw [hw]
  refine linSpaced_equispaced ?_ a b
  cases ins with
  | true =>
    have : size ≠ 1 := fun h => h1 ⟨h, rfl⟩
    simp only [if_true]
    omega
  | false => simp

/-- C78: two coordinates are needed for both ends. -/
theorem c78_one_extreme (a b : K) : equispaceCoordinates 1 a b true = throw := rfl

/-- C78: with a step the coordinates divide the unit segment in `n` equal parts, where `n` is the number of
steps in the segment, rounded. -/
theorem c78_step [FloorSemiring K] (g : GeoCfg K) (hg : 0 ≤ g.minTolerance) {step : K} (h0 : g.tol1D < step)
    (h1 : step ≤ 1) (h2 : 1 / step + 3 / 2 < 2 ^ 32) (ins : Bool) :
    ∃ (n : Nat) (l : List K), g.equispaceByStep step ins = ok l ∧ (withExtremes ins 0 1 l).length = n + 1 ∧
      Equispaced (withExtremes ins 0 1 l) 0 1 (1 / n) ∧ |(n : K) - 1 / step| ≤ 1 / 2 := by
  have hp : 0 < step := lt_of_le_of_lt (g.tol1D_nonneg hg) h0
  have h1' : 1 ≤ 1 / step := by rw [le_div_iff₀ hp]; linarith
  have ha : g.compareValues step 1 g.tol1D ≠ .secondBeforeFirst := by
    rw [g.compareValues_eq]
    split
    · simp
    · rw [if_neg (by linarith)]
      simp
  unfold GeoCfg.equispaceByStep
  rw [assert_true ⟨(g.positive_1D hg _).2 h0, ha⟩, ok_bind, castUnsigned_ok (by linarith) (by linarith), ok_bind]
  set n := ⌊1 / step + 1 / 2⌋₊ with hn
  have hf := Nat.floor_le (a := 1 / step + 1 / 2) (by linarith)
  have hf' := Nat.lt_floor_add_one (1 / step + 1 / 2)
  rw [← hn] at hf hf'
  have n1 : 1 ≤ n := by
    rw [hn]
    exact Nat.le_floor (by push_cast; linarith)
  have n2 : n + 1 < 2 ^ 32 := by
    have : ((n + 1 : Nat) : K) < ((2 ^ 32 : Nat) : K) := by push_cast; linarith
    exact_mod_cast this
  have habs : |(n : K) - 1 / step| ≤ 1 / 2 := by
    rw [abs_le]
    constructor <;> linarith
  have hd : ∀ m : Nat, m = n + 1 → ((1 : K) - 0) / ((m : K) - 1) = 1 / n := by
    rintro m rfl
    push_cast
    rw [sub_zero, add_sub_cancel_right]
  cases ins with
  | true =>
    rw [if_pos rfl, Nat.mod_eq_of_lt n2]
    obtain ⟨l, e, hl, hw⟩ := equispace_eq (size := n + 1) (by omega) (ins := true) (by omega) (0 : K) 1
    refine ⟨n, l, e, hl, ?_, habs⟩
    rw [hw]
    simp only [if_true]
    have := linSpaced_equispaced (n := n + 1) (by omega) (0 : K) 1
    rwa [hd _ rfl] at this
  | false =>
    rw [if_neg (by simp), show n + 2 ^ 32 - 1 = (n - 1) + 2 ^ 32 by omega, Nat.add_mod_right,
      Nat.mod_eq_of_lt (by omega)]
    by_cases hn1 : n = 1
    · refine ⟨n, [], ?_, by simp [withExtremes, hn1], ⟨rfl, rfl, ?_⟩, habs⟩
      · rw [hn1]; rfl
      · intro i x y hx hy
        rcases i with _ | i
        · simp [withExtremes] at hx hy
          rw [← hx, ← hy, hn1]
          simp
        · simp [withExtremes] at hy
    · obtain ⟨l, e, hl, hw⟩ := equispace_eq (size := n - 1) (by omega) (ins := false) (by simp) (0 : K) 1
      refine ⟨n, l, e, by simp [withExtremes, hl]; omega, ?_, habs⟩
      rw [hw]
      simp only [Bool.false_eq_true, if_false]
      have := linSpaced_equispaced (n := n - 1 + 2) (by omega) (0 : K) 1
      rwa [hd _ (by omega)] at this

/-- C78: `RandomCoordinates` without the ends returns coordinates of the unit segment as far apart as asked
for, whatever the generator of random numbers. -/
theorem c78_random [FloorSemiring K] (g : GeoCfg K) (hg : 0 ≤ g.minTolerance) (shuffle : List Nat → List Nat)
    (hs : ∀ l, (shuffle l).Perm l) {size : Nat} (h0 : size ≠ 0) {d : K} (hd : g.tol1D < d)
    (h1 : 1 / d < 2 ^ 32) (h2 : (size : K) * d ≤ 1) :
    ∃ l, g.randomCoordinates shuffle size false d = ok l ∧ l.length = size ∧
      (∀ x ∈ l, 0 ≤ x ∧ x < 1) ∧ Apart d l := by
  have hp : 0 < d := lt_of_le_of_lt (g.tol1D_nonneg hg) hd
  have hm : size ≤ ⌊1 / d⌋₊ := Nat.le_floor (by rw [le_div_iff₀ hp]; exact h2)
  have hd' := floor_facts hp (by omega)
  unfold GeoCfg.randomCoordinates
  rw [if_neg h0, if_neg (by simp), assert_true ((g.positive_1D hg _).2 hd), ok_bind,
    castUnsigned_ok (by positivity) h1, ok_bind, assert_true hm, ok_bind]
  set m := ⌊1 / d⌋₊
  have hm0 : (0 : K) < m := by exact_mod_cast (by omega : 0 < m)
  simp only [Bool.false_and, Bool.not_false, List.filter_true, Bool.false_eq_true, if_false]
  obtain ⟨p1, p2, p3⟩ := sample_spec shuffle hs m size hm
  set pts := (if size = 0 then [] else (shuffle (List.range m)).take size).insertionSort (· ≤ ·)
  have hl : ¬ (pts.map fun r : Nat => (r : K) / m).length < size := by simp [p2]
  rw [if_neg hl, ok_bind, if_neg hl]
  refine ⟨_, rfl, by simp [p2], ?_, (apart_map p1 (by omega)).mono hd'⟩
  intro x hx
  obtain ⟨r, hr, rfl⟩ := List.mem_map.1 hx
  refine ⟨by positivity, ?_⟩
  rw [div_lt_one hm0]
  exact_mod_cast p3 r hr

/-- C78: `RandomCoordinates` with the ends. The full claim is that the coordinates are as far apart as asked
for; only half of the distance is guaranteed (see `c78_distance_violated`). -/
theorem c78_random_extremes_partial [FloorSemiring K] (g : GeoCfg K) (hg : 0 ≤ g.minTolerance)
    (shuffle : List Nat → List Nat) (hs : ∀ l, (shuffle l).Perm l) {size : Nat} (h0 : 2 ≤ size) {d : K}
    (hd : g.tol1D < d) (h1 : 1 / d < 2 ^ 32) (h2 : (size : K) * d ≤ 1) :
    ∃ l, g.randomCoordinates shuffle size true d = ok l ∧ l.length = size ∧ l.head? = some 0 ∧
      l.getLast? = some 1 ∧ Apart (d / 2) l := by
  have hp : 0 < d := lt_of_le_of_lt (g.tol1D_nonneg hg) hd
  have hm : size ≤ ⌊1 / d⌋₊ := Nat.le_floor (by rw [le_div_iff₀ hp]; exact h2)
  have hd' := floor_facts hp (by omega)
  unfold GeoCfg.randomCoordinates
  rw [if_neg (by omega), if_neg (by simp; omega), assert_true ((g.positive_1D hg _).2 hd), ok_bind,
    castUnsigned_ok (by positivity) h1, ok_bind, assert_true hm, ok_bind]
  set m := ⌊1 / d⌋₊
  have hm0 : (0 : K) < m := by exact_mod_cast (by omega : 0 < m)
  simp only [Bool.true_and, if_true]
  obtain ⟨p1, p2, p3⟩ := sample_spec shuffle hs m (size - 2) (by omega)
  set pts := (if size - 2 = 0 then [] else (shuffle (List.range m)).take (size - 2)).insertionSort (· ≤ ·)
  have hf : (pts.filter fun r => !(r == 0 || r == m)) = pts.filter fun r => !(r == 0) := by
    refine List.filter_congr fun r hr => ?_
    have := p3 r hr
    have h : (r == m) = false := by simp; omega
    rw [h, Bool.or_false]
  rw [hf]
  have hlen := filter_zero_length (p1.imp fun h => ne_of_lt h : pts.Nodup)
  have hlen' := List.length_filter_le (fun r => !(r == 0)) pts
  rw [p2] at hlen hlen'
  have q1 : ∀ r ∈ pts.filter fun r => !(r == 0), 1 ≤ r ∧ r < m := by
    intro r hr
    obtain ⟨a, b⟩ := List.mem_filter.1 hr
    refine ⟨?_, p3 r a⟩
    simp at b
    omega
  have q2 := apart_map (K := K) (p1.filter fun r => !(r == 0)) (by omega : 0 < m)
  set inner := pts.filter fun r => !(r == 0)
  have hin : ∀ x ∈ inner.map (fun r : Nat => (r : K) / m), 0 + 1 / (m : K) ≤ x ∧ x + 1 / (m : K) ≤ 1 := by
    intro x hx
    obtain ⟨r, hr, rfl⟩ := List.mem_map.1 hx
    obtain ⟨a, b⟩ := q1 r hr
    refine ⟨?_, ?_⟩
    · rw [zero_add]
      exact div_le_div_of_nonneg_right (by exact_mod_cast a) hm0.le
    · rw [← add_div, div_le_one hm0]
      exact_mod_cast b
  have hm1 : 1 / (m : K) ≤ 1 := by
    rw [div_le_one hm0]
    exact_mod_cast (by omega : 1 ≤ m)
  have q3 : Apart d ((0 : K) :: (inner.map (fun r : Nat => (r : K) / m) ++ [1])) := by
    refine Apart.mono ?_ hd'
    refine List.Pairwise.cons ?_ (List.pairwise_append.2 ⟨q2, List.pairwise_singleton _ _, ?_⟩)
    · intro x hx
      rcases List.mem_append.1 hx with hx | hx
      · exact (hin x hx).1
      · rw [List.mem_singleton.1 hx]
        linarith
    · intro x hx y hy
      rw [List.mem_singleton.1 hy]
      exact (hin x hx).2
  rw [List.cons_append]
  by_cases hl : inner.length + 2 = size
  · have hl' : ¬ (0 :: (inner.map (fun r : Nat => (r : K) / m) ++ [1])).length < size := by simp; omega
    rw [if_neg hl', ok_bind, if_neg hl']
    refine ⟨_, rfl, by simp [hl], rfl, ?_, q3.mono (by linarith)⟩
    rw [← List.cons_append, List.getLast?_concat]
  · have hl' : (0 :: (inner.map (fun r : Nat => (r : K) / m) ++ [1])).length < size := by simp; omega
    rw [if_pos hl']
    have hc : ∃ y l, inner.map (fun r : Nat => (r : K) / m) ++ [1] = y :: l := by
      cases inner.map (fun r : Nat => (r : K) / m) <;> simp
    obtain ⟨y, l, hc⟩ := hc
    have hlast : (y :: l).getLast? = some 1 := by rw [← hc]; simp
    have hll : l.length + 1 = inner.length + 1 := by
      have := congrArg List.length hc
      simpa using this.symm
    rw [hc] at q3 ⊢
    unfold insertFirstMiddle
    rw [ok_bind]
    rw [if_neg (by simp; omega)]
    refine ⟨_, rfl, by simp; omega, rfl, ?_, middle_first hp.le q3⟩
    simpa using hlast

/-- The tolerances of the examples. -/
def coordsGeo : GeoCfg ℚ := { minTolerance := 0, tolerance1D := 1 / 1000000 }

/-- C78, violated: with the ends, coordinates can be closer than the distance asked for. Here four coordinates
at distance at least `1/4` are asked for, the numbers drawn are `0` and `1`, and `0` is replaced by the middle
of `0` and `1/4`. -/
theorem c78_distance_violated : ∃ (shuffle : List Nat → List Nat) (l : List ℚ),
    (∀ l, (shuffle l).Perm l) ∧ coordsGeo.randomCoordinates shuffle 4 true (1 / 4) = ok l ∧
      ¬ Apart (1 / 4) l := by
  refine ⟨id, [0, 1 / 8, 1 / 4, 1], fun l => List.Perm.refl _, by decide +kernel, ?_⟩
  unfold Apart
  norm_num

/-- C78, violated: without the ends, one of the coordinates can be an end. -/
theorem c78_origin_violated : ∃ (shuffle : List Nat → List Nat) (l : List ℚ),
    (∀ l, (shuffle l).Perm l) ∧ coordsGeo.randomCoordinates shuffle 2 false (1 / 4) = ok l ∧ 0 ∈ l :=
  ⟨id, [0, 1 / 4], fun l => List.Perm.refl _, by decide +kernel, by simp⟩

/-- C78, violated: the two ends, at distance one, are refused when the distance asked for is `2/3`. -/
theorem c78_two_violated : coordsGeo.randomCoordinates id 2 true (2 / 3) = abort := by decide +kernel

example : equispaceCoordinates 3 (0 : ℚ) 2 true = ok [0, 1, 2] := by decide +kernel
example : equispaceCoordinates 3 (0 : ℚ) 2 false = ok [1 / 2, 1, 3 / 2] := by decide +kernel
example : coordsGeo.tol1D < 2 / 5 ∧ (2 / 5 : ℚ) ≤ 1 ∧ 1 / (2 / 5 : ℚ) + 3 / 2 < 2 ^ 32 ∧
    coordsGeo.equispaceByStep (2 / 5) true = ok [0, 1 / 3, 2 / 3, 1] := by decide +kernel
example : coordsGeo.tol1D < 1 / 8 ∧ 1 / (1 / 8 : ℚ) < 2 ^ 32 ∧ ((3 : Nat) : ℚ) * (1 / 8) ≤ 1 ∧
    coordsGeo.randomCoordinates List.reverse 3 false (1 / 8) = ok [5 / 8, 6 / 8, 7 / 8] ∧
    coordsGeo.randomCoordinates List.reverse 3 true (1 / 8) = ok [0, 7 / 8, 1] := by decide +kernel

end Verif
