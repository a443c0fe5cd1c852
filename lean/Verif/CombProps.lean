import Verif.CombLemmas
import Mathlib.Data.Rat.Defs
import Mathlib.Tactic.Positivity
import Mathlib.Tactic.LinearCombination
import Mathlib.Algebra.Order.Ring.Rat

/-!
# C107: combinations with repetition, C108: binomial coefficients and regression lines
-/

namespace Verif
open Res

theorem lex_irrefl (l : List Int) : ¬ List.Lex (· < ·) l l := by
  induction l with
  | nil => intro h; cases h
  | cons a l ih =>
    intro h
    cases h with
    | cons h => exact ih h
    | rel h => exact lt_irrefl a h

/-- **C107.** The combinations of `k` of the numbers `0, …, n - 1` with repetition: each once, in increasing order of the
digits read from the last, as many as there are. -/
theorem c107_combinations (n k : Int) (hn : -2147483648 < n) (hk : 0 ≤ k) (hk' : k < 2147483647) (fuel : Nat)
    (hf : Nat.multichoose n.toNat k.toNat + 1 < fuel) :
    ∃ L, combinationWithRepetition fuel n k = ok L ∧ L.Nodup ∧ (∀ w, w ∈ L ↔ IsCombination n k w) ∧
      L.Pairwise (fun a b => List.Lex (· < ·) a.reverse b.reverse) ∧ L.length = Nat.multichoose n.toNat k.toNat := by
  have hsort := sorted_combs k.toNat 0 n.toNat
  refine ⟨combs k.toNat 0 n.toNat, ?_, ?_, ?_, hsort, length_combs _ _ _⟩
  · unfold combinationWithRepetition
    rw [if_neg (by omega), if_neg (by omega), if_neg (by omega)]
    by_cases h0 : 0 < n
    · have hn' : ((n.toNat : Nat) : Int) = n := Int.toNat_of_nonneg h0.le
      obtain ⟨a1, a2, a3⟩ := chain_combs k.toNat 0 n.toNat (by omega)
      rw [Int.zero_add, hn'] at a2 a3
      have hall : ∀ u ∈ combs k.toNat 0 n.toNat, u.length = k.toNat ∧ ∀ x ∈ u, x ≤ n - 1 := by
        intro u hu
        obtain ⟨b1, b2, -⟩ := (mem_combs _ _ _ _).1 hu
        refine ⟨b1, fun x hx => ?_⟩
        have := b2 x hx
        omega
      have hlen := length_combs k.toNat 0 n.toNat
      match hc : combs k.toNat 0 n.toNat, a1 with
      | w :: L, a1 =>
        rw [hc] at a2 a3 hall hlen
        have hw : w = List.replicate k.toNat 0 := by simpa using a1
        rw [List.length_cons] at hlen
        have := combLoop_run (by omega) L w a3 a2 hall fuel (by omega) (List.replicate (k.toNat + 1) 0) ?_ []
        · rw [this, List.nil_append]
        · rw [hw, ← List.replicate_succ']
          refine carry_none _ _ _ (fun i hi => ?_) (fun i hi x hx => ?_)
          · rw [List.length_replicate]
            have := List.mem_range.1 hi
            omega
          · rw [(List.mem_replicate.1 (List.mem_of_getElem? hx)).2]
            omega
    · have hz : n.toNat = 0 := by omega
      obtain ⟨fuel, rfl⟩ : ∃ f, fuel = f + 1 := ⟨fuel - 1, by omega⟩
      rw [hz]
      rcases hkn : k.toNat with _ | k'
      · obtain ⟨fuel, rfl⟩ : ∃ f, fuel = f + 1 := ⟨fuel - 1, by
          rw [hkn, Nat.multichoose_zero_right] at hf
          omega⟩
        rw [combs]
        rfl
      · rw [combs, combLoop]
        have hstep : ∀ j ≤ k', foldRes (combStep (n - 1)) (List.replicate (k' + 1 + 1) 0) (List.range (j + 1)) =
            ok (List.replicate (j + 2) 1 ++ List.replicate (k' - j) 0) := by
          intro j hj
          induction j with
          | zero =>
            have := combStep_carry (n - 1) [] (List.replicate k' 0) 0 0 (by omega)
            rw [show List.range (0 + 1) = [0] by rfl, foldRes_cons]
            rw [show List.replicate (k' + 1 + 1) (0 : Int) = [] ++ 0 :: 0 :: List.replicate k' 0 by
              rw [List.replicate_succ, List.replicate_succ]; rfl]
            rw [List.length_nil] at this
            rw [this]
            simp
          | succ j ih =>
            rw [List.range_succ, foldRes_append, ih (by omega), ok_bind, foldRes_cons]
            have := combStep_carry (n - 1) (List.replicate (j + 1) 1) (List.replicate (k' - (j + 1)) 0) 1 0 (by omega)
            rw [List.length_replicate] at this
            rw [show List.replicate (j + 2) (1 : Int) ++ List.replicate (k' - j) 0 =
              List.replicate (j + 1) 1 ++ 1 :: 0 :: List.replicate (k' - (j + 1)) 0 by
                rw [List.replicate_succ' (n := j + 1), List.append_assoc,
                  show k' - j = (k' - (j + 1)) + 1 by omega, List.replicate_succ]
                rfl, this]
            simp
        rw [hstep k' le_rfl, ok_bind]
        have hv : vget (List.replicate (k' + 2) (1 : Int) ++ List.replicate (k' - k') 0) (k' + 1) = ok 1 := by
          rw [vget_eq_ok, List.getElem?_append_left (by simp), List.getElem?_replicate, if_pos (by omega)]
        rw [hv, ok_bind, if_pos (by omega)]
  · refine hsort.imp ?_
    rintro a b h rfl
    exact lex_irrefl _ h
  · intro w
    rw [mem_combs]
    unfold IsCombination
    constructor
    · rintro ⟨h1, h2, h3⟩
      refine ⟨by omega, fun x hx => ?_, h3⟩
      have := h2 x hx
      omega
    · rintro ⟨h1, h2, h3⟩
      refine ⟨by omega, fun x hx => ?_, h3⟩
      have := h2 x hx
      omega

/-- The combinations of two of three numbers. -/
example : combinationWithRepetition 8 3 2 = ok [[0, 0], [1, 0], [2, 0], [1, 1], [2, 1], [2, 2]] ∧
    Nat.multichoose 3 2 + 1 < 8 := by
  refine ⟨by decide +kernel, ?_⟩
  rw [Nat.multichoose_eq]
  decide

/-- **C107.** With a negative number of places the vector is empty and is read outside, or it is refused. -/
theorem c107_negative (n k : Int) (hn : -2147483648 < n) (hk : k < 0) (fuel : Nat) :
    combinationWithRepetition fuel n k = if k = -1 then ub else throw := by
  unfold combinationWithRepetition
  rw [if_neg (by omega)]
  by_cases h : k = -1
  · rw [if_neg (by omega), if_pos h, if_pos h]
  · rw [if_pos (by omega), if_neg h]

example : combinationWithRepetition 8 3 (-1) = ub ∧ combinationWithRepetition 8 3 (-2) = throw := by
  decide +kernel

/-- **C108.** `BinomialCoefficient` is the number of subsets. -/
theorem c108_binomial (n k : Nat) : binomialCoefficient n k = n.choose k := by
  induction n generalizing k with
  | zero =>
    rw [binomialCoefficient]
    rcases k with _ | k
    · simp
    · simp
  | succ n ih =>
    rw [binomialCoefficient]
    by_cases h1 : n + 1 < k
    · rw [if_pos h1, Nat.choose_eq_zero_of_lt h1]
    · rw [if_neg h1]
      by_cases h2 : k = 0 ∨ k = n + 1
      · rw [if_pos h2]
        rcases h2 with rfl | rfl <;> simp
      · rw [if_neg h2, Nat.add_sub_cancel, ih, ih]
        obtain ⟨k, rfl⟩ : ∃ j, k = j + 1 := ⟨k - 1, by omega⟩
        rw [Nat.add_sub_cancel, Nat.choose_succ_succ]

example : binomialCoefficient 7 3 = 35 := by rw [c108_binomial]; rfl

/-- **C107, C108.** There are `BinomialCoefficient(n + k - 1, k)` combinations with repetition. -/
theorem c107_count (n k : Int) (hn : 0 < n) (hk : 0 ≤ k) (hk' : k < 2147483647) (fuel : Nat)
    (hf : Nat.multichoose n.toNat k.toNat + 1 < fuel) :
    ∃ L, combinationWithRepetition fuel n k = ok L ∧ L.length = binomialCoefficient (n + k - 1).toNat k.toNat := by
  obtain ⟨L, h1, -, -, -, h2⟩ := c107_combinations n k (by omega) hk hk' fuel hf
  refine ⟨L, h1, ?_⟩
  rw [h2, c108_binomial, Nat.multichoose_eq]
  congr 1
  omega

example : binomialCoefficient (3 + 2 - 1) 2 = 6 := by rw [c108_binomial]; rfl

section slope
variable {K : Type} [Field K] [LinearOrder K] [IsStrictOrderedRing K]

/-- **C108.** The slope of the line with the least sum of squares, and of no other line, if two of the points differ in
their first coordinate. -/
theorem c108_slope (xs ys : List K) (n : Nat) (hx : n ≤ xs.length) (hy : n ≤ ys.length)
    (hd : ∃ a ∈ xs.take n, ∃ b ∈ xs.take n, a ≠ b) :
    ∃ m, slope xs ys n = ok (some m) ∧
      (∃ b, ∀ m' b', squares ((xs.take n).zip (ys.take n)) m b ≤ squares ((xs.take n).zip (ys.take n)) m' b') ∧
      ∀ m'' b'', (∀ m' b', squares ((xs.take n).zip (ys.take n)) m'' b'' ≤ squares ((xs.take n).zip (ys.take n)) m' b') →
        m'' = m := by
  set X := xs.take n with hX
  set Y := ys.take n with hY
  have lX : X.length = n := by rw [hX, List.length_take]; omega
  have lY : Y.length = n := by rw [hY, List.length_take]; omega
  have lP : (X.zip Y).length = n := by rw [List.length_zip, lX, lY, min_self]
  have f1 : (X.zip Y).map Prod.fst = X := List.map_fst_zip (by omega)
  have f2 : (X.zip Y).map Prod.snd = Y := List.map_snd_zip (by omega)
  have f3 : ((X.zip Y).map fun p => p.1 * p.1) = X.map fun x => x * x := by
    conv_rhs => rw [← f1]
    rw [List.map_map]
    rfl
  set sx := X.sum with hsx
  set sy := Y.sum with hsy
  set sxx := (X.map fun x => x * x).sum with hsxx
  set sxy := ((X.zip Y).map fun p => p.1 * p.2).sum with hsxy
  set syy := ((X.zip Y).map fun p => p.2 * p.2).sum with hsyy
  have hsq : ∀ m b, squares (X.zip Y) m b = syy - 2 * m * sxy - 2 * b * sy + m * m * sxx + 2 * m * b * sx + n * (b * b) := by
    intro m b
    rw [squares_eq, f1, f2, f3, lP]
  obtain ⟨a, ha, b, hb, hab⟩ := hd
  have hnpos : 0 < n := by
    rw [← lX]
    exact List.length_pos_of_mem ha
  have hn : (0 : K) < n := by exact_mod_cast hnpos
  have hD : 0 < n * sxx - sx * sx := by
    have hv := variance X (sx / n)
    rw [lX] at hv
    have hpos : 0 < (X.map fun x => (x - sx / n) ^ 2).sum := by
      have hnn : ∀ y ∈ X.map fun x => (x - sx / n) ^ 2, (0 : K) ≤ y := by
        intro y hy
        obtain ⟨x, -, rfl⟩ := List.mem_map.1 hy
        positivity
      have hor : a - sx / n ≠ 0 ∨ b - sx / n ≠ 0 := by
        by_contra h
        rw [not_or, not_not, not_not] at h
        exact hab (by linarith [h.1, h.2])
      rcases hor with h | h
      · exact lt_of_lt_of_le (by positivity) (List.single_le_sum hnn _ (List.mem_map.2 ⟨a, ha, rfl⟩))
      · exact lt_of_lt_of_le (by positivity) (List.single_le_sum hnn _ (List.mem_map.2 ⟨b, hb, rfl⟩))
    rw [hv] at hpos
    have : n * (sxx - 2 * (sx / n) * sx + n * (sx / n * (sx / n))) = n * sxx - sx * sx := by
      field_simp
      ring
    rw [← this]
    exact mul_pos hn hpos
  set m := (n * sxy - sx * sy) / (n * sxx - sx * sx) with hm
  set c := (sy - m * sx) / n with hc
  have e1 : n * c = sy - m * sx := by rw [hc]; field_simp
  have e2 : m * (n * sxx - sx * sx) = n * sxy - sx * sy := by rw [hm, div_mul_cancel₀ _ hD.ne']
  have key : ∀ m' b', n * (squares (X.zip Y) m' b' - squares (X.zip Y) m c) =
      (n * (b' - c) + sx * (m' - m)) ^ 2 + (n * sxx - sx * sx) * (m' - m) ^ 2 := by
    intro m' b'
    rw [hsq, hsq]
    linear_combination (2 * n * b' - 2 * n * c + 2 * (m' - m) * sx) * e1 + (2 * (m' - m)) * e2
  have hmin : ∀ m' b', squares (X.zip Y) m c ≤ squares (X.zip Y) m' b' := by
    intro m' b'
    have h := key m' b'
    have h2 : 0 ≤ n * (squares (X.zip Y) m' b' - squares (X.zip Y) m c) := by
      rw [h]
      have : 0 ≤ (n * sxx - sx * sx) * (m' - m) ^ 2 := mul_nonneg hD.le (sq_nonneg _)
      positivity
    have := nonneg_of_mul_nonneg_right h2 hn
    linarith
  refine ⟨m, ?_, ⟨c, hmin⟩, ?_⟩
  · unfold slope
    rw [if_neg (by omega)]
    simp only [accumulate_eq, innerProduct_eq, ← hX, ← hY, zip_self_mul]
    rw [if_neg hD.ne']
  · intro m'' b'' h
    have h1 := h m c
    have h2 := key m'' b''
    by_contra hne
    have h3 : 0 < (n * sxx - sx * sx) * (m'' - m) ^ 2 := mul_pos hD (by
      have : m'' - m ≠ 0 := sub_ne_zero.2 hne
      positivity)
    have h4 : n * (squares (X.zip Y) m'' b'' - squares (X.zip Y) m c) ≤ 0 :=
      mul_nonpos_of_nonneg_of_nonpos hn.le (by linarith)
    nlinarith [sq_nonneg (n * (b'' - c) + sx * (m'' - m))]

/-- Points near the line `y = 2 x + 1`. -/
example : (∃ a ∈ ([0, 1, 2] : List ℚ).take 3, ∃ b ∈ ([0, 1, 2] : List ℚ).take 3, a ≠ b) ∧
    slope ([0, 1, 2] : List ℚ) [1, 4, 5] 3 = ok (some 2) := by
  refine ⟨⟨0, by simp, 1, by simp, by norm_num⟩, by decide +kernel⟩

/-- **C108.** If no two of the points differ in their first coordinate, the slope is no number. -/
theorem c108_slope_undefined (xs ys : List K) (n : Nat) (hx : n ≤ xs.length) (hy : n ≤ ys.length)
    (hd : ∀ a ∈ xs.take n, ∀ b ∈ xs.take n, a = b) : slope xs ys n = ok none := by
  unfold slope
  rw [if_neg (by omega)]
  simp only [accumulate_eq, innerProduct_eq, zip_self_mul]
  have hl : (xs.take n).length = n := by rw [List.length_take]; omega
  rw [if_pos]
  set X := xs.take n
  have hX : ∃ c, X = List.replicate n c := by
    rcases X with _ | ⟨c, X⟩
    · exact ⟨0, by rw [← hl]; rfl⟩
    · exact ⟨c, List.eq_replicate_iff.2 ⟨hl, fun b hb => hd b hb c (by simp)⟩⟩
  obtain ⟨c, hc⟩ := hX
  rw [hc, List.map_replicate, List.sum_replicate, List.sum_replicate, nsmul_eq_mul, nsmul_eq_mul]
  ring

example : slope ([3, 3] : List ℚ) [1, 4] 2 = ok none := by decide +kernel

end slope

end Verif
