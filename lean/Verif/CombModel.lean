import Verif.Basic
import Mathlib.Data.Real.Basic

/-!
# Combinations, binomial coefficients and regression lines

The general functions of `GeDiM/src/Common/CommonUtilities.hpp` and `GeDiM/src/Common/CommonUtilities.cpp`.
-/

namespace Verif
open Res

/-- The body of the loop over `i` (`GeDiM/src/Common/CommonUtilities.cpp:27-38`); `m` is `n` after `n--`. The inner loop
reads `v[i + 1]` in each round. -/
def combStep (m : Int) (v : List Int) (i : Nat) : Res (List Int) := do
  let x ← vget v i
  if m < x then do
    let y ← vget v (i + 1)
    let v ← vset v (i + 1) (y + 1)
    foldRes (fun v j => do
      let z ← vget v (i + 1)
      vset v j z) v (List.range (i + 1)).reverse
  else ok v

/-- The `while` loop (`GeDiM/src/Common/CommonUtilities.cpp:25-45`) for at most `fuel` rounds. -/
def combLoop (m : Int) (k : Nat) : Nat → List Int → List (List Int) → Res (List (List Int))
  | 0, _, _ => loop
  | fuel + 1, v, result => do
      let v ← foldRes (combStep m) v (List.range k)
      let x ← vget v k
      if 0 < x then ok result
      else do
        let x0 ← vget v 0
        let v' ← vset v 0 (x0 + 1)
        combLoop m k fuel v' (result ++ [v.dropLast])

/-- `CombinationWithRepetition` (`GeDiM/src/Common/CommonUtilities.cpp:19-48`). `n--` and `k + 1` overflow for the smallest
and the largest `int`; the other sums stay between `0` and `n`, so they are not checked. With `k = -1` the vector is empty
and `v[k]` is outside, with a smaller `k` its size is refused by `std::vector`. -/
def combinationWithRepetition (fuel : Nat) (n k : Int) : Res (List (List Int)) :=
  if n ≤ -2147483648 ∨ 2147483647 ≤ k then ub
  else if k < -1 then throw
  else if k = -1 then ub
  else combLoop (n - 1) k.toNat fuel (List.replicate (k.toNat + 1) 0) []

/-- `BinomialCoefficient` (`GeDiM/src/Common/CommonUtilities.hpp:86-96`). Simplified: `double` is `Nat`; the values are
whole numbers, exact below 2^53. -/
def binomialCoefficient (n k : Nat) : Nat :=
  if n < k then 0
  else if k = 0 ∨ k = n then 1
  else binomialCoefficient (n - 1) (k - 1) + binomialCoefficient (n - 1) k
termination_by n
decreasing_by all_goals omega

/-- `std::accumulate` and `std::inner_product` from `0.0`. -/
def accumulate {K : Type} [Field K] (xs : List K) : K := xs.foldl (· + ·) 0

/-- `std::inner_product` from `0.0`. -/
def innerProduct {K : Type} [Field K] (xs ys : List K) : K := (xs.zip ys).foldl (fun s p => s + p.1 * p.2) 0

/-- `Slope` (`GeDiM/src/Common/CommonUtilities.hpp:74-83`) of `n` points; the iterators go through at least `n` values.
With a zero denominator the quotient of `double` is no number: `none`. -/
def slope {K : Type} [Field K] [DecidableEq K] (xs ys : List K) (n : Nat) : Res (Option K) :=
  if xs.length < n ∨ ys.length < n then ub
  else
    let x := xs.take n
    let y := ys.take n
    let sx := accumulate x
    let sy := accumulate y
    let sxx := innerProduct x x
    let sxy := innerProduct x y
    if n * sxx - sx * sx = 0 then ok none
    else ok (some ((n * sxy - sx * sy) / (n * sxx - sx * sx)))

end Verif
