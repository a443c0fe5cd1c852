import Verif.CombModel
import Mathlib.Data.Nat.Choose.Basic
import Mathlib.Data.List.Lex

/-!
# Spec of combinations and regression lines
-/

namespace Verif
open Res

/-- A combination of `k` of the numbers `0, …, n - 1` with repetition, written with the larger numbers first. -/
def IsCombination (n k : Int) (w : List Int) : Prop :=
  (w.length : Int) = k ∧ (∀ x ∈ w, 0 ≤ x ∧ x < n) ∧ w.Pairwise (· ≥ ·)

/-- The sum of the squares of the distances of the points from the line `y = m x + b`. -/
def squares {K : Type} [Field K] (points : List (K × K)) (m b : K) : K :=
  (points.map fun p => (p.2 - (m * p.1 + b)) ^ 2).sum

end Verif
