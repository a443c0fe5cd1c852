import Verif.LPModel

/-
What a linear program asks for, stated without the tableaux of the algorithm.
-/
namespace Verif

open Res

variable {K : Type} [Field K] [LinearOrder K] [IsStrictOrderedRing K]

/-! ### The equality form: maximise `c y` for `A y = b` and `y ≥ 0` -/

/-- The constraints of the equality form. -/
def StdLP.Feasible {m n : Nat} (P : StdLP K m n) (y : Fin n → K) : Prop :=
  (∀ i, ∑ j, P.A i j * y j = P.b i) ∧ ∀ j, 0 ≤ y j

/-- The value of a point. -/
def StdLP.value {m n : Nat} (P : StdLP K m n) (y : Fin n → K) : K := ∑ j, P.c j * y j

/-- Every entry of a tableau that is negative is seen as negative under the tolerance `tol`. This holds
for the tolerance zero. -/
def StdLP.PivotsResolved {m n : Nat} (P : StdLP K m n) (k : Nat) (tol : K) : Prop :=
  ∀ (B : Fin m → Fin n) (N : Fin k → Fin n) (t : Tableau K m k), P.tableau B N = ok t →
    ∀ i q, t.alpha i q < 0 → t.alpha i q < -tol

/-- Every reduced cost that is positive is seen as positive under the tolerance `tol`. This holds for the
tolerance zero. -/
def StdLP.CostsResolved {m n : Nat} (P : StdLP K m n) (k : Nat) (tol : K) : Prop :=
  ∀ (B : Fin m → Fin n) (N : Fin k → Fin n) (t : Tableau K m k), P.tableau B N = ok t →
    ∀ q, 0 < t.r q → tol < t.r q

/-- A basis with which the algorithm can start: `m` columns that determine the solution of the equations
with zeros outside them, and this solution is feasible. -/
structure StdLP.StartBasis {m n : Nat} (P : StdLP K m n) (basis noBasis : List Nat) : Prop where
  length : basis.length = m
  perm : (basis ++ noBasis).Perm (List.range n)
  regular : ∀ z : Fin n → K, (∀ j : Fin n, j.1 ∈ noBasis → z j = 0) →
    (∀ i, ∑ j, P.A i j * z j = 0) → ∀ j, z j = 0
  feasible : ∃ y, P.Feasible y ∧ ∀ j : Fin n, j.1 ∈ noBasis → y j = 0

/-- No feasible point has fewer than `m` positive variables: a feasible point that vanishes outside the
columns of `B` is positive on them. -/
def StdLP.Nondegenerate {m n : Nat} (P : StdLP K m n) : Prop :=
  ∀ (B : Fin m → Fin n) (y : Fin n → K), P.Feasible y → (∀ j, (∀ i, B i ≠ j) → y j = 0) →
    ∀ i, 0 < y (B i)

/-! ### The problem of the user -/

/-- The left side of a constraint. -/
def LPInput.lhs (p : LPInput K) (x : Nat → K) (r : Nat) : K := ∑ c ∈ Finset.range p.n, p.A r c * x c

/-- A constraint with its type. -/
def LPInput.RowHolds (p : LPInput K) (x : Nat → K) (r : Nat) : Prop :=
  match p.types r with
  | .ge => p.b r ≤ p.lhs x r
  | .eq => p.lhs x r = p.b r
  | .le => p.lhs x r ≤ p.b r

/-- The bounds of a variable. -/
def LPInput.InBounds (p : LPInput K) (x : Nat → K) (i : Nat) : Prop :=
  (∀ l, p.LB i = some l → l ≤ x i) ∧ ∀ u, p.UB i = some u → x i ≤ u

/-- The points among which the largest value is sought. -/
def LPInput.Feasible (p : LPInput K) (x : Nat → K) : Prop :=
  (∀ i < p.n, p.InBounds x i) ∧ ∀ r < p.m, p.RowHolds x r

/-- The value of a point. -/
def LPInput.value (p : LPInput K) (x : Nat → K) : K := ∑ c ∈ Finset.range p.n, p.cost c * x c

/-- The variable has an upper bound of at most zero and no lower bound. -/
def LPInput.Flipped (p : LPInput K) (i : Nat) : Prop := p.LB i = none ∧ ∃ u, p.UB i = some u ∧ u ≤ 0

/-- The point at which the algorithm starts: each variable is at its lower bound, a variable without lower
bound is at its upper bound if this is at most zero, and at zero otherwise. -/
def LPInput.IsStart (p : LPInput K) (x : Nat → K) : Prop :=
  ∀ i < p.n, (∀ l, p.LB i = some l → x i = l) ∧
    (p.LB i = none → (∀ u, p.UB i = some u → u ≤ 0 → x i = u) ∧
      ((∀ u, p.UB i = some u → 0 < u) → x i = 0))

/-! ### Circles in a polygon -/

/-- The circle with centre `c` and radius `r` lies on the inner side of every edge: the edge through `vs[e]`
has the outward normal `normals[e]`. -/
def DiscInside (vs normals : List (V3 K)) (c : V3 K) (r : K) : Prop :=
  0 ≤ r ∧ c.z = 0 ∧ ∀ q : V3 K, q.z = 0 → (q.sub c).dot (q.sub c) ≤ r * r →
    ∀ (e : Nat) (v : V3 K) (p : V3 K), normals[e]? = some v → vs[e]? = some p → v.dot q ≤ v.dot p

/-- The normals are unit vectors of the plane. -/
def UnitNormals (normals : List (V3 K)) : Prop := ∀ v ∈ normals, v.z = 0 ∧ v.dot v = 1

end Verif
