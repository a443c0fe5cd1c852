import Verif.GeomModel
import Mathlib.LinearAlgebra.Matrix.NonsingularInverse

/-
The simplex algorithm of `GeDiM/src/Algebra/LPUtilities.cpp` and the largest circle in a polygon, which
is its only use (`PolygonChebyshevCenter` in `GeDiM/src/Geometry/GeometryUtilities_Polygon.cpp`).
`double` is an arbitrary ordered field; the value "not a number" of a bound is `none`.
-/
namespace Verif

open Res

variable {K : Type} [Field K] [LinearOrder K] [IsStrictOrderedRing K]

/-! ### The algorithm -/

/-- `A_final`, `b_final` and `cost_vector_final`
(`GeDiM/src/Algebra/LPUtilities.hpp:69-73`), with the sizes `m_final` and `n_final`. -/
structure StdLP (K : Type) (m n : Nat) where
  A : Matrix (Fin m) (Fin n) K
  b : Fin m → K
  c : Fin n → K

/-- `alpha`, `beta` and `r` of `solve_primal_simplex`. -/
structure Tableau (K : Type) (m k : Nat) where
  alpha : Matrix (Fin m) (Fin k) K
  beta : Fin m → K
  r : Fin k → K

/-- The tableau of a basis (`GeDiM/src/Algebra/LPUtilities.cpp:153-159` and `208-214`). `AB.lu().solve` is
the product with the inverse, written with the adjugate; for a singular matrix the result of Eigen is
not defined. -/
def StdLP.tableau {m n k : Nat} (P : StdLP K m n) (B : Fin m → Fin n) (N : Fin k → Fin n) :
    Res (Tableau K m k) :=
  let AB := P.A.submatrix id B
  let ANB := P.A.submatrix id N
  if AB.det = 0 then ub
  else
    let inv := AB.det⁻¹ • AB.adjugate
    let alpha := -(inv * ANB)
    ok ⟨alpha, inv.mulVec P.b, fun i => P.c (N i) + ∑ j, alpha j i * P.c (B j)⟩

/-- The column that enters: the first one whose reduced cost exceeds the tolerance
(`GeDiM/src/Algebra/LPUtilities.cpp:161-171` and `216-226`). -/
def entering {k : Nat} (r : Fin k → K) (tol : K) : Option (Fin k) :=
  (List.finRange k).find? fun i => tol < r i

/-- The body of the search for the row that leaves (`GeDiM/src/Algebra/LPUtilities.cpp:187-195`). The
largest value of `double`, with which the search starts, is `none`. -/
def leavingStep {m : Nat} (alpha beta : Fin m → K) (tol : K) (s : Option (K × Fin m)) (i : Fin m) :
    Option (K × Fin m) :=
  if -tol ≤ alpha i then s
  else
    match s with
    | none => some (-beta i / alpha i, i)
    | some (least, j) =>
        if -beta i / alpha i < least then some (-beta i / alpha i, i) else some (least, j)

/-- The row that leaves: the first one with the smallest ratio
(`GeDiM/src/Algebra/LPUtilities.cpp:182-196`). -/
def leaving {m : Nat} (alpha beta : Fin m → K) (tol : K) : Option (Fin m) :=
  ((List.finRange m).foldl (leavingStep alpha beta tol) none).map Prod.snd

/-- How the loop ends: `SUCCESS` with the basis and the values of its variables, `UNBOUNDED`, `MAXIT`. -/
inductive SimplexExit (K : Type) (m n k : Nat) where
  | success (B : Fin m → Fin n) (N : Fin k → Fin n) (beta : Fin m → K)
  | unbounded
  | maxIt

/-- The loop of `solve_primal_simplex` (`GeDiM/src/Algebra/LPUtilities.cpp:173-229`); `fuel` is the number of
iterations that are left. -/
def StdLP.simplexLoop {m n k : Nat} (P : StdLP K m n) (tol : K) (fuel : Nat) (B : Fin m → Fin n)
    (N : Fin k → Fin n) : Res (SimplexExit K m n k) := do
  let t ← P.tableau B N
  match entering t.r tol with
  | none => ok (.success B N t.beta)
  | some q =>
    match fuel with
    | 0 => ok .maxIt
    | fuel + 1 =>
      match leaving (fun i => t.alpha i q) t.beta tol with
      | none => ok .unbounded
      | some p => P.simplexLoop tol fuel (Function.update B p (N q)) (Function.update N q (B p))

/-- A list of column indices as Eigen uses it in `A_final(Eigen::all, basis)`: the length must be `m`
and the columns must exist. -/
def columns (l : List Nat) (m n : Nat) : Option (Fin m → Fin n) :=
  if h : l.length = m ∧ ∀ x ∈ l, x < n then
    some fun i => ⟨l[i.1]'(by rw [h.1]; exact i.2), h.2 _ (List.getElem_mem _)⟩
  else none

/-- `result.solution_final(basis) = beta` after the vector is set to zero. -/
def basicSolution {m n : Nat} (B : Fin m → Fin n) (beta : Fin m → K) : Fin n → K :=
  (List.finRange m).foldl (fun y i => Function.update y (B i) (beta i)) fun _ => 0

/-- `solve_primal_simplex` (`GeDiM/src/Algebra/LPUtilities.cpp:145-238`) up to `solution_final`.
The check of the sizes joins its two conditions with "and", so a basis of the wrong size reaches the factorisation, which is not defined for it. -/
def StdLP.solvePrimal {m n : Nat} (P : StdLP K m n) (basis noBasis : List Nat) (maxIt : Nat) (tol : K) :
    Res (SimplexExit K m n noBasis.length) :=
  if basis.length ≠ m ∧ basis.length + noBasis.length ≠ n then throw
  else
    match columns basis m n, columns noBasis noBasis.length n with
    | some B, some N => P.simplexLoop tol maxIt B N
    | _, _ => ub

/-! ### The preparation -/

/-- `ConstraintType` (`GeDiM/src/Algebra/LPUtilities.hpp:47-52`). -/
inductive RowType where
  | ge
  | eq
  | le
  deriving DecidableEq

/-- The arguments of the constructor of `Simplex`: `n` variables, `m` constraints. Vectors and matrices are
functions of which only the entries below the sizes are used; the sizes are assumed to match. -/
structure LPInput (K : Type) where
  n : Nat
  m : Nat
  cost : Nat → K
  A : Nat → Nat → K
  b : Nat → K
  types : Nat → RowType
  LB : Nat → Option K
  UB : Nat → Option K

/-- The members that the first two loops of the constructor change. -/
structure LPBounds (K : Type) where
  cost : Nat → K
  A : Nat → Nat → K
  b : Nat → K
  LB : Nat → Option K
  UB : Nat → Option K
  traslCost : K
  traslSol : Nat → K
  signSol : Nat → K
  nFinal : Nat
  mFinal : Nat

/-- `UB[i] <= 0.0 && std::isnan(LB[i])`: the sign of the variable is changed
(`GeDiM/src/Algebra/LPUtilities.cpp:45-52`). -/
def LPBounds.flip (s : LPBounds K) (i : Nat) : LPBounds K :=
  match s.UB i, s.LB i with
  | some u, none =>
      if u ≤ 0 then
        { s with
          signSol := Function.update s.signSol i (-1)
          A := fun r c => if c = i then -s.A r c else s.A r c
          cost := Function.update s.cost i (-s.cost i)
          LB := Function.update s.LB i (some (-u))
          UB := Function.update s.UB i none }
      else s
  | _, _ => s

/-- A lower bound is moved to zero; a variable without one needs a second variable
(`GeDiM/src/Algebra/LPUtilities.cpp:54-62`). -/
def LPBounds.shift (s : LPBounds K) (i : Nat) : LPBounds K :=
  match s.LB i with
  | some l =>
      { s with
        traslSol := Function.update s.traslSol i l
        traslCost := s.traslCost + s.cost i * l
        b := fun r => s.b r - s.A r i * l
        UB := Function.update s.UB i ((s.UB i).map (· - l)) }
  | none => { s with nFinal := s.nFinal + 1 }

/-- The body of the loop over the variables (`GeDiM/src/Algebra/LPUtilities.cpp:43-69`). -/
def LPBounds.bound (s : LPBounds K) (i : Nat) : LPBounds K :=
  let s := (s.flip i).shift i
  if (s.UB i).isSome then { s with mFinal := s.mFinal + 1, nFinal := s.nFinal + 1 } else s

/-- The body of the loop over the constraints (`GeDiM/src/Algebra/LPUtilities.cpp:71-87`). -/
def LPBounds.row (types : Nat → RowType) (s : LPBounds K) (i : Nat) : LPBounds K :=
  match types i with
  | .ge =>
      { s with
        A := fun r c => if r = i then -s.A r c else s.A r c
        b := Function.update s.b i (-s.b i)
        nFinal := s.nFinal + 1 }
  | .eq => s
  | .le => { s with nFinal := s.nFinal + 1 }

/-- The first two loops of the constructor (`GeDiM/src/Algebra/LPUtilities.cpp:33-87`). -/
def LPInput.bounds (p : LPInput K) : LPBounds K :=
  let s : LPBounds K :=
    { cost := p.cost, A := p.A, b := p.b, LB := p.LB, UB := p.UB, traslCost := 0
      traslSol := fun _ => 0, signSol := fun _ => 1, nFinal := p.n, mFinal := p.m }
  (List.range p.m).foldl (LPBounds.row p.types) ((List.range p.n).foldl LPBounds.bound s)

/-- The members that the last two loops of the constructor fill. -/
structure LPFinal (K : Type) where
  A : Nat → Nat → K
  b : Nat → K
  cost : Nat → K
  map : Nat → Nat → K
  slack : List Nat
  noSlack : List Nat
  addVar : Nat
  addEq : Nat

/-- An upper bound gives a row and a slack variable (`GeDiM/src/Algebra/LPUtilities.cpp:101-111`). Writing
outside the matrix is not defined. -/
def LPFinal.upper (s : LPBounds K) (f : LPFinal K) (i : Nat) : Res (LPFinal K) :=
  match s.UB i with
  | some u =>
      if f.addVar < s.nFinal ∧ f.addEq < s.mFinal then
        ok { f with
          A := fun r c => if r = f.addEq ∧ (c = i ∨ c = f.addVar) then 1 else f.A r c
          b := Function.update f.b f.addEq u
          slack := f.slack ++ [f.addVar]
          addVar := f.addVar + 1
          addEq := f.addEq + 1 }
      else ub
  | none => ok f

/-- A variable without lower bound gets a second variable for its negative part
(`GeDiM/src/Algebra/LPUtilities.cpp:113-120`). -/
def LPFinal.negative (s : LPBounds K) (f : LPFinal K) (i : Nat) : Res (LPFinal K) :=
  match s.LB i with
  | none =>
      if f.addVar < s.nFinal then
        ok { f with
          map := fun r c => if r = i ∧ c = f.addVar then -s.signSol i else f.map r c
          A := fun r c => if c = f.addVar then -f.A r i else f.A r c
          cost := Function.update f.cost f.addVar (-s.cost i)
          noSlack := f.noSlack ++ [f.addVar]
          addVar := f.addVar + 1 }
      else ub
  | some _ => ok f

/-- The body of the loop over the variables (`GeDiM/src/Algebra/LPUtilities.cpp:99-123`). -/
def LPFinal.variable (s : LPBounds K) (f : LPFinal K) (i : Nat) : Res (LPFinal K) := do
  let f ← f.upper s i
  let f ← f.negative s i
  ok { f with map := fun r c => if r = i ∧ c = i then s.signSol i else f.map r c }

/-- The body of the loop over the constraints (`GeDiM/src/Algebra/LPUtilities.cpp:125-139`). -/
def LPFinal.row (types : Nat → RowType) (s : LPBounds K) (f : LPFinal K) (i : Nat) :
    Res (LPFinal K) :=
  match types i with
  | .eq => ok f
  | _ =>
      if f.addVar < s.nFinal then
        ok { f with
          A := fun r c => if r = i ∧ c = f.addVar then 1 else f.A r c
          slack := f.slack ++ [f.addVar]
          addVar := f.addVar + 1 }
      else ub

/-- The last two loops of the constructor (`GeDiM/src/Algebra/LPUtilities.cpp:89-139`). -/
def LPInput.final (p : LPInput K) : Res (LPFinal K) := do
  let s := p.bounds
  let f : LPFinal K :=
    { A := fun r c => if r < p.m ∧ c < p.n then s.A r c else 0
      b := fun r => if r < p.m then s.b r else 0
      cost := fun c => if c < p.n then s.cost c else 0
      map := fun _ _ => 0
      slack := []
      noSlack := List.range p.n
      addVar := p.n
      addEq := p.m }
  let f ← foldRes (LPFinal.variable s) f (List.range p.n)
  foldRes (LPFinal.row p.types s) f (List.range p.m)

/-- The problem in equality form. -/
def LPFinal.std (s : LPBounds K) (f : LPFinal K) : StdLP K s.mFinal s.nFinal where
  A := Matrix.of fun i j => f.A i j
  b := fun i => f.b i
  c := fun j => f.cost j

/-- `PrimalResult` (`GeDiM/src/Algebra/LPUtilities.hpp:29-45`) with the members of each exit value that are
set. -/
inductive PrimalResult (K : Type) where
  | success (solution : Nat → K) (cost : K)
  | unbounded
  | noSlack
  | maxIt

/-- `result.solution = map_sol * result.solution_final + trasl_sol`, with the variables of the equality
form as a function on numbers (`GeDiM/src/Algebra/LPUtilities.cpp:234`). -/
def LPFinal.solution (s : LPBounds K) (f : LPFinal K) (y : Fin s.nFinal → K) (i : Nat) : K :=
  (∑ j : Fin s.nFinal, f.map i j * y j) + s.traslSol i

/-- The constructor of `Simplex` followed by `solve_primal_simplex(slack_indices, no_slack_indices, maxIt,
tol)`, as `PolygonChebyshevCenter` and the tests use it: a problem without starting basis is not solved
(`GeDiM/src/Algebra/LPUtilities.cpp:22-238`). -/
def LPInput.simplex (p : LPInput K) (maxIt : Nat) (tol : K) : Res (PrimalResult K) := do
  let s := p.bounds
  let f ← p.final
  if f.slack.length ≠ s.mFinal then ok .noSlack
  else do
    match ← (f.std s).solvePrimal f.slack f.noSlack maxIt tol with
    | .success B _ beta =>
        let y := basicSolution B beta
        ok (.success (f.solution s y) (∑ j, (f.std s).c j * y j))
    | .unbounded => ok .unbounded
    | .maxIt => ok .maxIt

/-! ### The largest circle in a polygon -/

/-- The linear program of `PolygonChebyshevCenter`: the variables are the coordinates of the centre and
the radius (`GeDiM/src/Geometry/GeometryUtilities_Polygon.cpp:245-265`). -/
def chebyshevLP (vs normals : List (V3 K)) (r0 : Option K) : LPInput K where
  n := 3
  m := vs.length
  cost := fun i => if i = 2 then 1 else 0
  A := fun r c =>
    match normals[r]?, c with
    | some v, 0 => v.x
    | some v, 1 => v.y
    | _, _ => 1
  b := fun r =>
    match normals[r]?, vs[r]? with
    | some v, some p => v.dot p
    | _, _ => 0
  types := fun _ => .le
  LB := fun i => if i = 2 then some 0 else none
  UB := fun i => if i = 2 then r0 else none

/-- `PolygonChebyshevCenter` (`GeDiM/src/Geometry/GeometryUtilities_Polygon.cpp:238-278`): the centre and the
radius; `r0` is the bound of the radius if it is used. The code calls the algorithm with 1000 iterations
and the tolerance 10^-12. -/
def chebyshevCenter (vs normals : List (V3 K)) (r0 : Option K) (maxIt : Nat) (tol : K) :
    Res (V3 K × K) :=
  if normals.length ≠ vs.length then ub
  else do
    match ← (chebyshevLP vs normals r0).simplex maxIt tol with
    | .success x _ => ok (⟨x 0, x 1, 0⟩, x 2)
    | _ => throw

end Verif
