import Verif.GeomModel
import Mathlib.Algebra.Order.Floor.Defs
import Mathlib.Data.List.Sort

/-
Equispaced and random coordinates on a segment (`GeDiM/src/Geometry/GeometryUtilities.cpp`). `double` is an
arbitrary ordered field with a floor; `unsigned int` is a natural number, with the conversion from
`double` not defined outside its range.
-/
namespace Verif

open Res

variable {K : Type} [Field K] [LinearOrder K] [IsStrictOrderedRing K]

/-- `VectorXd::LinSpaced(n, a, b)` of Eigen. -/
def linSpaced (n : Nat) (a b : K) : List K :=
  if n = 1 then [b] else (List.range n).map fun i : Nat => a + (i : K) * ((b - a) / (n - 1))

/-- The loop that copies the entries from `offset` on
(`GeDiM/src/Geometry/GeometryUtilities.cpp:102-103`). -/
def copyFrom (l : List K) (offset : Nat) : List Nat → Res (List K)
  | [] => ok []
  | c :: cs => do
      let x ← vget l (c + offset)
      let r ← copyFrom l offset cs
      ok (x :: r)

/-- `EquispaceCoordinates(size, origin, end, insertExtremes)`
(`GeDiM/src/Geometry/GeometryUtilities.cpp:83-106`). -/
def equispaceCoordinates (size : Nat) (origin end_ : K) (insertExtremes : Bool) : Res (List K) :=
  if size = 0 then ok []
  else if size = 1 && insertExtremes then throw
  else
    let generated := if insertExtremes then linSpaced size origin end_ else linSpaced (size + 2) origin end_
    let number := if insertExtremes then generated.length else generated.length - 2
    copyFrom generated (if insertExtremes then 0 else 1) (List.range number)

variable [FloorSemiring K]

/-- `static_cast<unsigned int>` of a `double`. -/
def castUnsigned (x : K) : Res Nat := if -1 < x ∧ x < 2 ^ 32 then ok ⌊x⌋₊ else ub

/-- `EquispaceCoordinates(step, insertExtremes)` (`GeDiM/src/Geometry/GeometryUtilities.cpp:75-81`). The
subtraction of one is the one of `unsigned int`. -/
def GeoCfg.equispaceByStep (g : GeoCfg K) (step : K) (insertExtremes : Bool) : Res (List K) := do
  assert (g.isValuePositive step g.tol1D ∧ g.compareValues step 1 g.tol1D ≠ .secondBeforeFirst)
  let n ← castUnsigned (1 / step + 1 / 2)
  if insertExtremes then equispaceCoordinates ((n + 1) % 2 ^ 32) 0 1 true
  else equispaceCoordinates ((n + 2 ^ 32 - 1) % 2 ^ 32) 0 1 false

/-- The middle of the first two coordinates is inserted between them; the list must have two elements
(`GeDiM/src/Geometry/GeometryUtilities.cpp:146-150`). -/
def insertFirstMiddle : List K → Res (List K)
  | x :: y :: l => ok (x :: 1 / 2 * (x + y) :: y :: l)
  | _ => ub

/-- The middle of the last two coordinates is inserted between them
(`GeDiM/src/Geometry/GeometryUtilities.cpp:152-156`). -/
def insertLastMiddle (l : List K) : Res (List K) := do
  let r ← insertFirstMiddle l.reverse
  ok r.reverse

/-- `RandomCoordinates` (`GeDiM/src/Geometry/GeometryUtilities.cpp:108-159`) with
`RandomArrayNoRepetition` (`GeDiM/src/Common/CommonUtilities.cpp:50-63`); `std::sort` is any sorting of numbers and `shuffle` is `std::shuffle` with the
given seed. -/
def GeoCfg.randomCoordinates (g : GeoCfg K) (shuffle : List Nat → List Nat) (size : Nat)
    (insertExtremes : Bool) (minDistance : K) : Res (List K) :=
  if size = 0 then ok []
  else if size = 1 && insertExtremes then throw
  else do
    assert (g.isValuePositive minDistance g.tol1D = true)
    let maxValue ← castUnsigned (1 / minDistance)
    assert (size ≤ maxValue)
    let n := if insertExtremes then size - 2 else size
    let points := if n = 0 then [] else (shuffle (List.range maxValue)).take n
    let points := points.insertionSort (· ≤ ·)
    let inner := (points.filter fun r => !(insertExtremes && (r == 0 || r == maxValue))).map
      fun r : Nat => (r : K) / maxValue
    let l := if insertExtremes then 0 :: inner ++ [1] else inner
    let l ← if l.length < size then insertFirstMiddle l else ok l
    if l.length < size then insertLastMiddle l else ok l

end Verif
