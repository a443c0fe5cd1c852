import Verif.Basic

/-
`GeometryUtilities::MakeConcatenation` (`GeDiM/src/Geometry/GeometryUtilities_Point.cpp:191-251`).
The matrix of the segments is the list of its columns, the result likewise. The start vertex is
taken as an `int` (the C++ function takes an `unsigned int` and converts it).
-/
namespace Verif

open Res

/-- Local variables of the loop. -/
structure ConcatState where
  concatenation : List (Int × Nat)
  taken : List Bool
  numTaken : Nat
  nextVertex : Int
  numVisited : Nat
  segmentIndex : Nat

/-- The branch that appends a segment
(`GeDiM/src/Geometry/GeometryUtilities_Point.cpp:217-225`, `230-238`). -/
def ConcatState.take (s : ConcatState) (n : Nat) (other : Int) : Res ConcatState := do
  let concatenation ← vset s.concatenation s.numTaken (s.nextVertex, s.segmentIndex)
  let taken ← vset s.taken s.segmentIndex true
  ok ⟨concatenation, taken, s.numTaken + 1, other, 1, (s.segmentIndex + 1) % n⟩

/-- The branch that goes on to the next segment
(`GeDiM/src/Geometry/GeometryUtilities_Point.cpp:210-212`, `241-242`). -/
def ConcatState.skip (s : ConcatState) (n : Nat) : ConcatState :=
  { s with numVisited := s.numVisited + 1, segmentIndex := (s.segmentIndex + 1) % n }

/-- The `while` loop (`GeDiM/src/Geometry/GeometryUtilities_Point.cpp:206-243`); the fuel bounds the
number of rounds. -/
def concatLoop (segments : List (Int × Int)) : Nat → ConcatState → Res ConcatState
  | 0, _ => loop
  | fuel + 1, s =>
    if s.numVisited < segments.length ∧ s.numTaken < segments.length then do
      let t ← vget s.taken s.segmentIndex
      if t then concatLoop segments fuel (s.skip segments.length)
      else do
        let segment ← vget segments s.segmentIndex
        if segment.1 = s.nextVertex then do
          let s ← s.take segments.length segment.2
          concatLoop segments fuel s
        else if segment.2 = s.nextVertex then do
          let s ← s.take segments.length segment.1
          concatLoop segments fuel s
        else concatLoop segments fuel (s.skip segments.length)
    else ok s

/-- `MakeConcatenation` (`GeDiM/src/Geometry/GeometryUtilities_Point.cpp:191-251`). The empty matrix
is the empty list. -/
def makeConcatenation (fuel : Nat) (segments : List (Int × Int)) (start : Int) :
    Res (List (Int × Nat)) :=
  let n := segments.length
  if n = 0 then ok []
  else do
    let s ← concatLoop segments fuel ⟨List.replicate n (0, 0), List.replicate n false, 0, start, 0, 0⟩
    if s.numTaken = 0 then ok []
    else ok (s.concatenation.take s.numTaken)

end Verif
