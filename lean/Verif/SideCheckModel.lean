import Verif.MeshModel
import Verif.MetisModel
import Verif.CompareModel

/-
`RefinePolygonCell_IsCell1DToSplit` (`GeDiM/src/Mesh/RefinementUtilities2D.cpp:866-1004`): whether an edge of a polygon is to
be split when the polygon is refined.
-/
namespace Verif

open Res

variable {K : Type} [Field K] [LinearOrder K] [IsStrictOrderedRing K]

/-- `RefinePolygon_CheckResult::Cell1DToSplit::Types` (`GeDiM/src/Mesh/RefinementUtilities.hpp:84-96`). -/
inductive SideVerdict where
  | unknown
  | notInside
  | lengthNotEnough
  | onlyLocalQuality
  | onlyNeighQuality
  | bothQuality
  | onlyLocalAligned
  | onlyNeighAligned
  | bothAligned
  | toSplit
  deriving DecidableEq, Repr

/-- `RefinePolygon_CheckResult::Cell1DToSplit` (`GeDiM/src/Mesh/RefinementUtilities.hpp:82-109`) with its initial values. -/
structure SideCheck where
  inside : Bool := false
  lengthEnough : Bool := false
  localQuality : Bool := false
  quality : Bool := false
  neighQuality : List Bool := []
  localAligned : Bool := false
  aligned : Bool := false
  neighAligned : List Bool := []
  isToSplit : Bool := false
  index : Nat := 0
  verdict : SideVerdict := .unknown
  deriving DecidableEq, Repr

/-- The members of the result that one of the two loops over the neighbours of the edge changes. -/
structure Rounds where
  verdict : SideVerdict
  here : Bool
  all : Bool
  neigh : List Bool
  deriving DecidableEq, Repr

/-- The two tests at the end of a round, for the neighbour `d` at position `k`
(`GeDiM/src/Mesh/RefinementUtilities2D.cpp:919-937`, `:977-995`). -/
def Rounds.judge (onlyLocal onlyNeigh both : SideVerdict) (c d k : Nat) (good : Bool) (s : Rounds) : Res Rounds := do
  let neigh ← vset s.neigh k good
  let s := { s with neigh := neigh }
  let s := if d = c ∧ good = false then
      { s with verdict := if s.all = false then both else onlyLocal, here := false } else s
  ok (if good = false then
      { s with verdict := if s.here = false then both else onlyNeigh, all := false } else s)

/-- One round of the loop for the quality (`GeDiM/src/Mesh/RefinementUtilities2D.cpp:907-938`). -/
def GeoCfg.qualityRound (g : GeoCfg K) (m : Mesh K) (e c : Nat) (length weight : K) (quality : List K) (s : Rounds)
    (k : Nat) : Res Rounds := do
  let has ← m.hasEntry .nb12 e k
  if !has then ok s
  else do
    let d ← m.entry .nb12 e k
    let q ← vget quality d
    s.judge .onlyLocalQuality .onlyNeighQuality .bothQuality c d k
      (g.isValueGreaterOrEqual (1 / 2 * length) (weight * q) g.tol1D)

/-- The number and the length of the aligned edges of a neighbour
(`GeDiM/src/Mesh/RefinementUtilities2D.cpp:957-968`). -/
def alignedRound (m : Mesh K) (d : Nat) (lengths : List (List K)) (aligned : List Nat) (line : Nat) (s : Nat × K)
    (k : Nat) : Res (Nat × K) := do
  let x ← m.entry .edge2 d k
  let a ← vat aligned x
  if a = line then do
    let ls ← vget lengths d
    let l ← vget ls k
    ok (s.1 + 1, s.2 + l)
  else ok s

/-- One round of the loop for the aligned edges (`GeDiM/src/Mesh/RefinementUtilities2D.cpp:950-996`). -/
def GeoCfg.alignRound (g : GeoCfg K) (m : Mesh K) (e c : Nat) (length weight : K) (lengths : List (List K))
    (aligned : List Nat) (line : Nat) (s : Rounds) (k : Nat) : Res Rounds := do
  let has ← m.hasEntry .nb12 e k
  if !has then ok s
  else do
    let d ← m.entry .nb12 e k
    let n ← m.rowSize .edge2 d
    let (num, sum) ← foldRes (alignedRound m d lengths aligned line) (0, 0) (List.range n)
    s.judge .onlyLocalAligned .onlyNeighAligned .bothAligned c d k
      (g.isValueGreaterOrEqual (1 / 2 * length) (weight * sum / ((num + 1 : Nat) : K)) g.tol1D)

/-- The part of the function after the test of the quality (`GeDiM/src/Mesh/RefinementUtilities2D.cpp:943-1004`). -/
def GeoCfg.checkAligned (g : GeoCfg K) (m : Mesh K) (e c : Nat) (length weight : K) (lengths : List (List K))
    (aligned : List Nat) (r : SideCheck) : Res SideCheck := do
  let line ← vat aligned e
  let n ← m.rowSize .nb12 e
  let s ← foldRes (g.alignRound m e c length weight lengths aligned line)
    ⟨r.verdict, true, true, List.replicate n true⟩ (List.range n)
  let r := { r with localAligned := s.here, aligned := s.all, neighAligned := s.neigh, verdict := s.verdict }
  ok (if s.all = false then r else { r with verdict := .toSplit, isToSplit := true })

/-- `RefinePolygonCell_IsCell1DToSplit` (`GeDiM/src/Mesh/RefinementUtilities2D.cpp:866-1004`) for the edge `e`, at position
`index` of the polygon `c`; `inside` tells if the intersection has the type `InsideEdge`. -/
def GeoCfg.isEdgeToSplit (g : GeoCfg K) (m : Mesh K) (e c : Nat) (inside : Bool) (index : Nat)
    (lengths : List (List K)) (qualityWeight alignedWeight : K) (quality : List K) (aligned : List Nat) :
    Res SideCheck := do
  let r : SideCheck := { index := index, inside := inside }
  if inside = false then ok { r with verdict := .notInside }
  else do
    let ls ← vget lengths c
    let length ← vget ls index
    let r := { r with lengthEnough := !g.isValueZero (1 / 2 * length) g.tol1D }
    if r.lengthEnough = false then ok { r with verdict := .lengthNotEnough }
    else do
      let n ← m.rowSize .nb12 e
      let s ← foldRes (g.qualityRound m e c length qualityWeight quality)
        ⟨r.verdict, true, true, List.replicate n true⟩ (List.range n)
      let r := { r with localQuality := s.here, quality := s.all, neighQuality := s.neigh, verdict := s.verdict }
      if s.all = false then ok r
      else g.checkAligned m e c length alignedWeight lengths aligned r

end Verif
