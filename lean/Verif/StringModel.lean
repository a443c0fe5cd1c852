import Verif.Basic
import Verif.MeshModel

/-
Model of `GeDiM/src/IO/StringsUtilities.cpp` and of the printing of containers in
`GeDiM/src/IO/IOStream.hpp`. A `std::string` is a list of characters.
-/
namespace Verif

open Res

abbrev Str := List Char

/-- Loop of `Split(string, char)` (`GeDiM/src/IO/StringsUtilities.cpp:30-31`). `getline` takes
characters one at a time into `cur`; it stops behind the separator, or at the end of the text, where
it fails if it has taken no character at all (`any` is false). -/
def splitGo (c : Char) (cur : Str) (any : Bool) : Str → List Str
  | [] => if any then [cur] else []
  | x :: xs => if x = c then cur :: splitGo c [] false xs else splitGo c (cur ++ [x]) true xs

/-- `Split(string, char)` (`GeDiM/src/IO/StringsUtilities.cpp:24-34`). -/
def split (c : Char) (s : Str) : List Str := splitGo c [] false s

/-- `Split(string, vector<char>)` (`GeDiM/src/IO/StringsUtilities.cpp:36-62`): one pass per
character, each pass splits all strings of the list. -/
def splitMany (cs : List Char) (s : Str) : List Str :=
  cs.foldl (fun strings c => strings.flatMap (split c)) [s]

/-- `string::find`: position of the first occurrence of `key` in `s`. -/
def strFind (key : Str) : Str → Option Nat
  | [] => if key = [] then some 0 else none
  | x :: xs => if key.isPrefixOf (x :: xs) then some 0 else (strFind key xs).map (· + 1)

/-- `FindSeparator` (`GeDiM/src/IO/StringsUtilities.cpp:64-99`). The differences of positions are of
type `size_t`; a negative difference wraps to a number that is not 1. -/
def findSeparator (s keyOne keyTwo : Str) : Res Char :=
  match strFind keyOne s with
  | none => throw
  | some p1 =>
    match strFind keyTwo s with
    | none => throw
    | some p2 =>
      if p2 = p1 then throw
      else if p2 > p1 then
        let q := keyOne.length + p1
        if (p2 : Int) - q ≠ 1 then throw else vget s q
      else
        let q := keyTwo.length + p2
        if (p1 : Int) - q ≠ 1 then throw else vget s q

/-- `ToLower` (`GeDiM/src/IO/StringsUtilities.cpp:101-107`) in the "C" locale. -/
def toLower (s : Str) : Str := s.map Char.toLower

/-- `isspace` in the "C" locale. -/
def isSpace (c : Char) : Bool :=
  c = ' ' || c = '\t' || c = '\n' || c = '\r' || c = Char.ofNat 11 || c = Char.ofNat 12

/-- Value of a list of decimal digits. -/
def digitsVal (ds : Str) : Nat := ds.foldl (fun v c => 10 * v + (c.toNat - '0'.toNat)) 0

/-- `std::stoi` by its documented effect: white space, an optional sign, then as many digits as there
are; the rest of the text is ignored. No digit: `invalid_argument`. Not an `int`: `out_of_range`. -/
def stoi (s : Str) : Res Int :=
  let t := s.dropWhile isSpace
  let neg := t.head? = some '-'
  let t := if t.head? = some '-' ∨ t.head? = some '+' then t.drop 1 else t
  let ds := t.takeWhile Char.isDigit
  if ds = [] then throw
  else
    let v : Int := if neg then - (digitsVal ds : Int) else digitsVal ds
    if -2147483648 ≤ v ∧ v ≤ 2147483647 then ok v else throw

/-- `Parse<int>` (`GeDiM/src/IO/StringsUtilities.cpp:122-125`). -/
def parseInt (s : Str) : Res Int := stoi s

/-- `Parse<unsigned int>` (`GeDiM/src/IO/StringsUtilities.cpp:127-130`): `stoi`, then the conversion
from `int` to `unsigned int`, which adds `2^32` to negative values. -/
def parseUInt (s : Str) : Res Nat := do
  let v ← stoi s
  ok (if v < 0 then (v + 4294967296).toNat else v.toNat)

/-- `Parse<char>` (`GeDiM/src/IO/StringsUtilities.cpp:117-120`): `objectString[0]`, which is the null
character for an empty string. -/
def parseChar (s : Str) : Char := s.headD (Char.ofNat 0)

/-- `Parse<bool>` (`GeDiM/src/IO/StringsUtilities.cpp:147-165`). -/
def parseBool (s : Str) : Res Bool :=
  let l := toLower s
  if l = "false".toList ∨ l = "f".toList ∨ l = "0".toList then ok false
  else if l = "true".toList ∨ l = "t".toList ∨ l = "1".toList then ok true
  else throw

/-- The separators of the container parsers (`GeDiM/src/IO/StringsUtilities.cpp:172`). -/
def parseSeparators : List Char := ['[', ',', ';', ']', ' ']

/-- `Parse<vector<T>>` (`GeDiM/src/IO/StringsUtilities.cpp:167-225`), for the element parser `f`. -/
def parseVector {α : Type} (f : Str → Res α) (s : Str) : Res (List α) :=
  mapRes f (splitMany parseSeparators s)

/-- `std::set::insert` into a sorted list. -/
def sortedInsert (x : Nat) : List Nat → List Nat
  | [] => [x]
  | y :: ys => if x < y then x :: y :: ys else if x = y then y :: ys else y :: sortedInsert x ys

/-- `Parse<set<unsigned int>>` (`GeDiM/src/IO/StringsUtilities.cpp:227-244`). -/
def parseSet (s : Str) : Res (List Nat) := do
  let l ← parseVector parseUInt s
  ok (l.foldl (fun set x => sortedInsert x set) [])

/-- `out << n` for an `unsigned int`. -/
def showUInt (n : Nat) : Str := Nat.toDigits 10 n

/-- `out << i` for an `int`. -/
def showInt (i : Int) : Str :=
  if i < 0 then '-' :: Nat.toDigits 10 i.natAbs else Nat.toDigits 10 i.natAbs

/-- The loop of `operator<<(vector)` (`GeDiM/src/IO/IOStream.hpp:113-114`). -/
def showElems {α : Type} (shw : α → Str) (first : Bool) : List α → Str
  | [] => []
  | x :: xs => (if first then [] else [',']) ++ shw x ++ showElems shw false xs

/-- `operator<<(vector)` (`GeDiM/src/IO/IOStream.hpp:104-118`). `maxElements` and `start` are the
global variables `Output::MaxElementToPrint` and `Output::StartingIndexToPrint` (both 0 unless a
program changes them), here not negative. -/
def showVector {α : Type} (maxElements start : Nat) (shw : α → Str) (v : List α) : Str :=
  let size := if maxElements = 0 ∨ maxElements > v.length then v.length else maxElements
  let start := if start ≥ v.length then 0 else start
  '[' :: showElems shw true ((v.drop start).take size) ++ [']']

/-- The loop of `operator<<(set)` (`GeDiM/src/IO/IOStream.hpp:292-304`) with its two counters. -/
def showSetLoop {α : Type} (shw : α → Str) (size start : Nat) (counter printed : Nat) :
    List α → Str
  | [] => []
  | x :: xs =>
    let out := if counter ≥ start then (if counter ≠ start then [','] else []) ++ shw x else []
    let printed := if counter ≥ start then printed + 1 else printed
    if printed ≥ size then out else out ++ showSetLoop shw size start (counter + 1) printed xs

/-- `operator<<(set)` (`GeDiM/src/IO/IOStream.hpp:281-308`); `operator<<(list)` (lines 168-194) has
the same text. -/
def showSet {α : Type} (maxElements start : Nat) (shw : α → Str) (v : List α) : Str :=
  let size := if maxElements = 0 ∨ maxElements > v.length then v.length else maxElements
  let start := if start ≥ v.length then 0 else start
  '{' :: showSetLoop shw size start 0 0 v ++ ['}']

end Verif
