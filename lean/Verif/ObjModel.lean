import Verif.Basic
import Verif.OffModel

/-
The text of meshes of polygons in the format OBJ: `WavefrontOBJInterface` (`GeDiM/src/Mesh/WavefrontOBJInterface.cpp:28-128`).

A line is given by its kind and its words, with numbers already converted. The number of edges of an `OBJMesh` is not in the text and is
not set when a text is read; it is left out. The sums of `int` are taken as exact.
-/
namespace Verif

open Res

/-- A word of the line of a polygon. -/
inductive ObjWord where
  | int (k : Int)
  | slash
  | text
  deriving DecidableEq

/-- A line: a vertex with its coordinates, a polygon with its words, or a line that is skipped (empty, `#`, another tag;
`GeDiM/src/Mesh/WavefrontOBJInterface.cpp:37-45`). -/
inductive ObjLine (K : Type) where
  | vertex (xs : List K)
  | face (ws : List ObjWord)
  | other

/-- `OBJMesh` (`GeDiM/src/Mesh/WavefrontOBJInterface.hpp:23-31`), without the number of edges. The matrix of the vertices has as many
columns as there are vertices, as after reading. -/
structure ObjMesh (K : Type) where
  points : List (V3 K)
  faces : List (List Int)

variable {K : Type}

/-- The coordinates of a vertex (`GeDiM/src/Mesh/WavefrontOBJInterface.cpp:47-53`). With fewer than three numbers a coordinate has no
value. -/
def objPoint : List K → Res (V3 K)
  | x :: y :: z :: _ => ok ⟨x, y, z⟩
  | _ => ub

/-- The index of a vertex (`GeDiM/src/Mesh/WavefrontOBJInterface.cpp:69-77`) when `n` vertices have been read; `std::stoi` throws for a
word that is not a number. -/
def objIndex (n : Nat) : ObjWord → Res Int
  | .int k =>
      let idx := if k < 0 then (n : Int) + k + 1 else k
      ok (idx - 1)
  | _ => Res.throw

/-- The line of a polygon (`GeDiM/src/Mesh/WavefrontOBJInterface.cpp:54-88`). -/
def objFace (n : Nat) (ws : List ObjWord) : Res (List Int) :=
  if .slash ∈ ws then Res.throw else mapRes (objIndex n) ws

/-- A round of the loop over the lines (`GeDiM/src/Mesh/WavefrontOBJInterface.cpp:35-89`). -/
def objLine (s : ObjMesh K) : ObjLine K → Res (ObjMesh K)
  | .vertex xs => do
      let p ← objPoint xs
      ok { s with points := s.points ++ [p] }
  | .face ws => do
      let f ← objFace s.points.length ws
      ok { s with faces := s.faces ++ [f] }
  | .other => ok s

/-- `StringsToOBJMesh` (`GeDiM/src/Mesh/WavefrontOBJInterface.cpp:28-99`). -/
def textToObj (lines : List (ObjLine K)) : Res (ObjMesh K) := foldRes objLine ⟨[], []⟩ lines

/-- `OBJMeshToStrings` (`GeDiM/src/Mesh/WavefrontOBJInterface.cpp:100-128`). -/
def objToText (o : ObjMesh K) : List (ObjLine K) :=
  o.points.map (fun p => .vertex [p.x, p.y, p.z]) ++ o.faces.map (fun f => .face (f.map fun i => .int (i + 1)))

end Verif
