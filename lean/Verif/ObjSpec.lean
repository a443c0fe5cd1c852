import Verif.ObjModel

/-
What a text in the format OBJ means.
-/
namespace Verif

variable {K : Type}

/-- The index `k` in the text is vertex `i` (counted from 0) when there are `n` vertices before: positive indices count from 1, negative
ones count back from the last vertex. -/
def ObjIndex (n : Nat) (k i : Int) : Prop := (0 < k ∧ i + 1 = k) ∨ (k < 0 ∧ i = n + k)

/-- The lines of vertices. -/
def ObjLine.isVertex : ObjLine K → Bool
  | .vertex _ => true
  | _ => false

/-- The lines of polygons. -/
def ObjLine.isFace : ObjLine K → Bool
  | .face _ => true
  | _ => false

/-- The mesh of a text: the vertices and polygons are those of the lines, in order. -/
structure ObjMeaning (lines : List (ObjLine K)) (o : ObjMesh K) : Prop where
  numPoints : o.points.length = (lines.filter ObjLine.isVertex).length
  numFaces : o.faces.length = (lines.filter ObjLine.isFace).length
  point : ∀ a b xs, lines = a ++ .vertex xs :: b →
    ∃ p, o.points[(a.filter ObjLine.isVertex).length]? = some p ∧ ∃ more, xs = p.x :: p.y :: p.z :: more
  face : ∀ a b ws, lines = a ++ .face ws :: b →
    ∃ f, o.faces[(a.filter ObjLine.isFace).length]? = some f ∧
      List.Forall₂ (fun w i => ∃ k, w = ObjWord.int k ∧ ObjIndex (a.filter ObjLine.isVertex).length k i) ws f

/-- A line that the format allows. -/
def ObjLine.Good : ObjLine K → Prop
  | .vertex xs => 3 ≤ xs.length
  | .face ws => ∀ w ∈ ws, ∃ k, w = .int k ∧ k ≠ 0
  | .other => True

end Verif
