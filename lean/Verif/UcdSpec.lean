import Verif.UcdModel

/-
What the lines of the cells of a UCD file are.
-/
namespace Verif

/-- The dimension and the number of points of the shapes of the UCD format. -/
def ucdShape (label : String) : Option (Nat × Nat) :=
  [("pt", 0, 1), ("line", 1, 2), ("tri", 2, 3), ("quad", 2, 4), ("tet", 3, 4), ("pyr", 3, 5), ("prism", 3, 6), ("hex", 3, 8)].lookup label

/-- The lines describe the elements of dimension `d`, in order: numbers from 1, the shape with the right number of points, the points with
numbers from 1, and the material of the element if there are as many materials as elements, otherwise 0. -/
structure IsUcdLines (d : Nat) (elements : List (List Nat)) (materials : List Int) (lines : List UcdLine) : Prop where
  number : lines.length = elements.length
  line : ∀ (i : Nat) e l, elements[i]? = some e → lines[i]? = some l → l.number = i + 1 ∧ ucdShape l.label = some (d, e.length) ∧
    l.points = e.map (· + 1)
  material : ∀ (i : Nat) l, lines[i]? = some l → materials.length = elements.length → materials[i]? = some (l.material : Int)
  none : ∀ l ∈ lines, materials.length ≠ elements.length → l.material = 0

end Verif
