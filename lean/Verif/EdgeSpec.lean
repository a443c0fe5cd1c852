/-
Sides of polygons given by their vertices.
-/
namespace Verif

/-- `a`, `b` are consecutive vertices of the polygon, the first one following the last one. -/
def Side (cell : List Nat) (a b : Nat) : Prop :=
  ∃ v : Nat, cell[v]? = some a ∧ cell[(v + 1) % cell.length]? = some b

end Verif
