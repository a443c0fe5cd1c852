import Verif.MeshModel

/-
Common vertices or edges of a list of polygons.
-/
namespace Verif

open Res

/-- `r` lists the entries that occur in list `l` of every one of the cells. -/
def IsCommon {α : Type} (m : Mesh α) (l : Lst) (cells r : List Nat) : Prop :=
  ∀ v, v ∈ r ↔ ∀ c ∈ cells, ∃ row, m.row l c = ok row ∧ v ∈ row

/-- All cells of the list exist in the mesh. -/
def CellsExist {α : Type} (m : Mesh α) (l : Lst) (cells : List Nat) : Prop :=
  ∀ c ∈ cells, ∃ row, m.row l c = ok row

end Verif
