/-
Specification of the refinement forest.
-/
import Verif.MeshSpec
import Mathlib.Logic.Relation

namespace Verif

open Res

namespace Mesh

variable {α : Type}

/-- `x` is listed among the updated cells of `c`. -/
def Child (m : Mesh α) (d : Dim) (c x : Nat) : Prop :=
  ∃ s, m.updated d c = ok (some s) ∧ x ∈ s

/-- `x` is reached from `c` through any number of updated-cell links. -/
def Descends (m : Mesh α) (d : Dim) (c x : Nat) : Prop :=
  Relation.ReflTransGen (m.Child d) c x

/-- No cell is reached from itself through one or more updated-cell links. -/
def Acyclic (m : Mesh α) (d : Dim) : Prop :=
  ∀ c, ¬ Relation.TransGen (m.Child d) c c

/-- Every cell is listed among the updated cells of at most one cell. -/
def SingleParent (m : Mesh α) (d : Dim) : Prop :=
  ∀ p q x, m.Child d p x → m.Child d q x → p = q

end Mesh

/-- How many cells a call adds. -/
def Op.load {α : Type} : Op α → Nat
  | .append _ k => k
  | _ => 0

/-- The call is not `CellXDsInitialize`. -/
def Op.notInit {α : Type} : Op α → Prop
  | .init _ _ => False
  | _ => True

/-- An inserted updated cell has a larger number than the cell that it replaces. -/
def Op.upward {α : Type} : Op α → Prop
  | .insertUpd _ i j => i < j
  | _ => True

end Verif
