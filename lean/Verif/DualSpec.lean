import Verif.DualModel
import Verif.MetisSpec
import Mathlib.Data.Set.Card

/-
Notions in which the dual graph of a mesh is stated.
-/
namespace Verif

open Res

/-- Number of ways to choose two different slots of the list `r` of which the first holds `v` and the second `w`. -/
def slotPairs (r : List Nat) (v w : Nat) : Nat :=
  if v = w then r.count v * (r.count v - 1) else r.count v * r.count w

/-- The cell `e` has `v` and `w` in two different slots of its list `l`. -/
def DualJoins {α : Type} (m : Mesh α) (l : Lst) (e v w : Nat) : Prop :=
  ∃ (r : List Nat) (i j : Nat), m.row l e = ok r ∧ i ≠ j ∧ r[i]? = some v ∧ r[j]? = some w

/-- Number of connections from `v` to `w` in the network that are labelled with `e`. -/
noncomputable def connections (c : Csr Nat) (labels : List Nat) (v w e : Nat) : Nat :=
  Set.ncard {k | NetEdge c k v w ∧ labels[k]? = some e}

/-- The entry of the matrix of weights, one without a matrix. -/
def weightOf (weight : Option (Nat → Nat → Nat)) (v w : Nat) : Nat := (weight.map fun f => f v w).getD 1

/-- The weights of a list of edges, all one without weights. -/
def weightsOf (edges : List (Nat × Nat)) (weights : List Nat) : List Nat :=
  if weights = [] then List.replicate edges.length 1 else weights

end Verif
