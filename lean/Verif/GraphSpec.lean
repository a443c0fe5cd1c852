import Verif.GraphModel
import Mathlib.Logic.Relation
import Mathlib.Data.List.Perm.Basic

/-
Specification of graph notions, written without the functions of the model.
-/
namespace Verif

/-- There is an edge `u -> w`. -/
def Edge (G : Graph) (u w : Nat) : Prop := ∃ row, G[u]? = some row ∧ w ∈ row

/-- Every adjacent vertex is a vertex of the graph. -/
def Graph.InRange (G : Graph) : Prop := ∀ u w, Edge G u w → w < G.length

/-- `w` is reachable from `u` (in any number of steps, including none). -/
def Reach (G : Graph) : Nat → Nat → Prop := Relation.ReflTransGen (Edge G)

/-- `w` is reachable from `u` by a path all of whose vertices, except possibly `u`, are outside
`S`. -/
def ReachAvoid (G : Graph) (S : Nat → Prop) : Nat → Nat → Prop :=
  Relation.ReflTransGen (fun a b => Edge G a b ∧ ¬ S b)

/-- There is a walk of exactly `k` edges from `u` to `w`. -/
inductive Walk (G : Graph) (u : Nat) : Nat → Nat → Prop
  | nil : Walk G u 0 u
  | snoc {k w x : Nat} : Walk G u k w → Edge G w x → Walk G u (k + 1) x

/-- `k` is the number of hops from `u` to `w`. -/
def IsDist (G : Graph) (u w k : Nat) : Prop := Walk G u k w ∧ ∀ j, Walk G u j w → k ≤ j

/-- Number of edges `u -> w`. -/
def mult (G : Graph) (u w : Nat) : Nat := ((G[u]?).getD []).count w

/-- `m` is a finite map: no key occurs twice. -/
def UMap.IsMap (m : UMap) : Prop := (m.map (·.1)).Nodup

end Verif
