import Verif.MetisModel
import Verif.GraphSpec
import Verif.CsrSpec

/-
Specification of networks in offset format and of partitions.
-/
namespace Verif

/-- Entry `k` of `Cols` lies between the offsets of vertex `v` and names vertex `w`. -/
def NetEdge (c : Csr Nat) (k v w : Nat) : Prop :=
  ∃ a b, c.off[v]? = some a ∧ c.off[v + 1]? = some b ∧ a ≤ k ∧ k < b ∧ c.el[k]? = some w

/-- A network with `n` vertices: well-formed offsets, and every column is a vertex. -/
def Network (c : Csr Nat) (n : Nat) : Prop := c.WF n ∧ ∀ w ∈ c.el, w < n

/-- `w` is reachable from `u` along edges whose two ends carry the same label. -/
def PartReach (c : Csr Nat) (part : List Nat) : Nat → Nat → Prop :=
  Relation.ReflTransGen (fun a b => (∃ k, NetEdge c k a b) ∧ part[a]? = part[b]?)

end Verif
