import Verif.EdgeLabelModel
import Verif.MeshSpec

/-
Notions in which the labels of edges are stated.
-/
namespace Verif

open Res

variable {α σ : Type}

/-- The edge `e` is a part of the edge `o`. -/
def Mesh.PieceOf (m : Mesh α) (e o : Nat) : Prop := m.original .d1 e = ok o ∧ o < m.num .d1

/-- The edge `r`, no part of another edge, is the one that `e` came from in the end. -/
inductive Mesh.CameFrom (m : Mesh α) : Nat → Nat → Prop
  | self {e : Nat} : (∀ o, ¬ m.PieceOf e o) → CameFrom m e e
  | step {e o r : Nat} : m.PieceOf e o → CameFrom m o r → CameFrom m e r

/-- The edge `e` has the label `l`; the value zero stands for no label. -/
def EdgeLabels.Has (s : EdgeLabels σ) (e l : Nat) : Prop := s.aligned[e]? = some l ∧ l ≠ 0

/-- The labels fit to the mesh: none is greater than the counter, a part has the label of the whole, and two edges
that are not parts have different labels. -/
structure EdgeLabels.Fits (m : Mesh α) (s : EdgeLabels σ) : Prop where
  le : ∀ e l, s.Has e l → l ≤ s.maxAligned
  parts : ∀ e o l, s.Has e l → m.PieceOf e o → s.Has o l
  wholes : ∀ r r' l, s.Has r l → s.Has r' l → (∀ o, ¬ m.PieceOf r o) → (∀ o, ¬ m.PieceOf r' o) → r = r'

/-- `e` is an edge of one of the polygons. -/
def Mesh.EdgeIn (m : Mesh α) (cells : List Nat) (e : Nat) : Prop :=
  ∃ c ∈ cells, ∃ es, m.row .edge2 c = ok es ∧ e ∈ es

/-- The polygons are in the mesh and so are their edges, and an edge that is a part has a whole with a label. -/
structure Mesh.CanLabel (m : Mesh α) (cells : List Nat) (s : EdgeLabels σ) : Prop where
  wf : m.WF
  inMesh : ∀ c ∈ cells, c < m.num .d2
  edges : ∀ e, m.EdgeIn cells e → e < m.num .d1
  wholes : ∀ e o, m.EdgeIn cells e → m.PieceOf e o → ∃ l, s.Has o l
  aligned : s.aligned.length ≤ m.num .d1
  status : s.status.length ≤ m.num .d1

end Verif
