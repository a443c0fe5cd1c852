import Verif.MeshSpec

/-
Incidences between cells.
-/
namespace Verif

open Res

/-- The cells `c < n` that satisfy `act`, in index order, each as often as `x` occurs in its
boundary. -/
def cellIncidences (n : Nat) (act : Nat → Bool) (bdry : Nat → List Nat) (x : Nat) : List Nat :=
  (List.range n).flatMap fun c => if act c then List.replicate ((bdry c).count x) c else []

/-- The activity flags of the cells of dimension `d`. -/
def Activity {α : Type} (m : Mesh α) (d : Dim) (act : Nat → Bool) : Prop :=
  ∀ c < m.num d, m.active d c = ok (act c)

/-- The boundaries of the active cells among the first `n`, as a getter returns them; all entries
are below `k`. -/
def Boundary (n k : Nat) (act : Nat → Bool) (get : Nat → Res (List Nat)) (bdry : Nat → List Nat) :
    Prop :=
  ∀ c < n, act c = true → get c = ok (bdry c) ∧ ∀ x ∈ bdry c, x < k

/-- `m'` differs from `m` only in the list `l`, which has become the list of incidences. -/
structure NeighboursSet {α : Type} (m m' : Mesh α) (l : Lst) (nbs : Nat → List Nat) : Prop where
  wf : m'.WF
  frame : m' = { m with lists := fset m.lists l (m'.lists l) }
  rows : ∀ x < m.num l.owner, m'.row l x = ok (nbs x)

/-- The active polygon `c` has the edge `x` as side number `k`, running from vertex `o` to
vertex `t`. -/
def HasSide {α : Type} (m : Mesh α) (c x o t : Nat) : Prop :=
  m.active .d2 c = ok true ∧ ∃ vs es : List Nat, m.row .vert2 c = ok vs ∧ m.row .edge2 c = ok es ∧
    ∃ k : Nat, es[k]? = some x ∧ vs[k]? = some o ∧ vs[(k + 1) % vs.length]? = some t

/-- Every active polygon has at least three different vertices and as many edges; edge `k` joins
vertices `k` and `k + 1` in some order. -/
def PolygonsOk {α : Type} (m : Mesh α) : Prop :=
  ∀ c < m.num .d2, m.active .d2 c = ok true →
    ∃ vs es : List Nat, m.row .vert2 c = ok vs ∧ m.row .edge2 c = ok es ∧
      3 ≤ vs.length ∧ vs.Nodup ∧ es.length = vs.length ∧
      ∀ (k x a b : Nat), es[k]? = some x → vs[k]? = some a → vs[(k + 1) % vs.length]? = some b →
        m.extremes x = ok (a, b) ∨ m.extremes x = ok (b, a)

end Verif
