import Verif.MergeModel
import Verif.JoinSpec

/-
What a mesh looks like after polygons or polyhedra are joined.
-/
namespace Verif

open Res

variable {α : Type}

/-- The cell `x` is a vertex, edge or face of a cell of `subs`. -/
def IsPartOf (m : Mesh α) (b : Lst) (subs : List Nat) (x : Nat) : Prop :=
  ∃ c ∈ subs, ∃ r, m.row b c = ok r ∧ x ∈ r

/-- The parts of the cells in `subs` are sorted: removed are those inside the union. -/
structure PartsSorted (m : Mesh α) (b l : Lst) (min : Nat) (subs inner : List Nat) (s : List Nat × List Nat) : Prop where
  nodup1 : s.1.Nodup
  nodup2 : s.2.Nodup
  kept : ∀ x, x ∈ s.1 ↔ IsPartOf m b subs x ∧ ¬ IsInner m l min inner x
  removed : ∀ x, x ∈ s.2 ↔ IsPartOf m b subs x ∧ IsInner m l min inner x

/-- What is reported about a new cell `i` besides its lists. -/
structure IsMerged (m m' : Mesh α) (d : Dim) (subs : List Nat) (i : Nat) : Prop where
  /-- the greatest marker -/
  marker : ∃ k, m'.marker d i = ok k ∧ (∃ c ∈ subs, m.marker d c = ok k) ∧
    ∀ c ∈ subs, ∀ k', m.marker d c = ok k' → k' ≤ k
  active : m'.active d i = ok true
  original : m'.original d i = ok UINT_MAX
  updated : m'.updated d i = ok none
  noProperties : ∀ p, p < (m.ids d).length → m'.propSize d i p = ok 0

/-- One cell of dimension `d` is new; all that is reported about the other cells is kept, except the states of the cells
in `act` and the lists in `rows`. -/
structure KeptExcept (m m' : Mesh α) (d : Dim) (act : Dim → Nat → Prop) (rows : Lst → Nat → Prop) : Prop where
  dimension : m'.dimension = m.dimension
  num : m'.num d = m.num d + 1
  num' : ∀ e, e ≠ d → m'.num e = m.num e
  coordinates : ∀ i, i < m.num .d0 → m'.coordinates i = m.coordinates i
  extremes : ∀ i, i < m.num .d1 → m'.extremes i = m.extremes i
  marker : ∀ e i, i < m.num e → m'.marker e i = m.marker e i
  active : ∀ e i, i < m.num e → ¬ act e i → m'.active e i = m.active e i
  inactive : ∀ e i, i < m.num e → act e i → m'.active e i = ok false
  original : ∀ e i, i < m.num e → m'.original e i = m.original e i
  updated : ∀ e i, i < m.num e → m'.updated e i = m.updated e i
  ids : m'.ids = m.ids
  propSize : ∀ e i p, i < m.num e → m'.propSize e i p = m.propSize e i p
  propValue : ∀ e i p k, i < m.num e → m'.propValue e i p k = m.propValue e i p k
  rows : ∀ l i, i < m.num l.owner → ¬ rows l i → m'.row l i = m.row l i

/-- The neighbours of the cell `x` if it has others than the joined ones: those, then the new one. -/
def OthersAndNew (m m' : Mesh α) (l : Lst) (subs : List Nat) (new x : Nat) : Prop :=
  ∀ r, m.row l x = ok r →
    (restOf (m.num l.target) subs r ≠ [] → m'.row l x = ok (restOf (m.num l.target) subs r ++ [new])) ∧
    (restOf (m.num l.target) subs r = [] → m'.row l x = ok r)

/-- In the neighbours of `x` the joined cells are replaced by the new one. -/
def JoinedReplaced (m m' : Mesh α) (l : Lst) (subs : List Nat) (new x : Nat) : Prop :=
  ∀ r, m.row l x = ok r → m'.row l x = ok (r.map fun y => if y ∈ subs then new else y)

/-- No joined cell is a neighbour of `x` any more, the new one is. -/
def KnowsNew (m' : Mesh α) (l : Lst) (subs : List Nat) (new x : Nat) : Prop :=
  ∃ r, m'.row l x = ok r ∧ new ∈ r ∧ ∀ c ∈ subs, c ∉ r

end Verif
