import Verif.FanSpec

/-
A mesh in which groups of triangles are put together to polygons.
-/
namespace Verif

open Res

variable {α : Type}

/-- Triangles around a vertex, with the vertices opposite to it, the edges to it and the edges opposite to it. -/
structure FanGroup where
  triangles : List Nat
  center : Nat
  rim : List Nat
  spokes : List Nat
  outer : List Nat
  deriving DecidableEq

namespace FanGroup

/-- The vertices of the polygon. -/
def vertices (g : FanGroup) : List Nat := g.center :: g.rim

/-- The edges of the polygon: the first spoke, the edges opposite to the common vertex and the last spoke. -/
def edges (g : FanGroup) : List Nat := g.spokes.take 1 ++ g.outer ++ g.spokes.drop g.triangles.length

/-- The edges between two of the triangles. -/
def inner (g : FanGroup) : List Nat := (g.spokes.drop 1).take (g.triangles.length - 1)

/-- The group is a fan of three or more triangles of the mesh. -/
structure In (m : Mesh α) (g : FanGroup) : Prop where
  fan : IsFan m g.triangles g.center g.rim g.spokes g.outer
  three : 3 ≤ g.triangles.length
  vertices : ∀ v ∈ g.vertices, v < m.num .d0
  edges : ∀ e ∈ g.edges, e < m.num .d1

end FanGroup

/-- The triangles and the edges between them that are taken out. -/
def TakenOut (gs : List FanGroup) (e : Dim) (i : Nat) : Prop :=
  ∃ g ∈ gs, (e = .d2 ∧ i ∈ g.triangles) ∨ (e = .d1 ∧ i ∈ g.inner)

/-- Two different triangles or inner edges of the groups, or of one group, are different, and all of them are active. -/
structure Separate (m : Mesh α) (gs : List FanGroup) : Prop where
  triangles : (gs.flatMap FanGroup.triangles).Nodup
  edges : (gs.flatMap FanGroup.inner).Nodup
  active : ∀ e i, TakenOut gs e i → m.active e i = ok true

/-- What is reported about the polygon `i` of the group `g`. -/
structure IsFanCell (m' : Mesh α) (g : FanGroup) (i : Nat) : Prop where
  vertices : m'.row .vert2 i = ok g.vertices
  edges : m'.row .edge2 i = ok g.edges
  lists : ∀ l, l.owner = .d2 → l ≠ .vert2 → l ≠ .edge2 → m'.row l i = ok []
  marker : m'.marker .d2 i = ok 0
  active : m'.active .d2 i = ok true
  original : ∀ t, g.triangles.getLast? = some t → m'.original .d2 i = ok t
  updated : m'.updated .d2 i = ok none
  noProperties : ∀ p, p < (m'.ids .d2).length → m'.propSize .d2 i p = ok 0

/-- `m'` is `m` with one more polygon for every group, in order. The triangles and inner edges of the groups are inactive;
each triangle knows its polygon. Everything else that is reported about the cells of `m` is kept. -/
structure IsAgglomerated (m m' : Mesh α) (gs : List FanGroup) : Prop where
  wf : m'.WF
  dimension : m'.dimension = m.dimension
  num2 : m'.num .d2 = m.num .d2 + gs.length
  num : ∀ e, e ≠ .d2 → m'.num e = m.num e
  cells : ∀ k g, gs[k]? = some g → IsFanCell m' g (m.num .d2 + k)
  coordinates : ∀ i, i < m.num .d0 → m'.coordinates i = m.coordinates i
  extremes : ∀ i, i < m.num .d1 → m'.extremes i = m.extremes i
  marker : ∀ e i, i < m.num e → m'.marker e i = m.marker e i
  active : ∀ e i, i < m.num e → ¬ TakenOut gs e i → m'.active e i = m.active e i
  inactive : ∀ e i, i < m.num e → TakenOut gs e i → m'.active e i = ok false
  original : ∀ e i, i < m.num e → m'.original e i = m.original e i
  updated : ∀ e i, i < m.num e → (e = .d2 → ∀ g ∈ gs, i ∉ g.triangles) → m'.updated e i = m.updated e i
  joined : ∀ k g t, gs[k]? = some g → t ∈ g.triangles → m.updated .d2 t = ok none →
    m'.updated .d2 t = ok (some [m.num .d2 + k])
  ids : m'.ids = m.ids
  propSize : ∀ e i p, i < m.num e → m'.propSize e i p = m.propSize e i p
  propValue : ∀ e i p k, i < m.num e → m'.propValue e i p k = m.propValue e i p k
  rows : ∀ l i, i < m.num l.owner → m'.row l i = m.row l i

end Verif
