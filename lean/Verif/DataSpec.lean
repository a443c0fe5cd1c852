import Verif.MeshSpec

/-
A mesh given cell by cell, as the mesh generators describe it: all original-cell links empty, no updated
cells, no properties, and no neighbours except those of edges.
-/
namespace Verif

/-- A point. -/
structure VCell (α : Type) where
  x : α
  y : α
  z : α
  mark : Nat
  act : Bool

/-- An edge: its two extremes and its neighbour polygons. -/
structure ECell where
  origin : Nat
  finish : Nat
  mark : Nat
  act : Bool
  polygons : List Nat := []

/-- A polygon. -/
structure PCell where
  verts : List Nat
  edges : List Nat
  mark : Nat
  act : Bool

/-- A polyhedron. -/
structure CCell where
  verts : List Nat
  edges : List Nat
  faces : List Nat
  mark : Nat
  act : Bool

/-- A mesh, cell by cell. -/
structure MeshData (α : Type) where
  dimension : Nat
  V : List (VCell α)
  E : List ECell
  P : List PCell
  C : List CCell

namespace MeshData

variable {α : Type}

/-- Number of cells. -/
def num (D : MeshData α) : Dim → Nat
  | .d0 => D.V.length
  | .d1 => D.E.length
  | .d2 => D.P.length
  | .d3 => D.C.length

/-- The mesh of plain rows. -/
def toA (D : MeshData α) : AMesh α where
  dimension := D.dimension
  num := D.num
  coord := D.V.flatMap fun v => [v.x, v.y, v.z]
  ext := D.E.flatMap fun e => [e.origin, e.finish]
  mark := fun d => match d with
    | .d0 => D.V.map (·.mark)
    | .d1 => D.E.map (·.mark)
    | .d2 => D.P.map (·.mark)
    | .d3 => D.C.map (·.mark)
  act := fun d => match d with
    | .d0 => D.V.map (·.act)
    | .d1 => D.E.map (·.act)
    | .d2 => D.P.map (·.act)
    | .d3 => D.C.map (·.act)
  orig := fun d => match d with
    | .d0 => []
    | .d1 => List.replicate D.E.length UINT_MAX
    | .d2 => List.replicate D.P.length UINT_MAX
    | .d3 => List.replicate D.C.length UINT_MAX
  upd := fun _ => []
  ids := fun _ => []
  props := fun _ => []
  rows := fun l => match l with
    | .nb12 => D.E.map (·.polygons)
    | .vert2 => D.P.map (·.verts)
    | .edge2 => D.P.map (·.edges)
    | .vert3 => D.C.map (·.verts)
    | .edge3 => D.C.map (·.edges)
    | .face3 => D.C.map (·.faces)
    | .nb01 => List.replicate D.V.length []
    | .nb02 => List.replicate D.V.length []
    | .nb03 => List.replicate D.V.length []
    | .nb13 => List.replicate D.E.length []
    | .nb23 => List.replicate D.P.length []
    | .sub2 => List.replicate D.P.length []

/-- The mesh record that stores the data. -/
def mesh (D : MeshData α) : Mesh α := D.toA.conc

end MeshData
end Verif
