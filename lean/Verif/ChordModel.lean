import Verif.BisectModel

/-
The functions `SplitPolygon_NoNewVertices`, `SplitPolygon_NewVertexFrom`, `SplitPolygon_NewVertexTo` and
`SplitPolygon_NewVertices` (`GeDiM/src/Mesh/RefinementUtilities2D.cpp:205-668`): a polygon is cut along a chord, whose
ends are vertices of the polygon or new vertices on its edges. The four functions have the same shape and differ in
the columns at the ends of the chord. The conversion of the indices to `int` in the matrices of the sub-cells is left
out.
-/
namespace Verif

open Res

variable {K : Type} [Field K] [LinearOrder K] [IsStrictOrderedRing K]

/-- One end of the chord: a vertex of the polygon, by position, or a new vertex `w` on the edge at a position, which was
split in `halves`; `direction` tells if the polygon runs along the edge in its direction. -/
inductive ChordEnd where
  | corner (v : Nat)
  | onEdge (k w : Nat) (halves : List Nat) (direction : Bool)

namespace ChordEnd

/-- The position where the loop that starts at this end begins: `fromVertex`, `toVertex`
(`GeDiM/src/Mesh/RefinementUtilities2D.cpp:219`, `:221`), `fromEdge + 1`, `toEdge + 1` (`:327`, `:447`, `:563`, `:565`). -/
def start : ChordEnd → Nat
  | corner v => v
  | onEdge k _ _ _ => k + 1

/-- The position where the loop that ends at this end stops: `toVertex`, `fromVertex`
(`GeDiM/src/Mesh/RefinementUtilities2D.cpp:219`, `:221`), `toEdge`, `fromEdge` (`:329`, `:445`, `:563`, `:565`). -/
def stop : ChordEnd → Nat
  | corner v => v
  | onEdge k _ _ _ => k

/-- The new vertex (`GeDiM/src/Mesh/RefinementUtilities2D.cpp:339`, `:364`, `:464`, `:473`, `:575`, `:584`, `:594`,
`:603`); no column for a vertex of the polygon. -/
def fresh : ChordEnd → List Nat
  | corner _ => []
  | onEdge _ w _ _ => [w]

/-- The half of the edge that follows the new vertex (`GeDiM/src/Mesh/RefinementUtilities2D.cpp:395`, `:521`, `:634`,
`:646`). -/
def after : ChordEnd → Res (List Nat)
  | corner _ => ok []
  | onEdge _ _ halves direction => do
      let h ← vget halves (if direction then 1 else 0)
      ok [h]

/-- The half of the edge before the new vertex (`GeDiM/src/Mesh/RefinementUtilities2D.cpp:410`, `:516`, `:641`,
`:653`). -/
def before : ChordEnd → Res (List Nat)
  | corner _ => ok []
  | onEdge _ _ halves direction => do
      let h ← vget halves (if direction then 0 else 1)
      ok [h]

/-- The vertex at the end of the chord (`GeDiM/src/Mesh/RefinementUtilities2D.cpp:274`, `:387`, `:503`, `:626`); `v` is
the vertex of the polygon at the position `stop`. -/
def vertex (v : Nat) : ChordEnd → Nat
  | corner _ => v
  | onEdge _ w _ _ => w

end ChordEnd

/-- The common shape of the four functions (`GeDiM/src/Mesh/RefinementUtilities2D.cpp:205-308`, `:310-426`, `:428-541`,
`:543-668`): the mesh and, unless the result is `NoSplit`, the new edge and the new cells. -/
def GeoCfg.splitChord (g : GeoCfg K) (sqrt : K → K) (tol2D : K) (m : Mesh K) (c n : Nat) (a b : ChordEnd)
    (rotation : M3 K) (translation : V3 K) : Res (Mesh K × Option (Nat × List Nat)) := do
  if n = 0 then ub
  else do
    let firstIndices ← walkTo n b.stop n a.start
    let secondIndices ← walkTo n a.stop n b.start
    let vs0 ← mapRes (m.entry .vert2 c) firstIndices
    let vTo ← m.entry .vert2 c b.stop
    let good0 ← g.isAreaPositive sqrt tol2D m (a.fresh ++ (vs0 ++ vTo :: b.fresh)) rotation translation
    if !good0 then ok (m, none)
    else do
      let vs1 ← mapRes (m.entry .vert2 c) secondIndices
      let vFrom ← m.entry .vert2 c a.stop
      let good1 ← g.isAreaPositive sqrt tol2D m (b.fresh ++ (vs1 ++ vFrom :: a.fresh)) rotation translation
      if !good1 then ok (m, none)
      else do
        let p ← m.point (b.vertex vTo)
        let q ← m.point (a.vertex vFrom)
        if g.isValueZero ((q.sub p).norm sqrt) g.tol1D then ok (m, none)
        else do
          let (m, e) ← m.append .d1 1
          let m ← m.insertExt e (b.vertex vTo) (a.vertex vFrom)
          let m ← m.setMark .d1 e 0
          let m ← m.setAct .d1 e true
          let m ← m.resizeRowOf .nb12 e 2
          let a1 ← a.after
          let es0 ← mapRes (m.entry .edge2 c) firstIndices
          let b0 ← b.before
          let b1 ← b.after
          let es1 ← mapRes (m.entry .edge2 c) secondIndices
          let a0 ← a.before
          let (m, news) ← m.splitCell2D c
            [(a.fresh ++ (vs0 ++ vTo :: b.fresh)).zip (a1 ++ (es0 ++ (b0 ++ [e]))),
             (b.fresh ++ (vs1 ++ vFrom :: a.fresh)).zip (b1 ++ (es1 ++ (a0 ++ [e])))]
          let right ← vget news 1
          let m ← m.insertEntry .nb12 e 0 right
          let left ← vget news 0
          let m ← m.insertEntry .nb12 e 1 left
          ok (m, some (e, news))

/-- `SplitPolygon_NoNewVertices` (`GeDiM/src/Mesh/RefinementUtilities2D.cpp:205-308`). -/
def GeoCfg.splitNoNewVertices (g : GeoCfg K) (sqrt : K → K) (tol2D : K) (m : Mesh K) (c n fromVertex toVertex : Nat)
    (rotation : M3 K) (translation : V3 K) : Res (Mesh K × Option (Nat × List Nat)) :=
  g.splitChord sqrt tol2D m c n (.corner fromVertex) (.corner toVertex) rotation translation

/-- `SplitPolygon_NewVertexFrom` (`GeDiM/src/Mesh/RefinementUtilities2D.cpp:310-426`). -/
def GeoCfg.splitNewVertexFrom (g : GeoCfg K) (sqrt : K → K) (tol2D : K) (m : Mesh K) (c n fromEdge toVertex : Nat)
    (rotation : M3 K) (translation : V3 K) (w : Nat) (halves : List Nat) (direction : Bool) :
    Res (Mesh K × Option (Nat × List Nat)) :=
  g.splitChord sqrt tol2D m c n (.onEdge fromEdge w halves direction) (.corner toVertex) rotation translation

/-- `SplitPolygon_NewVertices` (`GeDiM/src/Mesh/RefinementUtilities2D.cpp:543-668`). -/
def GeoCfg.splitNewVertices (g : GeoCfg K) (sqrt : K → K) (tol2D : K) (m : Mesh K) (c n fromEdge toEdge : Nat)
    (rotation : M3 K) (translation : V3 K) (wFrom wTo : Nat) (halvesFrom halvesTo : List Nat)
    (directionFrom directionTo : Bool) : Res (Mesh K × Option (Nat × List Nat)) :=
  g.splitChord sqrt tol2D m c n (.onEdge fromEdge wFrom halvesFrom directionFrom)
    (.onEdge toEdge wTo halvesTo directionTo) rotation translation

end Verif
