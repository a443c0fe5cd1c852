import Verif.Basic

/-
Model of `GeDiM/src/MpiTools/GraphUtilities.cpp`.

A graph is an adjacency list: entry `v` lists the vertices adjacent to vertex `v`.
Reading or writing a vector outside its range is undefined behaviour (`ub`).
Recursive calls and `while` loops take a fuel argument and end in `loop` when it is used up.
-/
namespace Verif

open Res

/-- `std::vector<std::vector<unsigned int>> graphAdjacency`
(`GeDiM/src/MpiTools/GraphUtilities.hpp:58-78`). -/
abbrev Graph := List (List Nat)

/-- The two arguments that `DepthFirstSearch` updates: `visited` and `visitedVertices`
(`GeDiM/src/MpiTools/GraphUtilities.cpp:18-21`). -/
structure SearchState where
  visited : List Bool
  order : List Nat
  deriving DecidableEq, Repr

/-- `DepthFirstSearch` (`GeDiM/src/MpiTools/GraphUtilities.cpp:18-35`). The first argument is the
fuel, that is, the allowed depth of the recursion. -/
def depthFirstSearch (G : Graph) : Nat → SearchState → Nat → Res SearchState
  | 0, _, _ => loop
  | fuel + 1, s, v => do
      let vis ← vset s.visited v true
      let row ← vget G v
      foldRes
        (fun s w => do
          let b ← vget s.visited w
          if b then ok s else depthFirstSearch G fuel s w)
        { visited := vis, order := s.order ++ [v] } row

/-- State of the loop of `BreadthFirstSearch`: `markedVertices`, `queue`, `visitedVertices`
(`GeDiM/src/MpiTools/GraphUtilities.cpp:41-43`). -/
structure BfsState where
  marked : List Bool
  queue : List Nat
  order : List Nat
  deriving DecidableEq, Repr

/-- Body of the loop over the adjacent vertices
(`GeDiM/src/MpiTools/GraphUtilities.cpp:54-61`). -/
def bfsVisit (s : BfsState) (w : Nat) : Res BfsState := do
  let b ← vget s.marked w
  if b then ok s
  else do
    let marked ← vset s.marked w true
    ok { s with marked := marked, queue := s.queue ++ [w] }

/-- The `while` loop of `BreadthFirstSearch`
(`GeDiM/src/MpiTools/GraphUtilities.cpp:48-62`). -/
def bfsLoop (G : Graph) : Nat → BfsState → Res BfsState
  | 0, _ => loop
  | fuel + 1, s =>
      match s.queue with
      | [] => ok s
      | v :: queue => do
          let row ← vget G v
          let s ← foldRes bfsVisit { s with queue := queue, order := s.order ++ [v] } row
          bfsLoop G fuel s

/-- `BreadthFirstSearch` (`GeDiM/src/MpiTools/GraphUtilities.cpp:37-65`). -/
def breadthFirstSearch (G : Graph) (fuel : Nat) (v : Nat) : Res (List Nat) := do
  let marked ← vset (List.replicate G.length false) v true
  let s ← bfsLoop G fuel { marked := marked, queue := [v], order := [] }
  ok s.order

/-- `adj[i].push_back(x)` for a vector of lists. -/
def pushBack {α : Type} (adj : List (List α)) (i : Nat) (x : α) : Res (List (List α)) := do
  let row ← vget adj i
  vset adj i (row ++ [x])

/-- `ComputeAdjacencyTranspose` (`GeDiM/src/MpiTools/GraphUtilities.cpp:67-83`). The final copy of
each list into a vector is the identity here. -/
def adjacencyTranspose (G : Graph) : Res Graph :=
  foldRes
    (fun adj v => do
      let row ← vget G v
      foldRes (fun adj w => pushBack adj w v) adj row)
    (List.replicate G.length []) (List.range G.length)

/-- The two arguments that `FillOrder` updates: `visited` and `stack` (top first)
(`GeDiM/src/MpiTools/GraphUtilities.cpp:85-88`). The `int` entries of the stack are vertex
numbers. -/
structure FillState where
  visited : List Bool
  stack : List Nat
  deriving DecidableEq, Repr

/-- `FillOrder` (`GeDiM/src/MpiTools/GraphUtilities.cpp:85-105`). -/
def fillOrder (G : Graph) : Nat → FillState → Nat → Res FillState
  | 0, _, _ => loop
  | fuel + 1, s, v => do
      let vis ← vset s.visited v true
      let row ← vget G v
      let s ← foldRes
        (fun s w => do
          let b ← vget s.visited w
          if b then ok s else fillOrder G fuel s w)
        { s with visited := vis } row
      ok { s with stack := v :: s.stack }

/-- Body of the loop over the stack in `ComputeStronglyConnectedComponents`
(`GeDiM/src/MpiTools/GraphUtilities.cpp:227-243`): pop `v`, and unless it is visited search from it
in the transposed graph `T`. The pair is (`visited`, `connectedComponents`). -/
def sccStep (T : Graph) (fuel : Nat) (s : List Bool × List (List Nat)) (v : Nat) :
    Res (List Bool × List (List Nat)) := do
  let b ← vget s.1 v
  if b then ok s
  else do
    let r ← depthFirstSearch T fuel { visited := s.1, order := [] } v
    ok (r.visited, s.2 ++ [r.order])

/-- `ComputeStronglyConnectedComponents`
(`GeDiM/src/MpiTools/GraphUtilities.cpp:201-246`). The `while` loop that pops the stack is a loop
over the stack from the top. -/
def stronglyConnectedComponents (G : Graph) (fuel : Nat) : Res (List (List Nat)) := do
  let s ← foldRes
    (fun s i => do
      let b ← vget s.visited i
      if b then ok s else fillOrder G fuel s i)
    { visited := List.replicate G.length false, stack := [] : FillState } (List.range G.length)
  let T ← adjacencyTranspose G
  let r ← foldRes (sccStep T fuel) (List.replicate G.length false, []) s.stack
  ok r.2

/-- `std::unordered_map<unsigned int, unsigned int>` as the list of its pairs in iteration order.
The order is unspecified in C++; the theorems hold for every order. -/
abbrev UMap := List (Nat × Nat)

/-- `find` of an unordered map. -/
def umapFind : UMap → Nat → Option Nat
  | [], _ => none
  | (k, v) :: m, x => if k = x then some v else umapFind m x

/-- `insert(std::make_pair(k, v))` of an unordered map: a present key keeps its value. The place of
the new pair in the iteration order is unspecified in C++; the model puts it last. -/
def umapInsert (m : UMap) (k v : Nat) : UMap :=
  match umapFind m k with
  | some _ => m
  | none => m ++ [(k, v)]

/-- Body of the inner loop of `ExtractSubGraph`
(`GeDiM/src/MpiTools/GraphUtilities.cpp:118-126`). -/
def subGraphStep (filter : UMap) (fv : Nat) (adj : List (List Nat)) (w : Nat) :
    Res (List (List Nat)) :=
  match umapFind filter w with
  | none => ok adj
  | some fw => pushBack adj fv fw

/-- `ExtractSubGraph` (`GeDiM/src/MpiTools/GraphUtilities.cpp:106-133`). -/
def extractSubGraph (G : Graph) (filter : UMap) : Res Graph :=
  foldRes
    (fun adj p => do
      let row ← vget G p.1
      foldRes (subGraphStep filter p.2) adj row)
    (List.replicate filter.length []) filter

/-- `GraphAdjacencyData` (`GeDiM/src/MpiTools/GraphUtilities.hpp:27-33`). -/
structure AdjacencyData where
  vertices : List (List Nat)
  verticesMap : List UMap
  edges : List (List Nat)
  edgesMap : List UMap
  deriving DecidableEq, Repr

/-- First loop of `GraphConnectivityToGraphAdjacency`
(`GeDiM/src/MpiTools/GraphUtilities.cpp:146-155`): entry `(w, e)` in list `v`. Columns of the
integer matrix are pairs of natural numbers; a negative entry is undefined behaviour in the code
and outside the model. -/
def connectivityStep (direct : Bool) (adj : List (List (Nat × Nat))) (c : (Nat × Nat) × Nat) :
    Res (List (List (Nat × Nat))) := do
  let adj ← pushBack adj c.1.1 (c.1.2, c.2)
  if direct then ok adj else pushBack adj c.1.2 (c.1.1, c.2)

/-- Inner loop of the second part of `GraphConnectivityToGraphAdjacency`
(`GeDiM/src/MpiTools/GraphUtilities.cpp:168-176`) for one vertex: the four containers are filled
together. -/
def adjacencyRow : (List Nat × UMap × List Nat × UMap) → List (Nat × Nat) →
    (List Nat × UMap × List Nat × UMap)
  | s, [] => s
  | (vs, vm, es, em), (w, e) :: l =>
      adjacencyRow (vs ++ [w], umapInsert vm w vs.length, es ++ [e], umapInsert em e es.length) l

/-- `GraphConnectivityToGraphAdjacency`
(`GeDiM/src/MpiTools/GraphUtilities.cpp:135-182`). -/
def connectivityToAdjacency (n : Nat) (edges : List (Nat × Nat)) (direct : Bool) :
    Res AdjacencyData := do
  let adj ← foldRes (connectivityStep direct) (List.replicate n []) edges.zipIdx
  let rows := adj.map (adjacencyRow ([], [], [], []))
  ok { vertices := rows.map (·.1), verticesMap := rows.map (·.2.1),
       edges := rows.map (·.2.2.1), edgesMap := rows.map (·.2.2.2) }

/-- Body of the loops of `GraphAdjacencyToGraphConnectivity`
(`GeDiM/src/MpiTools/GraphUtilities.cpp:191-196`): the pair is (`graphConnectivity`, `e`); a column
is `none` as long as it is not initialised, and writing a column that does not exist is undefined
behaviour. -/
def connectivityWrite (v : Nat) (s : List (Option (Nat × Nat)) × Nat) (w : Nat) :
    Res (List (Option (Nat × Nat)) × Nat) := do
  let m ← vset s.1 s.2 (some (v, w))
  ok (m, s.2 + 1)

/-- `GraphAdjacencyToGraphConnectivity`
(`GeDiM/src/MpiTools/GraphUtilities.cpp:184-199`). -/
def adjacencyToConnectivity (numEdges : Nat) (G : Graph) : Res (List (Option (Nat × Nat))) := do
  let r ← foldRes
    (fun s v => do
      let row ← vget G v
      foldRes (connectivityWrite v) s row)
    (List.replicate numEdges none, 0) (List.range G.length)
  ok r.1

end Verif
