import Verif.GraphLemmas3
import Mathlib.Data.List.Nodup
import Mathlib.Data.List.Count

/-
Properties C13 to C18: searches, transpose, strongly connected components, sub-graphs and
conversions of graphs.
-/
namespace Verif

open Res Relation

/-- Vertices 0, 1, 2 on a cycle, 3 reached from 2, 4 isolated with a loop and a double edge to 3. -/
def exampleGraph : Graph := [[1], [2], [0, 3], [], [4, 3, 3]]

theorem exampleGraph_inRange : exampleGraph.InRange := by
  rintro u w ⟨row, h, hw⟩
  have hu : u < 5 := (List.getElem?_eq_some_iff.1 h).1
  have : ∀ row ∈ exampleGraph, ∀ w ∈ row, w < 5 := by decide
  exact this row (List.mem_of_getElem? h) w hw

/-! ### C13 -/

/-- **C13**: `DepthFirstSearch(v)` returns, appends to the list exactly the vertices reachable from
`v` by paths that avoid the vertices visited before (each once, `v` first), and marks exactly
those. A recursion depth of one more than the number of unvisited vertices suffices. -/
theorem c13_depth_first_search (G : Graph) (hG : G.InRange) (visited : List Bool)
    (order : List Nat) (hlen : visited.length = G.length) (v : Nat) (hv : v < G.length)
    (fuel : Nat) (hf : visited.count false < fuel) :
    ∃ visited' L, depthFirstSearch G fuel ⟨visited, order⟩ v = ok ⟨visited', order ++ L⟩ ∧
      L.Nodup ∧ L.head? = some v ∧
      (∀ w, w ∈ L ↔ ReachAvoid G (fun x => visited[x]? = some true) v w) ∧
      visited'.length = G.length ∧
      (∀ w, visited'[w]? = some true ↔ visited[w]? = some true ∨ w ∈ L) := by
  obtain ⟨fuel, rfl⟩ : ∃ k, fuel = k + 1 := ⟨fuel - 1, by omega⟩
  have hvl : v < visited.length := by omega
  have hmono : (visited.set v true).count false ≤ visited.count false :=
    count_le_of_vis (by simp) fun w hw => (vis_set hvl w).2 (Or.inl hw)
  obtain ⟨vis', L, he, hS⟩ := dfs_list fuel (dfs_spec hG fuel) G[v]
    ⟨visited.set v true, order ++ [v]⟩ (by simpa using hlen)
    (fun w hw => hG v w ⟨G[v], by simp [hv], hw⟩) (by simp only; omega)
  have hvL : v ∉ L := fun h => hS.fresh v h ((vis_set hvl v).2 (Or.inr rfl))
  refine ⟨vis', v :: L, ?_, List.nodup_cons.2 ⟨hvL, hS.nodup⟩, rfl, fun w => ?_, hS.length,
    fun w => ?_⟩
  · rw [depthFirstSearch, vset_of_lt _ hvl, vget_of_lt hv]
    simp only [ok_bind]
    rw [he]; simp
  · rw [List.mem_cons, hS.mem]
    exact fromList_row hvl (by simp [hv]) w
  · have h1 := hS.vis w
    simp only [vis_set hvl] at h1
    show Vis vis' w ↔ Vis visited w ∨ w ∈ v :: L
    rw [h1, List.mem_cons, or_assoc]

/-- **C13**, search with nothing visited: exactly the reachable vertices, each once. -/
theorem c13_from_scratch (G : Graph) (hG : G.InRange) (v : Nat) (hv : v < G.length)
    (fuel : Nat) (hf : G.length < fuel) :
    ∃ visited' L, depthFirstSearch G fuel ⟨List.replicate G.length false, []⟩ v =
        ok ⟨visited', L⟩ ∧ L.Nodup ∧ (∀ w, w ∈ L ↔ Reach G v w) ∧
      ∀ w, visited'[w]? = some true ↔ Reach G v w := by
  obtain ⟨vis', L, h1, h2, _, h3, _, h5⟩ := c13_depth_first_search G hG
    (List.replicate G.length false) [] (by simp) v hv fuel (by simpa using hf)
  have hr : ∀ w, ¬ (List.replicate G.length false)[w]? = some true := vis_replicate G.length
  have h3' : ∀ w, w ∈ L ↔ Reach G v w := fun w => by
    rw [h3]; exact reachAvoid_false hr
  refine ⟨vis', L, by simpa using h1, h2, h3', fun w => ?_⟩
  rw [h5, ← h3']
  exact ⟨fun h => h.resolve_left (hr w), Or.inr⟩

example : exampleGraph.InRange ∧
    depthFirstSearch exampleGraph 6 ⟨List.replicate 5 false, []⟩ 1 =
      ok ⟨[true, true, true, true, false], [1, 2, 0, 3]⟩ ∧
    depthFirstSearch exampleGraph 6 ⟨[false, false, false, true, false], [7]⟩ 2 =
      ok ⟨[true, true, true, true, false], [7, 2, 0, 1]⟩ :=
  ⟨exampleGraph_inRange, by decide, by decide⟩

/-! ### C14 -/

/-- **C14**: `BreadthFirstSearch(v)` returns exactly the vertices reachable from `v`, each once, by
non-decreasing number of hops from `v`. -/
theorem c14_breadth_first_search (G : Graph) (hG : G.InRange) (v : Nat) (hv : v < G.length)
    (fuel : Nat) (hf : G.length < fuel) :
    ∃ L, breadthFirstSearch G fuel v = ok L ∧ L.Nodup ∧ (∀ w, w ∈ L ↔ Reach G v w) ∧
      ∀ (i j a b k l : Nat), i < j → L[i]? = some a → L[j]? = some b →
        IsDist G v a k → IsDist G v b l → k ≤ l := by
  obtain ⟨L, d, h1, h2, h3, h4, h5⟩ := bfs_spec hG hv hf
  refine ⟨L, h1, h2, h3, fun i j a b k l hij ha hb hk hl => ?_⟩
  have hka : k = d a := Nat.le_antisymm (hk.2 _ (h4 a (List.mem_of_getElem? ha)).1)
    ((h4 a (List.mem_of_getElem? ha)).2 _ hk.1)
  have hlb : l = d b := Nat.le_antisymm (hl.2 _ (h4 b (List.mem_of_getElem? hb)).1)
    ((h4 b (List.mem_of_getElem? hb)).2 _ hl.1)
  obtain ⟨hi, rfl⟩ := List.getElem?_eq_some_iff.1 ha
  obtain ⟨hj, rfl⟩ := List.getElem?_eq_some_iff.1 hb
  rw [hka, hlb]
  exact List.pairwise_iff_getElem.1 h5 i j hi hj hij

/-- A start vertex that does not exist is written out of range. -/
theorem c14_outside (G : Graph) (v : Nat) (hv : G.length ≤ v) (fuel : Nat) :
    breadthFirstSearch G fuel v = ub := by
  unfold breadthFirstSearch vset
  rw [if_neg (by simpa using hv)]; rfl

example : exampleGraph.InRange ∧ breadthFirstSearch exampleGraph 6 1 = ok [1, 2, 0, 3] ∧
    breadthFirstSearch [[1, 2], [3], [1], [0]] 5 0 = ok [0, 1, 2, 3] :=
  ⟨exampleGraph_inRange, by decide, by decide⟩

/-! ### C15 -/

/-- **C15**: the transpose has the same vertices and the edge `w -> u` exactly as often as the graph
has `u -> w`. -/
theorem c15_transpose (G : Graph) (hG : G.InRange) :
    ∃ T, adjacencyTranspose G = ok T ∧ T.length = G.length ∧ T.InRange ∧
      ∀ u w, mult T w u = mult G u w :=
  ⟨_, transpose_eq hG, (transpose_mult hG (transpose_eq hG)).1,
    (transpose_inRange hG (transpose_eq hG)).1, (transpose_mult hG (transpose_eq hG)).2⟩

/-- **C15**: transposing twice gives back the same multigraph, that is, each row up to order. -/
theorem c15_transpose_twice (G : Graph) (hG : G.InRange) :
    ∃ T, (adjacencyTranspose G >>= adjacencyTranspose) = ok T ∧ T.length = G.length ∧
      ∀ (v : Nat) (row row' : List Nat), G[v]? = some row → T[v]? = some row' → row'.Perm row := by
  obtain ⟨T, h1, h2, h3, h4⟩ := c15_transpose G hG
  obtain ⟨T', h1', h2', _, h4'⟩ := c15_transpose T h3
  refine ⟨T', by rw [h1]; exact h1', by omega, fun v row row' hv hv' => ?_⟩
  rw [List.perm_iff_count]
  intro w
  have : mult T' v w = mult G v w := by rw [h4', h4]
  simpa [mult, hv, hv'] using this

example : exampleGraph.InRange ∧
    adjacencyTranspose exampleGraph = ok [[2], [0], [1], [2, 4, 4], [4]] :=
  ⟨exampleGraph_inRange, by decide⟩

/-! ### C16 -/

/-- **C16**: the returned classes are a partition of the vertices (their concatenation lists every
vertex exactly once and no class is empty) and two vertices are in the same class if and only if
each is reachable from the other. -/
theorem c16_components (G : Graph) (hG : G.InRange) (fuel : Nat) (hf : G.length ≤ fuel) :
    ∃ comps, stronglyConnectedComponents G fuel = ok comps ∧
      comps.flatten.Perm (List.range G.length) ∧ (∀ c ∈ comps, c ≠ []) ∧
      ∀ c ∈ comps, ∀ u ∈ c, ∀ w, w ∈ c ↔ Reach G u w ∧ Reach G w u := by
  obtain ⟨comps, h1, h2, h3, h4⟩ := scc_spec hG hf
  refine ⟨comps, h1, ?_, fun c hc => (h4 c hc).1, fun c hc u hu w => (h4 c hc).2 u hu w⟩
  rw [List.perm_ext_iff_of_nodup h2 List.nodup_range]
  intro w; rw [h3, List.mem_range]

example : exampleGraph.InRange ∧
    stronglyConnectedComponents exampleGraph 5 = ok [[4], [0, 2, 1], [3]] :=
  ⟨exampleGraph_inRange, by decide⟩

/-! ### C17 -/

/-- **C17**: for a one-to-one numbering `f` of a set of vertices by `0..k-1`, given as a map in any
iteration order, `ExtractSubGraph` returns the induced sub-graph: it has `k` vertices, every entry
is one of them, and `f(u) -> f(w)` occurs as often as `u -> w` does for kept `u` and `w`. The row of
`f(u)` even keeps the order of the row of `u`. -/
theorem c17_sub_graph (G : Graph) (f : UMap) (hf : f.IsMap) (hk : ∀ p ∈ f, p.1 < G.length)
    (hb : (f.map (·.2)).Perm (List.range f.length)) :
    ∃ H, extractSubGraph G f = ok H ∧ H.length = f.length ∧ H.InRange ∧
      (∀ u fu w fw, (u, fu) ∈ f → (w, fw) ∈ f → mult H fu fw = mult G u w) ∧
      ∀ u fu row, (u, fu) ∈ f → G[u]? = some row →
        H[fu]? = some (row.filterMap fun w => (f.find? fun p => p.1 == w).map (·.2)) := by
  have hinj : (f.map (·.2)).Nodup := hb.nodup_iff.2 List.nodup_range
  have hv : ∀ p ∈ f, p.2 < f.length := fun p hp =>
    List.mem_range.1 (hb.mem_iff.1 (List.mem_map.2 ⟨p, hp, rfl⟩))
  have hfind : ∀ w, (f.find? fun p => p.1 == w).map (·.2) = umapFind f w := by
    intro w
    clear hf hk hb hinj hv
    induction f with
    | nil => rfl
    | cons p f ih =>
      obtain ⟨a, b⟩ := p
      rw [umapFind, List.find?_cons]
      by_cases h : a = w
      · simp [h]
      · simp only [h, if_false, beq_eq_false_iff_ne.2 h, ih]
  have hrow : ∀ u fu, (u, fu) ∈ f →
      (pushed (List.replicate f.length []) (f.flatMap fun p =>
        ((((G[p.1]?).getD []).filterMap (umapFind f)).map fun w => (p.2, w))))[fu]? =
      some (((G[u]?).getD []).filterMap (umapFind f)) := by
    intro u fu hu
    rw [pushed_replicate _ _ _ (hv _ hu),
      filter_flatMap_single (fun v => ((G[v]?).getD []).filterMap (umapFind f)) hinj hu]
  refine ⟨_, extractSubGraph_eq hk hv, by simp, ?_, ?_, ?_⟩
  · rintro a b ⟨row, hr, hb'⟩
    have ha : a < f.length := by simpa using (List.getElem?_eq_some_iff.1 hr).1
    obtain ⟨⟨u, fu⟩, hu, rfl⟩ := List.mem_map.1 (hb.mem_iff.2 (List.mem_range.2 ha))
    rw [hrow u fu hu] at hr
    cases hr
    obtain ⟨w, _, hw⟩ := List.mem_filterMap.1 hb'
    simpa using hv _ ((umapFind_eq_some hf).1 hw)
  · intro u fu w fw hu hw
    rw [mult, hrow u fu hu, Option.getD_some, count_filterMap_inj hf hinj hw]
    rfl
  · intro u fu row hu hr
    rw [hrow u fu hu, hr, Option.getD_some]
    simp only [hfind]

/-- **C17**: the result does not depend on the iteration order of the map. -/
theorem c17_order_independent (G : Graph) (f f' : UMap) (hf : f.IsMap)
    (hk : ∀ p ∈ f, p.1 < G.length) (hb : (f.map (·.2)).Perm (List.range f.length))
    (hp : f'.Perm f) : extractSubGraph G f' = extractSubGraph G f := by
  have hl : f'.length = f.length := hp.length_eq
  have hf' : UMap.IsMap f' := (hp.map _).nodup_iff.2 hf
  obtain ⟨H, h1, h2, _, _, h5⟩ := c17_sub_graph G f hf hk hb
  obtain ⟨H', h1', h2', _, _, h5'⟩ := c17_sub_graph G f' hf' (fun p h => hk p (hp.mem_iff.1 h))
    (by rw [hl]; exact (hp.map _).trans hb)
  rw [h1, h1']
  congr 1
  apply List.ext_getElem?
  intro i
  by_cases hi : i < f.length
  · obtain ⟨⟨u, fu⟩, hu, rfl⟩ := List.mem_map.1 (hb.mem_iff.2 (List.mem_range.2 hi))
    have hul := hk _ hu
    rw [h5 u fu G[u] hu (by simp), h5' u fu G[u] (hp.mem_iff.2 hu) (by simp)]
    congr 2
    funext w
    have h : ∀ (g : UMap), g.IsMap → ∀ v, (g.find? fun p => p.1 == w).map (·.2) = some v ↔
        (w, v) ∈ g := by
      intro g hg v
      rw [← umapFind_eq_some hg]
      clear hg
      induction g with
      | nil => simp [umapFind]
      | cons p g ih =>
        obtain ⟨a, b⟩ := p
        rw [umapFind, List.find?_cons]
        by_cases h : a = w
        · simp [h]
        · simp only [h, if_false, beq_eq_false_iff_ne.2 h, ih]
    apply Option.ext
    intro v
    rw [h f' hf', h f hf, hp.mem_iff]
  · rw [List.getElem?_eq_none (by omega), List.getElem?_eq_none (by omega)]

example : UMap.IsMap [(4, 1), (2, 0), (3, 2)] ∧ (∀ p ∈ [(4, 1), (2, 0), (3, 2)],
      p.1 < exampleGraph.length) ∧ ([(4, 1), (2, 0), (3, 2)].map (·.2)).Perm (List.range 3) ∧
    extractSubGraph exampleGraph [(4, 1), (2, 0), (3, 2)] = ok [[2], [1, 2, 2], []] := by
  refine ⟨by unfold UMap.IsMap; decide, by decide, by decide, by decide⟩

/-! ### C18 -/

/-- **C18**, directed graph: turning an edge list into adjacency lists and back returns the same
edges with the same multiplicities (the order may differ); every column is written. -/
theorem c18_round_trip (n : Nat) (edges : List (Nat × Nat))
    (he : ∀ e ∈ edges, e.1 < n ∧ e.2 < n) :
    ∃ (A : AdjacencyData) (L : List (Nat × Nat)), connectivityToAdjacency n edges true = ok A ∧
      adjacencyToConnectivity edges.length A.vertices = ok (L.map some) ∧ L.Perm edges := by
  obtain ⟨A, hA, hV, hE⟩ := connectivity_rows n edges true he
  clear hE
  have hmult : ∀ u w, mult A.vertices u w = edges.count (u, w) := by
    intro u w
    have hinc : ((incidences edges true u).map (·.1)).count w = edges.count (u, w) := by
      unfold incidences
      have : ∀ k, ((((edges.zipIdx k).flatMap fun c => (if c.1.1 = u then [(c.1.2, c.2)] else []) ++
          (if true = false ∧ c.1.2 = u then [(c.1.1, c.2)] else [])).map (·.1)).count w) =
          edges.count (u, w) := by
        clear hV hA he
        induction edges with
        | nil => intro k; rfl
        | cons p edges ih =>
          intro k
          obtain ⟨a, b⟩ := p
          rw [List.zipIdx_cons, List.flatMap_cons, List.map_append, List.count_append, ih,
            List.count_cons]
          by_cases ha : a = u
          · by_cases hb : b = w <;> simp [ha, hb] <;> omega
          · simp [ha]
      exact this 0
    by_cases hu : u < n
    · rw [mult, hV]
      simp only [List.getElem?_map, List.getElem?_range hu, Option.map_some, Option.getD_some]
      exact hinc
    · rw [mult_of_ge (by rw [hV]; simpa using hu)]
      by_contra h
      exact hu (he _ (List.count_pos_iff.1 (Nat.pos_of_ne_zero (Ne.symm h)))).1
  have hperm : (edgeList A.vertices).Perm edges := by
    rw [List.perm_iff_count]
    rintro ⟨u, w⟩
    rw [count_edgeList, hmult]
  refine ⟨A, edgeList A.vertices, hA, ?_, hperm⟩
  rw [← hperm.length_eq, adjacencyToConnectivity_eq]

/-- **C18**: vertex and edge entries correspond. The `k`-th edge of vertex `v` joins `v` to the
`k`-th adjacent vertex; conversely every edge is listed once at its origin and, in the undirected
case, once at its end. The maps give the first position of a vertex or edge in the list. -/
theorem c18_entries (n : Nat) (edges : List (Nat × Nat)) (direct : Bool)
    (he : ∀ e ∈ edges, e.1 < n ∧ e.2 < n) :
    ∃ A : AdjacencyData, connectivityToAdjacency n edges direct = ok A ∧
      A.vertices.length = n ∧ A.edges.length = n ∧ A.verticesMap.length = n ∧
      A.edgesMap.length = n ∧
      (∀ (v : Nat) (vs es : List Nat), A.vertices[v]? = some vs → A.edges[v]? = some es →
        vs.length = es.length ∧
        (∀ (k w e : Nat), vs[k]? = some w → es[k]? = some e →
          edges[e]? = some (v, w) ∨ (direct = false ∧ edges[e]? = some (w, v))) ∧
        (∀ (e w : Nat), edges[e]? = some (v, w) ∨ (direct = false ∧ edges[e]? = some (w, v)) →
          ∃ k : Nat, vs[k]? = some w ∧ es[k]? = some e) ∧
        (∀ (e : Nat) (p : Nat × Nat), edges[e]? = some p → es.count e =
          (if p.1 = v then 1 else 0) + (if direct = false ∧ p.2 = v then 1 else 0))) ∧
      (∀ (v : Nat) (m : UMap) (row : List Nat), A.verticesMap[v]? = some m → A.vertices[v]? = some row →
        ∀ w, umapFind m w = if w ∈ row then some (row.idxOf w) else none) ∧
      (∀ (v : Nat) (m : UMap) (row : List Nat), A.edgesMap[v]? = some m → A.edges[v]? = some row →
        ∀ e, umapFind m e = if e ∈ row then some (row.idxOf e) else none) := by
  obtain ⟨A, hA, hV, hE, h1, h2, h3, h4⟩ := connectivity_rows n edges direct he
  refine ⟨A, hA, by simp [hV], by simp [hE], h1, h2, fun v vs es hvs hes => ?_, h3, h4⟩
  have hv : v < n := by
    have := (List.getElem?_eq_some_iff.1 hvs).1
    rw [hV] at this; simpa using this
  rw [hV, List.getElem?_map, List.getElem?_range hv] at hvs
  rw [hE, List.getElem?_map, List.getElem?_range hv] at hes
  simp only [Option.map_some, Option.some.injEq] at hvs hes
  subst hvs; subst hes
  refine ⟨by simp, fun k w e hw he' => ?_, fun e w h => ?_, fun e p h => count_incidences h⟩
  · rw [List.getElem?_map, Option.map_eq_some_iff] at hw he'
    obtain ⟨p, hp, rfl⟩ := hw
    obtain ⟨q, hq, rfl⟩ := he'
    rw [hp] at hq; cases hq
    exact mem_incidences.1 (List.mem_of_getElem? hp)
  · obtain ⟨k, hk⟩ := List.mem_iff_getElem?.1 (mem_incidences.2 h)
    exact ⟨k, by simp [hk], by simp [hk]⟩

example : (∀ e ∈ [(0, 1), (2, 0), (0, 1)], e.1 < 3 ∧ e.2 < 3) ∧
    connectivityToAdjacency 3 [(0, 1), (2, 0), (0, 1)] false =
      ok ⟨[[1, 2, 1], [0, 0], [0]], [[(1, 0), (2, 1)], [(0, 0)], [(0, 0)]],
        [[0, 1, 2], [0, 2], [1]],
        [[(0, 0), (1, 1), (2, 2)], [(0, 0), (2, 1)], [(1, 0)]]⟩ ∧
    (connectivityToAdjacency 3 [(0, 1), (2, 0), (0, 1)] true >>= fun A =>
      adjacencyToConnectivity 3 A.vertices) = ok [some (0, 1), some (0, 1), some (2, 0)] := by
  refine ⟨by decide, by decide, by decide⟩

end Verif
