import Verif.DualLemmas
import Verif.GraphLemmas3
import Verif.MeshProps

/-
C95: the dual graph of a mesh and the graph of an edge list.
-/
namespace Verif

open Res

variable {α : Type}

open Classical in
/-- C95: for a well-formed mesh the dual graph is defined, has the cells as vertices, and from `v` to `w` it has one
connection labelled `e` for each two different slots of `e` that hold `v` and `w`. The connection carries the flag of
`e`; its weight is the given one without constraints, and with constraints one if a constrained cell joins `v` and `w`
and the given one plus the number of connections otherwise. The list `nb12` is `Mesh2DToDualGraph`, the list `nb23` is
`Mesh3DToDualGraph`. -/
theorem c95_dual (m : Mesh α) (h : m.WF) (l : Lst) (nodesWeight : List Nat) (cons : List Bool)
    (weight : Option (Nat → Nat → Nat)) :
    ∃ cells N, m.dualGraph l nodesWeight cons weight = ok (cells, N) ∧
      Network N.adjacency (m.num l.target) ∧ N.nodesWeight = nodesWeight ∧
      cells.length = N.adjacency.el.length ∧ N.constrained.length = N.adjacency.el.length ∧
      N.edgesWeight.length = N.adjacency.el.length ∧
      (∀ e ∈ cells, e < m.num l.owner) ∧
      (∀ e r v w, e < m.num l.owner → m.row l e = ok r → v < m.num l.target → w < m.num l.target →
        connections N.adjacency cells v w e = slotPairs r v w) ∧
      (∀ k v w e, NetEdge N.adjacency k v w → cells[k]? = some e →
        N.constrained[k]? = some (decide (cons.length = m.num l.owner ∧ cons[e]? = some true)) ∧
        N.edgesWeight[k]? = some (if cons.length = m.num l.owner then
          if ∃ e', cons[e']? = some true ∧ DualJoins m l e' v w then 1
          else weightOf weight v w + N.adjacency.el.length
          else weightOf weight v w)) := by
  set L := pushed (List.replicate (m.num l.target) []) ((dualPairs m l cons).flatMap dpush) with hL
  have hrow : ∀ v, v < m.num l.target → L[v]? = some (dualRow m l cons v) := fun v hv => by
    rw [hL, pushed_replicate _ _ _ hv]; rfl
  have hlen : L.length = m.num l.target := by rw [hL]; simp
  have hlink : ∀ v c, c ∈ dualRow m l cons v → c.cell < m.num l.owner ∧ c.to < m.num l.target ∧
      c.constrained = consAt (m.num l.owner) cons c.cell := by
    intro v c hc
    obtain ⟨⟨a, c'⟩, hx, rfl⟩ := List.mem_map.1 hc
    obtain ⟨p, hp, hx⟩ := List.mem_flatMap.1 (List.mem_filter.1 hx).1
    obtain ⟨h1, h2, h3, h4⟩ := mem_dualPairs hp
    simp only [dpush, List.mem_cons, List.not_mem_nil, or_false, Prod.mk.injEq] at hx
    rcases hx with ⟨_, rfl⟩ | ⟨_, rfl⟩
    · exact ⟨h1, h4, h2⟩
    · exact ⟨h1, h3, h2⟩
  have hflat : ∀ c ∈ L.flatten, ∃ v, v < m.num l.target ∧ c ∈ dualRow m l cons v := by
    intro c hc
    obtain ⟨row, hrm, hc⟩ := List.mem_flatten.1 hc
    obtain ⟨v, hv, rfl⟩ := List.mem_iff_getElem.1 hrm
    have := hrow v (by omega)
    rw [List.getElem?_eq_getElem hv] at this
    rw [Option.some.inj this] at hc
    exact ⟨v, by omega, hc⟩
  set F := fun (v : Nat) (c : Link) => if !(decide (cons.length = m.num l.owner)) then weightOf weight v c.to
    else if (v, c.to) ∈ (dualPairs m l cons).flatMap dcons then 1
    else weightOf weight v c.to + L.flatten.length with hF
  have hel : (Csr.ofRows (L.map (List.map (·.to)))).el.length = L.flatten.length := by
    rw [Csr.ofRows_el, ← List.map_flatten, List.length_map]
  have hLw : (L.mapIdx fun v row => row.map (F v)).flatten.length = L.flatten.length := by
    have := length_flatten_mapIdx F L L.length
    unfold Csr.offsetOf at this
    rwa [List.take_length, show (L.mapIdx fun v row => row.map (F v)).take L.length =
      L.mapIdx fun v row => row.map (F v) from List.take_of_length_le (by simp)] at this
  refine ⟨L.flatten.map (·.cell), ⟨Csr.ofRows (L.map (List.map (·.to))), L.flatten.map (·.constrained), nodesWeight,
    (L.mapIdx fun v row => row.map (F v)).flatten⟩, ?_, ⟨?_, ?_⟩, rfl, ?_, ?_, ?_, ?_, ?_, ?_⟩
  · unfold Mesh.dualGraph
    rw [dualLoop_eq h, ok_bind, ← hL, netRows_eq, ok_bind]
    simp only []
    rw [dualWeights_eq, ok_bind, net_ofRows]
    congr 4
    congr 1
    funext v row
    congr 1
    funext c
    rw [hF]
    cases weight <;> rfl
  · have := Csr.wf_ofRows (L.map (List.map (·.to)))
    rwa [List.length_map, hlen] at this
  · intro w hw
    simp only [Csr.ofRows_el, ← List.map_flatten] at hw
    obtain ⟨c, hc, rfl⟩ := List.mem_map.1 hw
    obtain ⟨v, _, hc⟩ := hflat c hc
    exact (hlink v c hc).2.1
  · rw [hel, List.length_map]
  · rw [hel, List.length_map]
  · rw [hel]; exact hLw
  · intro e he
    obtain ⟨c, hc, rfl⟩ := List.mem_map.1 he
    obtain ⟨v, _, hc⟩ := hflat c hc
    exact (hlink v c hc).1
  · intro e r v w he hr hv hw
    simp only []
    rw [connections_eq _ _ L (hrow v hv), countP_dualRow he hr hv hw]
  · intro k v w e hk he
    simp only [] at hk ⊢
    obtain ⟨row, j, c, h1, h2, rfl, rfl⟩ := (netEdge_row_iff _ L k v w).1 hk
    have hv : v < m.num l.target := by rw [← hlen]; exact (List.getElem?_eq_some_iff.1 h1).1
    have hc : c ∈ dualRow m l cons v := by
      have := hrow v hv
      rw [h1] at this
      rw [← Option.some.inj this]
      exact List.mem_of_getElem? h2
    have hfl := flatten_at h1 h2
    rw [List.getElem?_map, hfl] at he
    have hce : c.cell = e := Option.some.inj he
    obtain ⟨g1, g2, g3⟩ := hlink v c hc
    rw [hce] at g1 g3
    refine ⟨?_, ?_⟩
    · rw [List.getElem?_map, hfl, Option.map_some, g3]
      congr 1
      rw [Bool.eq_iff_iff, consAt_iff, decide_eq_true_eq]
    · have hw1 : (L.mapIdx fun v row => row.map (F v))[v]? = some (row.map (F v)) := by
        rw [List.getElem?_mapIdx, h1]; rfl
      have hw2 : (row.map (F v))[j]? = some (F v c) := by rw [List.getElem?_map, h2]; rfl
      have := flatten_at hw1 hw2
      rw [length_flatten_mapIdx] at this
      rw [this, hel, hF]
      simp only []
      congr 1
      by_cases hcl : cons.length = m.num l.owner
      · simp only [hcl, decide_true, Bool.not_true, Bool.false_eq_true, if_false, if_true]
        congr 1
        rw [mem_constraints h hv g2]
        apply propext
        constructor
        · rintro ⟨e', _, h2, h3⟩
          exact ⟨e', (consAt_iff.1 h2).2, h3⟩
        · rintro ⟨e', h2, h3⟩
          exact ⟨e', by rw [← hcl]; exact (List.getElem?_eq_some_iff.1 h2).1, consAt_iff.2 ⟨hcl, h2⟩, h3⟩
      · simp [hcl]

/-- C95: the dual graph is symmetric: there are as many connections from `v` to `w` across `e` as back. -/
theorem c95_symmetric (m : Mesh α) (h : m.WF) (l : Lst) (nodesWeight : List Nat) (cons : List Bool)
    (weight : Option (Nat → Nat → Nat)) (cells : List Nat) (N : MetisNet)
    (hN : m.dualGraph l nodesWeight cons weight = ok (cells, N)) (e v w : Nat) (he : e < m.num l.owner)
    (hv : v < m.num l.target) (hw : w < m.num l.target) :
    connections N.adjacency cells v w e = connections N.adjacency cells w v e := by
  obtain ⟨cells', N', h1, -, -, -, -, -, -, h2, -⟩ := c95_dual m h l nodesWeight cons weight
  rw [hN] at h1
  obtain ⟨rfl, rfl⟩ := Prod.mk.inj (Res.ok.inj h1)
  obtain ⟨r, hr⟩ := Mesh.row_exists h l he
  rw [h2 e r v w he hr hv hw, h2 e r w v he hr hw hv]
  unfold slotPairs
  by_cases hvw : v = w
  · subst hvw; rfl
  · rw [if_neg hvw, if_neg (fun h => hvw h.symm), Nat.mul_comm]

/-- C95: an inner edge or face, with two different neighbours, gives exactly one connection each way. -/
theorem c95_inner (m : Mesh α) (h : m.WF) (l : Lst) (nodesWeight : List Nat) (cons : List Bool)
    (weight : Option (Nat → Nat → Nat)) (cells : List Nat) (N : MetisNet)
    (hN : m.dualGraph l nodesWeight cons weight = ok (cells, N)) (e v w : Nat) (he : e < m.num l.owner)
    (hr : m.row l e = ok [v, w]) (hvw : v ≠ w) (hv : v < m.num l.target) (hw : w < m.num l.target) :
    connections N.adjacency cells v w e = 1 ∧ connections N.adjacency cells w v e = 1 := by
  rw [← c95_symmetric m h l nodesWeight cons weight cells N hN e v w he hv hw]
  obtain ⟨cells', N', h1, -, -, -, -, -, -, h2, -⟩ := c95_dual m h l nodesWeight cons weight
  rw [hN] at h1
  obtain ⟨rfl, rfl⟩ := Prod.mk.inj (Res.ok.inj h1)
  rw [h2 e _ v w he hr hv hw]
  have : slotPairs [v, w] v w = 1 := by
    unfold slotPairs
    rw [if_neg hvw]
    simp [hvw, fun h : w = v => hvw h.symm]
  exact ⟨this, this⟩

/-- C95: for edges between the vertices, and no weights or at least one for each edge, `MeshToGraph` is defined, and
from `v` to `w` it has as many connections of weight `x` as there are edges from `v` to `w` of this weight, and for an
undirected graph those from `w` to `v` as well. -/
theorem c95_graph (n : Nat) (edges : List (Nat × Nat)) (undirected : Bool) (nodesWeight weights : List Nat)
    (hr : ∀ p ∈ edges, p.1 < n ∧ p.2 < n) (hw : weights = [] ∨ edges.length ≤ weights.length) :
    ∃ N, meshToGraph n edges undirected nodesWeight weights = ok N ∧ Network N.adjacency n ∧
      N.nodesWeight = nodesWeight ∧ N.constrained = [] ∧ N.edgesWeight.length = N.adjacency.el.length ∧
      ∀ v w x, v < n → connections N.adjacency N.edgesWeight v w x =
        (edges.zip (weightsOf edges weights)).count ((v, w), x) +
          if undirected then (edges.zip (weightsOf edges weights)).count ((w, v), x) else 0 := by
  set Z := edges.zip (weightsOf edges weights) with hZ
  set L := pushed (List.replicate n []) (Z.flatMap (gpush undirected)) with hL
  have hlen : L.length = n := by rw [hL]; simp
  have hrow := fun v (hv : v < n) => pushed_replicate n (Z.flatMap (gpush undirected)) v hv
  refine ⟨⟨Csr.ofRows (L.map (List.map (·.1))), [], nodesWeight, L.flatten.map (·.2)⟩, ?_, ⟨?_, ?_⟩, rfl, rfl, ?_, ?_⟩
  · unfold meshToGraph
    rw [graphLoop_eq n edges undirected weights hr hw, ok_bind, ← hZ, ← hL, netRows_eq, ok_bind]
    simp only []
    rw [net_ofRows]
  · have := Csr.wf_ofRows (L.map (List.map (·.1)))
    rwa [List.length_map, hlen] at this
  · intro w hw'
    simp only [Csr.ofRows_el, ← List.map_flatten] at hw'
    obtain ⟨c, hc, rfl⟩ := List.mem_map.1 hw'
    obtain ⟨row, hrm, hc⟩ := List.mem_flatten.1 hc
    obtain ⟨v, hv, rfl⟩ := List.mem_iff_getElem.1 hrm
    have := hrow v (by omega)
    rw [← hL, List.getElem?_eq_getElem hv] at this
    rw [Option.some.inj this] at hc
    obtain ⟨p, hp, rfl⟩ := List.mem_map.1 hc
    obtain ⟨z, hz, hp⟩ := List.mem_flatMap.1 (List.mem_filter.1 hp).1
    have hz' := hr _ (List.of_mem_zip (show (z.1, z.2) ∈ _ from hz)).1
    rcases List.mem_cons.1 hp with rfl | hp
    · exact hz'.2
    · split at hp
      · rw [List.mem_singleton] at hp
        subst hp
        exact hz'.1
      · cases hp
  · simp only [Csr.ofRows_el, ← List.map_flatten, List.length_map]
  · intro v w x hv
    simp only []
    rw [connections_eq _ _ L (hrow v hv), countP_graphRow]

/-- C95: with some weights but fewer than edges, `MeshToGraph` reads past their end. -/
theorem c95_short (n : Nat) (edges : List (Nat × Nat)) (undirected : Bool) (nodesWeight weights : List Nat)
    (hr : ∀ p ∈ edges, p.1 < n ∧ p.2 < n) (h0 : weights ≠ []) (hw : weights.length < edges.length) :
    meshToGraph n edges undirected nodesWeight weights = ub := by
  have hsplit : edges.zipIdx = (edges.take weights.length).zipIdx ++
      (edges[weights.length], weights.length) :: (edges.drop (weights.length + 1)).zipIdx (weights.length + 1) := by
    conv_lhs => rw [← List.take_append_drop weights.length edges, List.zipIdx_append,
      List.drop_eq_getElem_cons hw, List.zipIdx_cons]
    simp [Nat.min_eq_left (Nat.le_of_lt hw)]
  unfold meshToGraph
  rw [hsplit, foldRes_append, graphLoop_eq n _ undirected weights (fun p hp => hr p (List.mem_of_mem_take hp))
    (Or.inr (by simp)), ok_bind, foldRes_cons]
  have : edgeWeight weights weights.length = ub := by
    unfold edgeWeight
    rw [if_neg (by simpa using h0)]
    unfold vget
    simp
  unfold graphStep
  rw [this]
  rfl

/-! ### Examples -/

/-- Three cells in the plane: edge 0 lies between 0 and 1, edge 1 between 1 and 2, edge 2 has one neighbour only, and
edge 3 is a junction of all three. -/
def dualOps : List (Op Int) :=
  [.append .d1 4, .append .d2 3, .addRow .nb12 0 [0, 1], .addRow .nb12 1 [1, 2], .resizeRow .nb12 2 2,
   .insertEntry .nb12 2 0 2, .addRow .nb12 3 [2, 0, 1]]

def dualMesh : Mesh Int :=
  match Mesh.empty.run dualOps with
  | ok m => m
  | _ => Mesh.empty

theorem dualMesh_run : (Mesh.empty : Mesh Int).run dualOps = ok dualMesh := by
  have h : (match (Mesh.empty : Mesh Int).run dualOps with | ok _ => true | _ => false) = true := by decide
  unfold dualMesh
  revert h
  cases (Mesh.empty : Mesh Int).run dualOps <;> simp

theorem dualMesh_wf : dualMesh.WF := by
  refine Mesh.run_wf_of_ok (ops := dualOps) Mesh.empty_wf (Mesh.along_of_forall ?_ _) dualMesh_run
  intro o ho m
  simp only [dualOps, List.mem_cons, List.not_mem_nil, or_false] at ho
  rcases ho with rfl | rfl | rfl | rfl | rfl | rfl | rfl <;> trivial

/-- With edge 1 constrained, the connections between 1 and 2 have weight 1, also the ones across the junction; the
others have the entry of the matrix plus 10. -/
example : dualMesh.WF ∧ dualMesh.row .nb12 1 = ok [1, 2] ∧ dualMesh.row .nb12 2 = ok [2, UINT_MAX] ∧
    dualMesh.dualGraph .nb12 [7, 7, 7] [false, true, false, false] (some fun v w => v + w) =
      ok ([0, 3, 3, 0, 1, 3, 3, 1, 3, 3], ⟨⟨[0, 3, 7, 10], [1, 2, 1, 0, 2, 2, 0, 1, 0, 1]⟩,
        [false, false, false, false, true, false, false, true, false, false], [7, 7, 7],
        [11, 12, 11, 11, 1, 1, 11, 1, 12, 1]⟩) :=
  ⟨dualMesh_wf, by decide, by decide, by decide⟩

/-- Without constraints the matrix is taken as it is. -/
example : (dualMesh.dualGraph .nb12 [] [] (some fun v w => v + w) >>= fun r => ok r.2.edgesWeight) =
    ok [1, 2, 1, 1, 3, 3, 1, 3, 2, 3] := by decide

example : dualMesh.row .nb12 0 = ok [0, 1] ∧ 0 < dualMesh.num .d1 ∧ 1 < dualMesh.num .d2 ∧
    slotPairs [2, 0, 1] 1 2 = 1 ∧ slotPairs [0, 0, 1] 0 0 = 2 := by decide

/-- Three edges with weights, of which two join the same vertices. -/
example : (∀ p ∈ [((0 : Nat), (1 : Nat)), (1, 0), (1, 2)], p.1 < 3 ∧ p.2 < 3) ∧
    meshToGraph 3 [(0, 1), (1, 0), (1, 2)] true [] [5, 6, 7] =
      ok ⟨⟨[0, 2, 5, 6], [1, 1, 0, 0, 2, 1]⟩, [], [], [5, 6, 5, 6, 7, 7]⟩ ∧
    meshToGraph 3 [(0, 1), (1, 0), (1, 2)] true [] [5] = ub := by decide

end Verif
