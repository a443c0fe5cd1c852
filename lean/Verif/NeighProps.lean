import Verif.NeighLemmas2

/-
C38: neighbour lists are the incidences; C53: the two neighbour slots of edges in the plane.
-/
namespace Verif

open Res

variable {α : Type}

/-! ### A concrete mesh -/

/-- Two triangles over four points, all cells active, no neighbours. -/
def trianglesOps : List (Op Int) :=
  [.initDim 2, .init .d0 4, .init .d1 5, .append .d2 2,
   .insertExt 0 0 1, .insertExt 1 1 2, .insertExt 2 2 0, .insertExt 3 2 3, .insertExt 4 3 0,
   .addVerticesAndEdges 0 [(0, 0), (1, 1), (2, 2)], .addVerticesAndEdges 1 [(0, 2), (2, 3), (3, 4)],
   .setAct .d1 0 true, .setAct .d1 1 true, .setAct .d1 2 true, .setAct .d1 4 true,
   .setAct .d2 0 true, .setAct .d2 1 true]

/-- The mesh built by `trianglesOps`. -/
def triangles : Mesh Int :=
  match (Mesh.empty : Mesh Int).run trianglesOps with
  | ok m => m
  | _ => Mesh.empty

theorem trianglesOps_along : (Mesh.empty : Mesh Int).Along Mesh.InitGuarded trianglesOps := by
  refine ⟨trivial, ⟨fun _ _ => rfl, by simp [Mesh.empty], rfl⟩,
    ⟨?_, fun c hc => by simp [Mesh.init, Mesh.init0, Mesh.empty, Mesh.resizeOffOf,
        Mesh.resizePropOffs, fset] at hc, rfl⟩,
    trivial, Mesh.along_of_forall ?_ _⟩
  · intro l hl; cases l <;> first | rfl | cases hl
  · intro o ho m
    simp only [List.mem_cons, List.not_mem_nil, or_false] at ho
    rcases ho with rfl | rfl | rfl | rfl | rfl | rfl | rfl | rfl | rfl | rfl | rfl | rfl |
      rfl <;> trivial

theorem triangles_wf : triangles.WF :=
  Mesh.run_wf_of_ok Mesh.empty_wf trianglesOps_along (show _ = ok triangles from rfl)

/-! ### C38 -/

/-- What a list of incidences contains: the active cells with `x` in the boundary; in index order,
each once when no boundary repeats a cell. -/
theorem c38_incidences (n : Nat) (act : Nat → Bool) (bdry : Nat → List Nat) (x : Nat) :
    (∀ c, c ∈ cellIncidences n act bdry x ↔ c < n ∧ act c = true ∧ x ∈ bdry c) ∧
    (cellIncidences n act bdry x).Pairwise (· ≤ ·) ∧
    ((∀ c < n, (bdry c).Nodup) → (cellIncidences n act bdry x).Pairwise (· < ·)) := by
  have hmem : ∀ c, c ∈ cellIncidences n act bdry x ↔ c < n ∧ act c = true ∧ x ∈ bdry c := by
    intro c
    unfold cellIncidences
    rw [List.mem_flatMap]
    constructor
    · rintro ⟨d, hd, hc⟩
      split at hc
      · rename_i ha
        obtain ⟨h1, rfl⟩ := List.mem_replicate.1 hc
        exact ⟨by simpa using hd, ha, List.count_pos_iff.1 (by omega)⟩
      · cases hc
    · rintro ⟨h1, h2, h3⟩
      refine ⟨c, by simpa using h1, ?_⟩
      rw [if_pos h2, List.mem_replicate]
      have := List.count_pos_iff.2 h3
      exact ⟨by omega, rfl⟩
  refine ⟨hmem, ?_, ?_⟩
  · clear hmem
    induction n with
    | zero => simp [cellIncidences]
    | succ n ih =>
      rw [cellIncidences_succ, List.pairwise_append]
      refine ⟨ih, ?_, ?_⟩
      · split
        · simp [List.pairwise_replicate]
        · simp
      · intro a ha b hb
        have h1 : a < n := by
          unfold cellIncidences at ha
          obtain ⟨d, hd, ha⟩ := List.mem_flatMap.1 ha
          split at ha
          · rw [List.eq_of_mem_replicate ha]; simpa using hd
          · cases ha
        split at hb
        · rw [List.eq_of_mem_replicate hb]; omega
        · cases hb
  · intro hb
    clear hmem
    induction n with
    | zero => simp [cellIncidences]
    | succ n ih =>
      rw [cellIncidences_succ, List.pairwise_append]
      refine ⟨ih fun c hc => hb c (by omega), ?_, ?_⟩
      · split
        · have := List.nodup_iff_count_le_one.1 (hb n (by omega)) x
          rw [List.pairwise_replicate]
          exact Or.inl this
        · simp
      · intro a ha b hb'
        have h1 : a < n := by
          unfold cellIncidences at ha
          obtain ⟨d, hd, ha⟩ := List.mem_flatMap.1 ha
          split at ha
          · rw [List.eq_of_mem_replicate ha]; simpa using hd
          · cases ha
        split at hb'
        · rw [List.eq_of_mem_replicate hb']; exact h1
        · cases hb'

private theorem set_of_compute (m : Mesh α) (h : m.WF) (l : Lst) (get : Nat → Res (List Nat))
    {act : Nat → Bool} {bdry : Nat → List Nat} (ha : Activity m l.target act)
    (hb : Boundary (m.num l.target) (m.num l.owner) act get bdry) :
    ∃ m', m.computeNeighbours l get = ok m' ∧
      NeighboursSet m m' l (cellIncidences (m.num l.target) act bdry) := by
  obtain ⟨A, hA, rfl⟩ := AMesh.exists_conc h
  have hlen : ((List.range (A.num l.owner)).map
      (cellIncidences (A.num l.target) act bdry)).length = A.num l.owner := by simp
  refine ⟨_, AMesh.computeNeighbours_conc hA l get ha hb,
    AMesh.wf_conc (AMesh.ok_setRows hA hlen), ?_, ?_⟩
  · rw [← AMesh.setRows_conc]
    simp
  · intro x hx
    refine AMesh.row_conc (AMesh.ok_setRows hA hlen) ?_
    rw [AMesh.setRows_rows_self]
    have hx' : x < A.num l.owner := hx
    simp only [List.getElem?_map, List.getElem?_range hx']
    rfl

private theorem set_of_row (m : Mesh α) (h : m.WF) (l b : Lst)
    {act : Nat → Bool} {bdry : Nat → List Nat} (ha : Activity m l.target act)
    (hb : Boundary (m.num l.target) (m.num l.owner) act (m.row b) bdry) :
    ∃ m', m.computeNeighbours l (m.boundaryRow b) = ok m' ∧
      NeighboursSet m m' l (cellIncidences (m.num l.target) act bdry) := by
  refine set_of_compute m h l _ ha ?_
  obtain ⟨A, hA, rfl⟩ := AMesh.exists_conc h
  intro c hc hact
  rw [AMesh.boundaryRow_eq hA]
  exact hb c hc hact

/-- **C38**: after `ComputeCell0DCell1DNeighbours` the list of each vertex is the list of active edges
that have it as an end; nothing else changes. -/
theorem c38_cell0d_cell1d (m : Mesh α) (h : m.WF) (act : Nat → Bool) (ends : Nat → Nat × Nat)
    (ha : Activity m .d1 act)
    (hb : ∀ c < m.num .d1, act c = true → m.extremes c = ok (ends c) ∧
      (ends c).1 < m.num .d0 ∧ (ends c).2 < m.num .d0) :
    ∃ m', m.computeCell0DCell1D = ok m' ∧
      NeighboursSet m m' .nb01 (cellIncidences (m.num .d1) act fun c => [(ends c).1, (ends c).2]) := by
  refine set_of_compute m h .nb01 _ ha ?_
  intro c hc hact
  obtain ⟨h1, h2, h3⟩ := hb c hc hact
  refine ⟨by simp [Mesh.boundaryExt, h1], ?_⟩
  simp only [List.mem_cons, List.not_mem_nil, or_false]
  rintro x (rfl | rfl)
  · exact h2
  · exact h3

/-- **C38**: after `ComputeCell0DCell2DNeighbours` the list of each vertex is the list of active
polygons that have it as a vertex; nothing else changes. -/
theorem c38_cell0d_cell2d (m : Mesh α) (h : m.WF) (act : Nat → Bool) (bdry : Nat → List Nat)
    (ha : Activity m .d2 act) (hb : Boundary (m.num .d2) (m.num .d0) act (m.row .vert2) bdry) :
    ∃ m', m.computeCell0DCell2D = ok m' ∧
      NeighboursSet m m' .nb02 (cellIncidences (m.num .d2) act bdry) :=
  set_of_row m h .nb02 .vert2 ha hb

/-- **C38**: after `ComputeCell0DCell3DNeighbours` the list of each vertex is the list of active
polyhedra that have it as a vertex; nothing else changes. -/
theorem c38_cell0d_cell3d (m : Mesh α) (h : m.WF) (act : Nat → Bool) (bdry : Nat → List Nat)
    (ha : Activity m .d3 act) (hb : Boundary (m.num .d3) (m.num .d0) act (m.row .vert3) bdry) :
    ∃ m', m.computeCell0DCell3D = ok m' ∧
      NeighboursSet m m' .nb03 (cellIncidences (m.num .d3) act bdry) :=
  set_of_row m h .nb03 .vert3 ha hb

/-- **C38**: in a mesh of dimension 3, after `ComputeCell1DCell2DNeighbours` the list of each edge is
the list of active polygons that have it as an edge; nothing else changes. -/
theorem c38_cell1d_cell2d (m : Mesh α) (h : m.WF) (hd : m.dimension = 3) (act : Nat → Bool)
    (bdry : Nat → List Nat)
    (ha : Activity m .d2 act) (hb : Boundary (m.num .d2) (m.num .d1) act (m.row .edge2) bdry) :
    ∃ m', m.computeCell1DCell2D = ok m' ∧
      NeighboursSet m m' .nb12 (cellIncidences (m.num .d2) act bdry) := by
  unfold Mesh.computeCell1DCell2D
  rw [if_neg (by omega), if_pos hd]
  exact set_of_row m h .nb12 .edge2 ha hb

/-- **C38**: after `ComputeCell1DCell3DNeighbours` the list of each edge is the list of active
polyhedra that have it as an edge; nothing else changes. -/
theorem c38_cell1d_cell3d (m : Mesh α) (h : m.WF) (act : Nat → Bool) (bdry : Nat → List Nat)
    (ha : Activity m .d3 act) (hb : Boundary (m.num .d3) (m.num .d1) act (m.row .edge3) bdry) :
    ∃ m', m.computeCell1DCell3D = ok m' ∧
      NeighboursSet m m' .nb13 (cellIncidences (m.num .d3) act bdry) :=
  set_of_row m h .nb13 .edge3 ha hb

/-- **C38**: after `ComputeCell2DCell3DNeighbours` the list of each polygon is the list of active
polyhedra that have it as a face; nothing else changes. -/
theorem c38_cell2d_cell3d (m : Mesh α) (h : m.WF) (act : Nat → Bool) (bdry : Nat → List Nat)
    (ha : Activity m .d3 act) (hb : Boundary (m.num .d3) (m.num .d2) act (m.row .face3) bdry) :
    ∃ m', m.computeCell2DCell3D = ok m' ∧
      NeighboursSet m m' .nb23 (cellIncidences (m.num .d3) act bdry) :=
  set_of_row m h .nb23 .face3 ha hb

/-- The hypotheses for the two triangles, of which edge 3 is not active. -/
example : triangles.WF ∧ Activity triangles .d1 (fun c => decide (c ≠ 3)) ∧
    ∀ c < triangles.num .d1, decide (c ≠ 3) = true →
      triangles.extremes c = ok ([(0, 1), (1, 2), (2, 0), (2, 3), (3, 0)].getD c (0, 0)) ∧
      ([(0, 1), (1, 2), (2, 0), (2, 3), (3, 0)].getD c (0, 0)).1 < triangles.num .d0 ∧
      ([(0, 1), (1, 2), (2, 0), (2, 3), (3, 0)].getD c (0, 0)).2 < triangles.num .d0 := by
  refine ⟨triangles_wf, ?_, ?_⟩
  · show ∀ c < 5, _
    decide
  · show ∀ c < 5, _
    decide

example : (triangles.computeCell0DCell1D >>= fun m => m.row .nb01 2) = ok [1, 2] ∧
    (triangles.computeCell0DCell1D >>= fun m => m.row .nb01 0) = ok [0, 2, 4] := by decide

example : triangles.WF ∧ Activity triangles .d2 (fun _ => true) ∧
    Boundary (triangles.num .d2) (triangles.num .d0) (fun _ => true) (triangles.row .vert2)
      (fun c => [[0, 1, 2], [0, 2, 3]].getD c []) := by
  refine ⟨triangles_wf, ?_, ?_⟩
  · show ∀ c < 2, _
    decide
  · show ∀ c < 2, _
    decide

example : (triangles.computeCell0DCell2D >>= fun m => m.row .nb02 2) = ok [0, 1] := by decide

/-! ### C53 -/

/-- C53, what is proved: in a mesh of dimension 2 with proper polygons, an edge from `o` to `t` gets
in slot 1 the only active polygon that has it as a side from `o` to `t` (on its left) and in slot 0
the only active polygon that has it as a side from `t` to `o` (on its right). A slot without such a
polygon is empty **if the mesh had no edge neighbours before**. -/
theorem c53_edge_sides_partial (m : Mesh α) (h : m.WF) (hd : m.dimension = 2) (hp : PolygonsOk m)
    (hu : m.num .d2 ≤ UINT_MAX) :
    ∃ m', m.computeCell1DCell2D = ok m' ∧ m'.WF ∧
      m' = { m with lists := fset m.lists .nb12 (m'.lists .nb12) } ∧
      ∀ x o t, m.extremes x = ok (o, t) →
        m'.rowSize .nb12 x = ok 2 ∧
        (∀ c, HasSide m c x o t → (∀ c', HasSide m c' x o t → c' = c) →
          m'.entry .nb12 x 1 = ok c) ∧
        (∀ c, HasSide m c x t o → (∀ c', HasSide m c' x t o → c' = c) →
          m'.entry .nb12 x 0 = ok c) ∧
        ((∀ y < m.num .d1, m.rowSize .nb12 y = ok 0) →
          ((∀ c, ¬HasSide m c x o t) → m'.hasEntry .nb12 x 1 = ok false) ∧
          ((∀ c, ¬HasSide m c x t o) → m'.hasEntry .nb12 x 0 = ok false)) := by
  obtain ⟨A, hA, rfl⟩ := AMesh.exists_conc h
  obtain ⟨f, hf1, hf2⟩ := AMesh.initSlots_conc hA
  -- the polygons as functions
  let act : Nat → Bool := fun c => decide (A.conc.active .d2 c = ok true)
  have hactive : ∀ c < A.num .d2, ∃ b, A.conc.active .d2 c = ok b := by
    intro c hc
    unfold Mesh.active
    rw [assert_true (show c < A.conc.num .d2 from hc)]
    have : c < (A.act .d2).length := by rw [hA.act]; exact hc
    exact ⟨(A.act .d2)[c], by simp only [ok_bind]; exact vget_of_lt this⟩
  have ha : Activity A.conc .d2 act := by
    intro c hc
    obtain ⟨b, hb⟩ := hactive c hc
    show _ = ok (decide _)
    rw [hb]
    cases b <;> simp
  let V : Nat → List Nat := fun c => (A.rows .vert2).getD c []
  let E : Nat → List Nat := fun c => (A.rows .edge2).getD c []
  have hrow : ∀ (l : Lst) (c : Nat), c < A.num l.owner →
      (A.rows l)[c]? = some ((A.rows l).getD c []) := by
    intro l c hc
    have : c < (A.rows l).length := by rw [hA.rows]; exact hc
    simp [this]
  have hV : ∀ c < A.num .d2, A.conc.row .vert2 c = ok (V c) :=
    fun c hc => AMesh.row_conc hA (hrow .vert2 c hc)
  have hE : ∀ c < A.num .d2, A.conc.row .edge2 c = ok (E c) :=
    fun c hc => AMesh.row_conc hA (hrow .edge2 c hc)
  have hpc : ∀ c < A.num .d2, act c = true → (A.rows .vert2)[c]? = some (V c) ∧
      (A.rows .edge2)[c]? = some (E c) ∧ (V c).Nodup ∧ 3 ≤ (V c).length ∧
      (E c).length = (V c).length ∧
      ∀ (k x a b : Nat), (E c)[k]? = some x → (V c)[k]? = some a →
        (V c)[(k + 1) % (V c).length]? = some b →
        A.conc.extremes x = ok (a, b) ∨ A.conc.extremes x = ok (b, a) := by
    intro c hc hact
    obtain ⟨vs, es, h1, h2, h3, h4, h5, h6⟩ := hp c hc (by simpa [act] using hact)
    rw [hV c hc] at h1
    rw [hE c hc] at h2
    cases h1
    cases h2
    exact ⟨hrow .vert2 c hc, hrow .edge2 c hc, h4, h3, h5, h6⟩
  have hev : ∀ x o t, A.conc.extremes x = ok (o, t) → ∀ b c,
      (x, b, c) ∈ ((List.range (A.num .d2)).flatMap fun c =>
        if act c then (List.range (E c).length).map (A.sideEvent c (V c) (E c)) else []) ↔
      if b then HasSide A.conc c x o t else HasSide A.conc c x t o := by
    intro x o t hx b c
    have hside : ∀ p q, HasSide A.conc c x p q ↔ c < A.num .d2 ∧ act c = true ∧
        ∃ k : Nat, (E c)[k]? = some x ∧ (V c)[k]? = some p ∧
          (V c)[(k + 1) % (V c).length]? = some q := by
      intro p q
      unfold HasSide
      constructor
      · rintro ⟨h1, vs, es, h2, h3, h4⟩
        have hc : c < A.num .d2 := by
          by_contra hc
          unfold Mesh.active at h1
          rw [assert_false (show ¬c < A.conc.num .d2 from hc)] at h1
          cases h1
        rw [hV c hc] at h2
        rw [hE c hc] at h3
        cases h2
        cases h3
        exact ⟨hc, by simpa [act] using h1, h4⟩
      · rintro ⟨hc, h1, h2⟩
        exact ⟨by simpa [act] using h1, V c, E c, hV c hc, hE c hc, h2⟩
    rw [List.mem_flatMap]
    constructor
    · rintro ⟨d, hd', hm⟩
      split at hm
      · rename_i hact
        rw [List.mem_map] at hm
        obtain ⟨k, hk, he⟩ := hm
        simp only [AMesh.sideEvent, Prod.mk.injEq] at he
        obtain ⟨he1, he2, rfl⟩ := he
        have hdl : d < A.num .d2 := by simpa using hd'
        obtain ⟨_, _, hnd, h3, hl, hj⟩ := hpc d hdl hact
        have hkE : k < (E d).length := by simpa using hk
        have hkV : k < (V d).length := by omega
        have hk1 : (k + 1) % (V d).length < (V d).length := Nat.mod_lt _ (by omega)
        have eE : (E d)[k]? = some x := by
          rw [List.getElem?_eq_getElem hkE, ← he1]; simp [hkE]
        have eV : (V d)[k]? = some ((V d).getD k 0) := by simp [hkV]
        have eW : (V d)[(k + 1) % (V d).length]? =
            some ((V d).getD ((k + 1) % (V d).length) 0) := by simp [hk1]
        have hx2 := hj k x _ _ eE eV eW
        rw [he1] at he2
        rw [hx] at he2 hx2
        cases b with
        | true =>
          simp only [decide_eq_true_eq, ok.injEq, Prod.mk.injEq] at he2
          simp only [if_true]
          rw [hside]
          exact ⟨hdl, hact, k, eE, by rw [eV, ← he2.1], by rw [eW, ← he2.2]⟩
        | false =>
          simp only [decide_eq_false_iff_not] at he2
          simp only [Bool.false_eq_true, if_false]
          rw [hside]
          rcases hx2 with h' | h'
          · exact absurd h' he2
          · simp only [ok.injEq, Prod.mk.injEq] at h'
            exact ⟨hdl, hact, k, eE, by rw [eV, ← h'.2], by rw [eW, ← h'.1]⟩
      · cases hm
    · intro hs
      have hs' : c < A.num .d2 ∧ act c = true ∧
          ∃ k : Nat, (E c)[k]? = some x ∧ (V c)[k]? = some (if b then o else t) ∧
            (V c)[(k + 1) % (V c).length]? = some (if b then t else o) := by
        cases b with
        | true => simpa using (hside o t).1 (by simpa using hs)
        | false => simpa using (hside t o).1 (by simpa using hs)
      obtain ⟨hc, hact, k, h1, h2, h3⟩ := hs'
      refine ⟨c, by simpa using hc, ?_⟩
      rw [if_pos hact, List.mem_map]
      obtain ⟨_, _, hnd, h3', hl, hj⟩ := hpc c hc hact
      obtain ⟨hkE, hx1⟩ := List.getElem?_eq_some_iff.1 h1
      obtain ⟨hkV, hv1⟩ := List.getElem?_eq_some_iff.1 h2
      obtain ⟨hkW, hw1⟩ := List.getElem?_eq_some_iff.1 h3
      refine ⟨k, by simpa using hkE, ?_⟩
      simp only [AMesh.sideEvent, Prod.mk.injEq, and_true]
      have g1 : (E c).getD k 0 = x := by simp [hkE, hx1]
      have g2 : (V c).getD k 0 = if b then o else t := by simp [hkV, hv1]
      have g3 : (V c).getD ((k + 1) % (V c).length) 0 = if b then t else o := by simp [hkW, hw1]
      rw [g1, g2, g3, hx]
      refine ⟨rfl, ?_⟩
      cases b with
      | true => simp
      | false =>
        have hne : o ≠ t := by
          intro hot
          have : (V c)[k] = (V c)[(k + 1) % (V c).length] := by rw [hv1, hw1]; simp [hot]
          have := hnd.getElem_inj_iff.1 this
          rcases Nat.lt_or_ge (k + 1) (V c).length with hh | hh
          · rw [Nat.mod_eq_of_lt hh] at this; omega
          · rw [show k + 1 = (V c).length by omega, Nat.mod_self] at this; omega
        simp [hne]
  have hrun := AMesh.cells_conc hA f V E act ha hpc
  generalize ((List.range (A.num .d2)).flatMap fun c =>
    if act c then (List.range (E c).length).map (A.sideEvent c (V c) (E c)) else []) = evs
    at hev hrun
  obtain ⟨g, hg⟩ : ∃ g, g = evs.foldl AMesh.slotUpd f := ⟨_, rfl⟩
  rw [← hg] at hrun
  refine ⟨(A.withSlots g).conc, ?_, AMesh.wf_conc (AMesh.ok_withSlots hA g), ?_, ?_⟩
  · unfold Mesh.computeCell1DCell2D
    rw [if_pos hd, hf1]
    exact hrun
  · unfold AMesh.withSlots
    rw [← AMesh.setRows_conc]
    simp
  · intro x o t hx
    have hxl : x < A.num .d1 := by
      by_contra hc
      unfold Mesh.extremes at hx
      rw [assert_false (show ¬x < A.conc.num .d1 from hc)] at hx
      cases hx
    have hr : ((A.withSlots g).rows .nb12)[x]? = some [g x false, g x true] := by
      unfold AMesh.withSlots
      rw [AMesh.setRows_rows_self]
      simp [hxl]
    have hent := AMesh.entry_conc (AMesh.ok_withSlots hA g) hr
    have hg1 : ∀ b c, (if b then HasSide A.conc c x o t else HasSide A.conc c x t o) →
        (∀ c', (if b then HasSide A.conc c' x o t else HasSide A.conc c' x t o) → c' = c) →
        g x b = c := by
      intro b c h1 h2
      rw [hg]
      apply AMesh.foldl_slotUpd_some
      · rintro ⟨y, b', c'⟩ hm rfl rfl
        exact h2 c' ((hev _ o t hx _ c').1 hm)
      · exact (hev x o t hx b c).2 h1
    have hg0 : ∀ b, (∀ c, ¬(if b then HasSide A.conc c x o t else HasSide A.conc c x t o)) →
        g x b = f x b := by
      intro b h1
      rw [hg]
      apply AMesh.foldl_slotUpd_none
      rintro ⟨y, b', c'⟩ hm ⟨rfl, rfl⟩
      exact h1 c' ((hev _ o t hx _ c').1 hm)
    refine ⟨AMesh.rowSize_conc (AMesh.ok_withSlots hA g) hr, ?_, ?_, ?_⟩
    · intro c h1 h2
      rw [hent]
      have := hg1 true c (by simpa using h1) (by simpa using h2)
      simp [agetD, this]
    · intro c h1 h2
      rw [hent]
      have := hg1 false c (by simpa using h1) (by simpa using h2)
      simp [agetD, this]
    · intro h0
      have hnil : ∀ r ∈ A.rows .nb12, r = [] := by
        intro r hr'
        obtain ⟨y, hy, rfl⟩ := List.getElem_of_mem hr'
        have hy' : y < A.num .d1 := by rw [hA.rows] at hy; exact hy
        have := h0 y hy'
        rw [AMesh.rowSize_conc hA (List.getElem?_eq_getElem hy)] at this
        simpa using this
      have hnum : ∀ b, (∀ c, ¬(if b then HasSide A.conc c x o t else HasSide A.conc c x t o)) →
          ¬g x b < A.num .d2 := by
        intro b h1
        rw [hg0 b h1, hf2 hnil x hxl b]
        have : A.num .d2 ≤ UINT_MAX := hu
        omega
      refine ⟨fun h1 => ?_, fun h1 => ?_⟩
      · unfold Mesh.hasEntry
        rw [hent]
        have := hnum true (by simpa using h1)
        simp only [agetD, List.getElem?_cons_succ, List.getElem?_cons_zero, ok_bind, ok.injEq,
          decide_eq_false_iff_not]
        exact this
      · unfold Mesh.hasEntry
        rw [hent]
        have := hnum false (by simpa using h1)
        simp only [agetD, List.getElem?_cons_zero, ok_bind, ok.injEq, decide_eq_false_iff_not]
        exact this

/-- The two triangles have proper polygons and no neighbours; triangle 1 is on the right of edge 2,
triangle 0 on the left, edge 3 has nothing on its right. -/
example : triangles.dimension = 2 ∧ PolygonsOk triangles ∧
    (∀ y < triangles.num .d1, triangles.rowSize .nb12 y = ok 0) ∧
    (triangles.computeCell1DCell2D >>= fun m => m.row .nb12 2) = ok [1, 0] ∧
    (triangles.computeCell1DCell2D >>= fun m => m.row .nb12 3) = ok [UINT_MAX, 1] := by
  refine ⟨rfl, ?_, ?_, by decide, by decide⟩
  · intro c hc _
    have hc2 : c < 2 := hc
    match c, hc2 with
    | 0, _ =>
      refine ⟨[0, 1, 2], [0, 1, 2], by decide, by decide, by decide, by decide, by decide, ?_⟩
      intro k x a b h1 h2 h3
      match k with
      | 0 => simp at h1 h2 h3; subst h1 h2 h3; exact Or.inl (by decide)
      | 1 => simp at h1 h2 h3; subst h1 h2 h3; exact Or.inl (by decide)
      | 2 => simp at h1 h2 h3; subst h1 h2 h3; exact Or.inl (by decide)
      | _ + 3 => simp at h1
    | 1, _ =>
      refine ⟨[0, 2, 3], [2, 3, 4], by decide, by decide, by decide, by decide, by decide, ?_⟩
      intro k x a b h1 h2 h3
      match k with
      | 0 => simp at h1 h2 h3; subst h1 h2 h3; exact Or.inr (by decide)
      | 1 => simp at h1 h2 h3; subst h1 h2 h3; exact Or.inl (by decide)
      | 2 => simp at h1 h2 h3; subst h1 h2 h3; exact Or.inl (by decide)
      | _ + 3 => simp at h1
  · show ∀ y < 5, _
    decide

/-- C53 does not hold when the mesh already had edge neighbours: a polygon that is no longer active
stays the neighbour of its edges when the neighbours are computed again. The mesh is the two
triangles with computed neighbours, of which triangle 0 has been switched off. -/
theorem c53_stale_violated : ∃ m m' : Mesh Int,
    (triangles.computeCell1DCell2D >>= fun m => m.setAct .d2 0 false) = ok m ∧
    m.computeCell1DCell2D = ok m' ∧ m.active .d2 0 = ok false ∧
    m.extremes 0 = ok (0, 1) ∧ (∀ c, ¬HasSide m c 0 0 1) ∧
    m'.hasEntry .nb12 0 1 = ok true ∧ m'.entry .nb12 0 1 = ok 0 := by
  have h1 : ∃ m : Mesh Int,
      (triangles.computeCell1DCell2D >>= fun m => m.setAct .d2 0 false) = ok m := ⟨_, rfl⟩
  obtain ⟨m, hm⟩ := h1
  have h2 : ∃ m' : Mesh Int, ((triangles.computeCell1DCell2D >>= fun m => m.setAct .d2 0 false) >>=
      fun m => m.computeCell1DCell2D) = ok m' := ⟨_, rfl⟩
  obtain ⟨m', hm'⟩ := h2
  have tr : ∀ {β : Type} (f : Mesh Int → Res β) (r : Res β),
      ((triangles.computeCell1DCell2D >>= fun m => m.setAct .d2 0 false) >>= f) = r → f m = r := by
    intro β f r h
    rw [hm] at h
    exact h
  have tr' : ∀ {β : Type} (f : Mesh Int → Res β) (r : Res β),
      (((triangles.computeCell1DCell2D >>= fun m => m.setAct .d2 0 false) >>=
        fun m => m.computeCell1DCell2D) >>= f) = r → f m' = r := by
    intro β f r h
    rw [hm'] at h
    exact h
  have hm2 := tr (fun m => m.computeCell1DCell2D) (ok m') hm'
  have hnum : m.num .d2 = 2 := by
    have := tr (fun m => ok (m.num .d2)) (ok 2) (by decide)
    simpa using this
  refine ⟨m, m', hm, hm2, tr (fun m => m.active .d2 0) _ (by decide),
    tr (fun m => m.extremes 0) _ (by decide), ?_,
    tr' (fun m => m.hasEntry .nb12 0 1) _ (by decide), tr' (fun m => m.entry .nb12 0 1) _ (by decide)⟩
  rintro c ⟨hc, vs, es, _, he, k, hk, _⟩
  have hc2 : c < 2 := by
    by_contra hh
    unfold Mesh.active at hc
    rw [assert_false (by rw [hnum]; exact hh)] at hc
    cases hc
  match c, hc2 with
  | 0, _ =>
    rw [tr (fun m => m.active .d2 0) (ok false) (by decide)] at hc
    cases hc
  | 1, _ =>
    rw [tr (fun m => m.row .edge2 1) (ok [2, 3, 4]) (by decide)] at he
    cases he
    have := List.mem_of_getElem? hk
    simp at this

end Verif
