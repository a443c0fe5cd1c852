import Verif.EdgeLemmas

/-
C36: the edges computed from the polygons of a mesh.
-/
namespace Verif

open Res

/-- C36: for polygons with existing vertices and no side from a vertex to itself, the call succeeds;
the edge list contains each undirected side of a polygon exactly once, smaller vertex first, and for
side `v` of a polygon the result names its vertex `v` and the edge that joins it with vertex
`v + 1`. -/
theorem c36_edges (numVertices : Nat) (cell2Ds : List (List Nat))
    (hv : ∀ cell ∈ cell2Ds, ∀ v ∈ cell, v < numVertices)
    (hd : ∀ cell ∈ cell2Ds, ∀ a, ¬Side cell a a) :
    ∃ r, computeMesh2DCell1Ds numVertices cell2Ds = ok r ∧
      (∀ e ∈ r.cell1Ds, e.1 < e.2) ∧ r.cell1Ds.Nodup ∧
      (∀ a b, a < b → ((a, b) ∈ r.cell1Ds ↔
        ∃ cell ∈ cell2Ds, Side cell a b ∨ Side cell b a)) ∧
      r.cell2Ds.length = cell2Ds.length ∧
      ∀ (c : Nat) cell cell', cell2Ds[c]? = some cell → r.cell2Ds[c]? = some cell' →
        cell'.length = cell.length ∧
        ∀ (v : Nat) a b, cell[v]? = some a → cell[(v + 1) % cell.length]? = some b →
          ∃ e, cell'[v]? = some (a, e) ∧ r.cell1Ds[e]? = some (min a b, max a b) := by
  have hmem : ∀ (cell : List Nat) a b, cell ∈ cell2Ds → Side cell a b →
      a < numVertices ∧ b < numVertices := by
    rintro cell a b hc ⟨v, h1, h2⟩
    exact ⟨hv cell hc a (List.mem_of_getElem? h1), hv cell hc b (List.mem_of_getElem? h2)⟩
  have htm : ∀ a b v, (a, b, v) ∈ cell2Ds.flatMap cellTriplets ↔
      v = 1 ∧ ∃ cell ∈ cell2Ds, Side cell a b ∨ Side cell b a := by
    intro a b v
    simp only [List.mem_flatMap, mem_cellTriplets]
    constructor
    · rintro ⟨c, h1, h2, h3⟩; exact ⟨h2, c, h1, h3⟩
    · rintro ⟨h2, c, h1, h3⟩; exact ⟨c, h1, h2, h3⟩
  obtain ⟨m, hm1, hm2, hm3⟩ := setFromTriplets_spec numVertices (cell2Ds.flatMap cellTriplets) (by
    rintro ⟨a, b, v⟩ ht
    obtain ⟨_, c, hc, h | h⟩ := (htm a b v).1 ht
    · exact hmem c a b hc h
    · exact (hmem c b a hc h).symm)
  have hup : ∀ a b, (a, b) ∈ upper 0 m ↔
      a < b ∧ ∃ cell ∈ cell2Ds, Side cell a b ∨ Side cell b a := by
    intro a b
    rw [mem_upper]
    constructor
    · rintro ⟨h1, i, col, h2, h3, h4⟩
      have hbi : b = i := by omega
      subst hbi
      obtain ⟨v, h5⟩ := ((hm3 b col h3).2 a).1 h4
      exact ⟨h1, ((htm a b v).1 h5).2⟩
    · rintro ⟨h1, h2⟩
      have hb : b < m.length := by
        obtain ⟨c, hc, h | h⟩ := h2
        · rw [hm2]; exact (hmem c a b hc h).2
        · rw [hm2]; exact (hmem c b a hc h).1
      have hcol := List.getElem?_eq_getElem hb
      exact ⟨h1, b, m[b], by omega, hcol, ((hm3 b _ hcol).2 a).2 ⟨1, (htm a b 1).2 ⟨rfl, h2⟩⟩⟩
  obtain ⟨n1, n2, _⟩ := numberColumns_spec 0 0 m
  have hcol : collectEdges (numberColumns 0 0 m).2 (numberColumns 0 0 m).1 = ok (upper 0 m) := by
    have := collectEdges_eq (numberColumns 0 0 m).1
    rw [upper_congr 0 _ _ n1] at this
    rw [n2, Nat.zero_add]
    exact this
  -- edge number of a side
  have hside : ∀ cell ∈ cell2Ds, ∀ a b, Side cell a b → ∃ t,
      (if a < b then spCoeff (numberColumns 0 0 m).1 a b
        else spCoeff (numberColumns 0 0 m).1 b a) = ok (1 + t) ∧
      (upper 0 m)[t]? = some (min a b, max a b) := by
    intro cell hc a b hs
    have hne : a ≠ b := by
      rintro rfl
      exact hd cell hc a hs
    by_cases hab : a < b
    · obtain ⟨t, h1, h2⟩ := spCoeff_numbered m a b hab ((hup a b).2 ⟨hab, cell, hc, Or.inl hs⟩)
      refine ⟨t, by rw [if_pos hab, h1], ?_⟩
      rw [h2, min_eq_left hab.le, max_eq_right hab.le]
    · have hba : b < a := by omega
      obtain ⟨t, h1, h2⟩ := spCoeff_numbered m b a hba ((hup b a).2 ⟨hba, cell, hc, Or.inr hs⟩)
      refine ⟨t, by rw [if_neg hab, h1], ?_⟩
      rw [h2, min_eq_right hba.le, max_eq_left hba.le]
  -- the polygons
  have hcell : ∀ cell ∈ cell2Ds, ∃ cell', mapRes (fun v => do
      let origin ← vget cell v
      let end_ ← vget cell ((v + 1) % cell.length)
      let n ← if origin < end_ then spCoeff (numberColumns 0 0 m).1 origin end_
        else spCoeff (numberColumns 0 0 m).1 end_ origin
      ok (origin, usub n 1)) (List.range cell.length) = ok cell' ∧
      cell'.length = cell.length ∧
      ∀ (v : Nat) a b, cell[v]? = some a → cell[(v + 1) % cell.length]? = some b →
        ∃ e, cell'[v]? = some (a, e) ∧ (upper 0 m)[e]? = some (min a b, max a b) := by
    intro cell hc
    have hex : ∀ v < cell.length, ∃ e : Nat, (do
        let origin ← vget cell v
        let end_ ← vget cell ((v + 1) % cell.length)
        let n ← if origin < end_ then spCoeff (numberColumns 0 0 m).1 origin end_
          else spCoeff (numberColumns 0 0 m).1 end_ origin
        ok (origin, usub n 1)) = ok (cell.getD v 0, e) ∧
        (upper 0 m)[e]? = some (min (cell.getD v 0) (cell.getD ((v + 1) % cell.length) 0),
          max (cell.getD v 0) (cell.getD ((v + 1) % cell.length) 0)) := by
      intro v hvl
      have h0 : (v + 1) % cell.length < cell.length := Nat.mod_lt _ (by omega)
      obtain ⟨t, h1, h2⟩ := hside cell hc (cell.getD v 0) (cell.getD ((v + 1) % cell.length) 0)
        ⟨v, getElem?_getD _ _ _ hvl, getElem?_getD _ _ _ h0⟩
      refine ⟨t, ?_, h2⟩
      simp only [vget_getD _ _ 0 hvl, vget_getD _ _ 0 h0, ok_bind]
      by_cases hlt : cell.getD v 0 < cell.getD ((v + 1) % cell.length) 0
      · rw [if_pos hlt] at h1 ⊢
        rw [h1, ok_bind, usub_of_le (by omega), Nat.add_sub_cancel_left]
      · rw [if_neg hlt] at h1 ⊢
        rw [h1, ok_bind, usub_of_le (by omega), Nat.add_sub_cancel_left]
    have hexL : ∃ es : List Nat, es.length = cell.length ∧ ∀ v (h : v < es.length), (do
        let origin ← vget cell v
        let end_ ← vget cell ((v + 1) % cell.length)
        let n ← if origin < end_ then spCoeff (numberColumns 0 0 m).1 origin end_
          else spCoeff (numberColumns 0 0 m).1 end_ origin
        ok (origin, usub n 1)) = ok (cell.getD v 0, es[v]) ∧
        (upper 0 m)[es[v]]? = some (min (cell.getD v 0) (cell.getD ((v + 1) % cell.length) 0),
          max (cell.getD v 0) (cell.getD ((v + 1) % cell.length) 0)) := by
      have hf : ∀ v, ∃ e : Nat, v < cell.length → _ ∧ _ := fun v => by
        by_cases h : v < cell.length
        · obtain ⟨e, he⟩ := hex v h
          exact ⟨e, fun _ => he⟩
        · exact ⟨0, fun h' => absurd h' h⟩
      choose f hf using hf
      refine ⟨(List.range cell.length).map f, by simp, ?_⟩
      intro v h
      simp only [List.length_map, List.length_range] at h
      simpa using hf v h
    obtain ⟨es, hel, hes⟩ := hexL
    have hz : (cell.zip es).length = cell.length := by simp [hel]
    have hmap := mapRes_range_eq (fun v => do
        let origin ← vget cell v
        let end_ ← vget cell ((v + 1) % cell.length)
        let n ← if origin < end_ then spCoeff (numberColumns 0 0 m).1 origin end_
          else spCoeff (numberColumns 0 0 m).1 end_ origin
        ok (origin, usub n 1)) id (cell.zip es) (by
          intro i hi
          have hi' : i < es.length := by simp [hel] at hi ⊢; omega
          have hi'' : i < cell.length := by omega
          rw [(hes i hi').1]
          simp [hi''])
    rw [hz, List.map_id] at hmap
    refine ⟨_, hmap, hz, ?_⟩
    intro v a b ha hb
    obtain ⟨hvl, rfl⟩ := List.getElem?_eq_some_iff.1 ha
    obtain ⟨hwl, rfl⟩ := List.getElem?_eq_some_iff.1 hb
    have hve : v < es.length := by omega
    refine ⟨es[v], ?_, ?_⟩
    · rw [List.getElem?_eq_getElem (by omega)]
      simp
    · have := (hes v hve).2
      simpa [hvl, hwl] using this
  have hcells : ∀ cells : List (List Nat), (∀ c ∈ cells, c ∈ cell2Ds) → ∃ cells',
      mapRes (fun cell => mapRes (fun v => do
        let origin ← vget cell v
        let end_ ← vget cell ((v + 1) % cell.length)
        let n ← if origin < end_ then spCoeff (numberColumns 0 0 m).1 origin end_
          else spCoeff (numberColumns 0 0 m).1 end_ origin
        ok (origin, usub n 1)) (List.range cell.length)) cells = ok cells' ∧
      cells'.length = cells.length ∧
      ∀ (c : Nat) cell cell', cells[c]? = some cell → cells'[c]? = some cell' →
        cell'.length = cell.length ∧
        ∀ (v : Nat) a b, cell[v]? = some a → cell[(v + 1) % cell.length]? = some b →
          ∃ e, cell'[v]? = some (a, e) ∧ (upper 0 m)[e]? = some (min a b, max a b) := by
    intro cells
    induction cells with
    | nil => intro _; exact ⟨[], rfl, rfl, by simp⟩
    | cons c cells ih =>
      intro hc
      obtain ⟨c', h1, h2, h3⟩ := hcell c (hc c List.mem_cons_self)
      obtain ⟨cs', i1, i2, i3⟩ := ih fun d hd => hc d (List.mem_cons_of_mem _ hd)
      refine ⟨c' :: cs', by simp only [mapRes, h1, ok_bind, i1], by simp [i2], ?_⟩
      intro k cell cell' hk hk'
      cases k with
      | zero =>
        simp only [List.getElem?_cons_zero, Option.some.injEq] at hk hk'
        subst hk hk'
        exact ⟨h2, h3⟩
      | succ k =>
        rw [List.getElem?_cons_succ] at hk hk'
        exact i3 k cell cell' hk hk'
  obtain ⟨cells', e1, e2, e3⟩ := hcells cell2Ds fun _ h => h
  refine ⟨⟨upper 0 m, cells'⟩, ?_, ?_, ?_, ?_, e2, e3⟩
  · simp only [computeMesh2DCell1Ds, sideTriplets_eq, ok_bind, hm1, hcol, e1]
  · rintro ⟨a, b⟩ he
    exact ((hup a b).1 he).1
  · apply upper_nodup
    intro col hc
    obtain ⟨c, hc⟩ := List.getElem?_of_mem hc
    exact (hm3 c col hc).1.imp fun h => Nat.ne_of_lt h
  · intro a b hab
    rw [hup]
    exact ⟨fun h => h.2, fun h => ⟨hab, h⟩⟩

/-- Two triangles with a common side. -/
example : ∃ r, computeMesh2DCell1Ds 4 [[0, 1, 2], [0, 2, 3]] = ok r ∧
    r.cell1Ds = [(0, 1), (0, 2), (1, 2), (0, 3), (2, 3)] ∧
    r.cell2Ds = [[(0, 0), (1, 2), (2, 1)], [(0, 1), (2, 4), (3, 3)]] :=
  ⟨_, rfl, rfl, rfl⟩

example : (∀ cell ∈ [[0, 1, 2], [0, 2, 3]], ∀ v ∈ cell, v < 4) ∧
    ∀ cell ∈ [[0, 1, 2], [0, 2, 3]], ∀ a, ¬Side cell a a := by
  refine ⟨by decide, ?_⟩
  intro cell hc a
  rw [side_iff]
  simp only [List.mem_cons, List.not_mem_nil, or_false] at hc
  rcases hc with rfl | rfl <;> simp [cycPairs] <;> omega

end Verif
