import Verif.FanMeshLemmas
import Verif.FanProps

/-
C121: groups of triangles are put together in a mesh.
-/
namespace Verif

open Res

variable {α : Type} [Zero α]

/-- C121, what is proved. Groups of triangles, each of them a fan of three or more triangles, that are active and have no
triangle and no inner edge in common, are put together: the mesh gets one polygon for every group, and the result lists the
polygons with their triangles, and the removed edges and triangles in ascending order. Missing: the neighbours, see
`c121_neighbours_violated`, and triangles all around a vertex, see `c120_closed_violated`. -/
theorem c121_agglomerate_partial {m : Mesh α} {gs : List FanGroup} (hw : m.WF) (hg : ∀ g ∈ gs, g.In m)
    (hs : Separate m gs) : ∃ r, m.agglomerateFans (gs.map FanGroup.triangles) = ok r ∧ IsAgglomerated m r.mesh gs ∧
      r.cells = gs.mapIdx (fun k g => (m.num .d2 + k, g.triangles)) ∧
      r.edges.Perm (gs.flatMap FanGroup.inner) ∧ r.edges.Pairwise (· ≤ ·) ∧
      r.polygons.Perm (gs.flatMap FanGroup.triangles) ∧ r.polygons.Pairwise (· ≤ ·) := by
  obtain ⟨m', hrun, h⟩ := fanMesh_fold gs ⟨m, [], [], []⟩ hw hg hs
  unfold Mesh.agglomerateFans
  rw [hrun, ok_bind]
  exact ⟨_, rfl, h, by simp, sortNat_perm _, sortNat_sorted _, sortNat_perm _, sortNat_sorted _⟩

/-- C121: a triangle or an inner edge that is not active, or that an earlier group has already, is refused. -/
theorem c121_refused {pre post : List FanGroup} {g : FanGroup} {m : Mesh α} (hw : m.WF)
    (hg : ∀ g' ∈ pre ++ [g], g'.In m) (hs : Separate m pre) (hi : ∀ x ∈ g.inner, x < m.num .d1)
    (hbad : ∃ e i, TakenOut [g] e i ∧ (TakenOut pre e i ∨ m.active e i = ok false)) :
    m.agglomerateFans ((pre ++ g :: post).map FanGroup.triangles) = abort :=
  fanMesh_refused hw hg hs hi hbad

/-! ### Examples and violations -/

/-- Four triangles around the vertex 0 and three around the vertex 6, which have the edge 5 between the vertices 1 and 2
in common; all edges know their polygons. -/
def twoFansOps : List (Op ℚ) :=
  [.append .d0 9, .append .d1 16,
   .insertExt 0 0 1, .insertExt 1 0 2, .insertExt 2 0 3, .insertExt 3 0 4, .insertExt 4 0 5,
   .insertExt 5 1 2, .insertExt 6 2 3, .insertExt 7 3 4, .insertExt 8 4 5,
   .insertExt 9 6 2, .insertExt 10 6 1, .insertExt 11 6 7, .insertExt 12 6 8,
   .insertExt 13 1 7, .insertExt 14 7 8,
   .append .d2 7, .addRow .vert2 0 [0, 1, 2], .addRow .edge2 0 [0, 5, 1],
   .addRow .vert2 1 [2, 3, 0], .addRow .edge2 1 [6, 2, 1], .addRow .vert2 2 [4, 0, 3], .addRow .edge2 2 [3, 2, 7],
   .addRow .vert2 3 [0, 4, 5], .addRow .edge2 3 [3, 8, 4],
   .addRow .vert2 4 [6, 2, 1], .addRow .edge2 4 [9, 5, 10], .addRow .vert2 5 [6, 1, 7], .addRow .edge2 5 [10, 13, 11],
   .addRow .vert2 6 [7, 8, 6], .addRow .edge2 6 [14, 12, 11],
   .setAct .d2 0 true, .setAct .d2 1 true, .setAct .d2 2 true, .setAct .d2 3 true, .setAct .d2 4 true,
   .setAct .d2 5 true, .setAct .d2 6 true,
   .setAct .d1 1 true, .setAct .d1 2 true, .setAct .d1 3 true, .setAct .d1 5 true, .setAct .d1 10 true,
   .setAct .d1 11 true, .resizeRow .nb12 5 2, .insertEntry .nb12 5 0 4, .insertEntry .nb12 5 1 0]

def twoFans : Mesh ℚ :=
  match Mesh.empty.run twoFansOps with
  | ok m => m
  | _ => Mesh.empty

theorem twoFans_run : (Mesh.empty : Mesh ℚ).run twoFansOps = ok twoFans := by
  have h : (match (Mesh.empty : Mesh ℚ).run twoFansOps with | ok _ => true | _ => false) = true := by
    decide +kernel
  unfold twoFans
  revert h
  cases (Mesh.empty : Mesh ℚ).run twoFansOps <;> simp

theorem twoFans_wf : twoFans.WF := by
  refine Mesh.run_wf_of_ok (ops := twoFansOps) Mesh.empty_wf (Mesh.along_of_forall ?_ _) twoFans_run
  intro o ho m
  have : ∀ o ∈ twoFansOps, (match o with
      | .init _ _ => false | .resetNeighbour _ _ _ => false | .insertProp _ _ _ _ _ => false | _ => true) = true := by
    decide +kernel
  have := this o ho
  cases o <;> first | trivial | simp at this

theorem twoFans_rows : twoFans.row .vert2 0 = ok [0, 1, 2] ∧ twoFans.row .edge2 0 = ok [0, 5, 1] ∧
    twoFans.row .vert2 1 = ok [2, 3, 0] ∧ twoFans.row .edge2 1 = ok [6, 2, 1] ∧
    twoFans.row .vert2 2 = ok [4, 0, 3] ∧ twoFans.row .edge2 2 = ok [3, 2, 7] ∧
    twoFans.row .vert2 3 = ok [0, 4, 5] ∧ twoFans.row .edge2 3 = ok [3, 8, 4] ∧
    twoFans.row .vert2 4 = ok [6, 2, 1] ∧ twoFans.row .edge2 4 = ok [9, 5, 10] ∧
    twoFans.row .vert2 5 = ok [6, 1, 7] ∧ twoFans.row .edge2 5 = ok [10, 13, 11] ∧
    twoFans.row .vert2 6 = ok [7, 8, 6] ∧ twoFans.row .edge2 6 = ok [14, 12, 11] := by decide +kernel

def fanOne : FanGroup := ⟨[0, 1, 2, 3], 0, [1, 2, 3, 4, 5], [0, 1, 2, 3, 4], [5, 6, 7, 8]⟩
def fanTwo : FanGroup := ⟨[4, 5, 6], 6, [2, 1, 7, 8], [9, 10, 11, 12], [5, 13, 14]⟩

theorem fanOne_in : fanOne.In twoFans := by
  obtain ⟨v0, e0, v1, e1, v2, e2, v3, e3, -⟩ := twoFans_rows
  refine ⟨⟨rfl, rfl, rfl, ?_, by decide, by decide, by decide⟩, by decide, by decide +kernel, by decide +kernel⟩
  intro i t b c e f g ht hb hc he hf hg
  have hi : i < 4 := (List.getElem?_eq_some_iff.1 ht).1
  rcases (by omega : i = 0 ∨ i = 1 ∨ i = 2 ∨ i = 3) with rfl | rfl | rfl | rfl
  · cases ht; cases hb; cases hc; cases he; cases hf; cases hg
    exact Or.inl ⟨v0, e0⟩
  · cases ht; cases hb; cases hc; cases he; cases hf; cases hg
    exact Or.inr (Or.inl ⟨v1, e1⟩)
  · cases ht; cases hb; cases hc; cases he; cases hf; cases hg
    exact Or.inr (Or.inr ⟨v2, e2⟩)
  · cases ht; cases hb; cases hc; cases he; cases hf; cases hg
    exact Or.inl ⟨v3, e3⟩

theorem fanTwo_in : fanTwo.In twoFans := by
  obtain ⟨-, -, -, -, -, -, -, -, v4, e4, v5, e5, v6, e6⟩ := twoFans_rows
  refine ⟨⟨rfl, rfl, rfl, ?_, by decide, by decide, by decide⟩, by decide, by decide +kernel, by decide +kernel⟩
  intro i t b c e f g ht hb hc he hf hg
  have hi : i < 3 := (List.getElem?_eq_some_iff.1 ht).1
  rcases (by omega : i = 0 ∨ i = 1 ∨ i = 2) with rfl | rfl | rfl
  · cases ht; cases hb; cases hc; cases he; cases hf; cases hg
    exact Or.inl ⟨v4, e4⟩
  · cases ht; cases hb; cases hc; cases he; cases hf; cases hg
    exact Or.inl ⟨v5, e5⟩
  · cases ht; cases hb; cases hc; cases he; cases hf; cases hg
    exact Or.inr (Or.inl ⟨v6, e6⟩)

theorem twoFans_separate : Separate twoFans [fanOne, fanTwo] := by
  refine ⟨by decide +kernel, by decide +kernel, ?_⟩
  have h2 : ∀ i ∈ [0, 1, 2, 3, 4, 5, 6], twoFans.active .d2 i = ok true := by decide +kernel
  have h1 : ∀ i ∈ [1, 2, 3, 10, 11], twoFans.active .d1 i = ok true := by decide +kernel
  have s2 : ∀ i, i ∈ fanOne.triangles ∨ i ∈ fanTwo.triangles → i ∈ [0, 1, 2, 3, 4, 5, 6] := by
    intro i hi
    have := List.mem_append.2 hi
    exact this
  have s1 : ∀ i, i ∈ fanOne.inner ∨ i ∈ fanTwo.inner → i ∈ [1, 2, 3, 10, 11] := by
    intro i hi
    have := List.mem_append.2 hi
    exact this
  rintro e i ⟨g, hg, ⟨rfl, hi⟩ | ⟨rfl, hi⟩⟩
  · simp only [List.mem_cons, List.not_mem_nil, or_false] at hg
    rcases hg with rfl | rfl
    · exact h2 i (s2 i (Or.inl hi))
    · exact h2 i (s2 i (Or.inr hi))
  · simp only [List.mem_cons, List.not_mem_nil, or_false] at hg
    rcases hg with rfl | rfl
    · exact h1 i (s1 i (Or.inl hi))
    · exact h1 i (s1 i (Or.inr hi))

/-- The two fans meet the hypotheses. -/
example : ∃ r, twoFans.agglomerateFans [[0, 1, 2, 3], [4, 5, 6]] = ok r ∧ IsAgglomerated twoFans r.mesh [fanOne, fanTwo] ∧
    r.cells = [(7, [0, 1, 2, 3]), (8, [4, 5, 6])] ∧ r.mesh.row .vert2 8 = ok [6, 2, 1, 7, 8] := by
  obtain ⟨r, h1, h2, h3, -⟩ := c121_agglomerate_partial twoFans_wf (gs := [fanOne, fanTwo])
    (by intro g hg
        simp only [List.mem_cons, List.not_mem_nil, or_false] at hg
        rcases hg with rfl | rfl
        · exact fanOne_in
        · exact fanTwo_in) twoFans_separate
  have hn : twoFans.num .d2 = 7 := by decide +kernel
  have hc := (h2.cells 1 fanTwo rfl).vertices
  rw [hn] at hc
  exact ⟨r, h1, h2, by rw [h3, hn]; rfl, hc⟩

/-- The second fan given twice is refused. -/
example : twoFans.agglomerateFans [[4, 5, 6], [4, 5, 6]] = abort :=
  c121_refused (pre := [fanTwo]) (post := []) (g := fanTwo) twoFans_wf
    (by intro g hg
        simp only [List.singleton_append, List.mem_cons, List.not_mem_nil, or_false] at hg
        rcases hg with rfl | rfl <;> exact fanTwo_in)
    ⟨by decide +kernel, by decide +kernel, fun e i h => twoFans_separate.active e i (by
      obtain ⟨g, hg, q⟩ := h
      exact ⟨g, by simp only [List.mem_singleton] at hg; simp [hg], q⟩)⟩
    (by decide +kernel) ⟨.d2, 4, ⟨fanTwo, by simp, Or.inl ⟨rfl, by decide⟩⟩, Or.inl ⟨fanTwo, by simp, Or.inl ⟨rfl, by decide⟩⟩⟩

/-- The polygons of an edge, and whether the edge and these polygons are active. -/
def edgeReport (m : Mesh ℚ) (e : Nat) : Res (Bool × List Nat × List Bool) := do
  let a ← m.active .d1 e
  let r ← m.row .nb12 e
  let b ← mapRes (m.active .d2) r
  ok (a, r, b)

/-- C121 does not hold for the neighbours: the edge 5, which is an edge of both new polygons 7 and 8 and stays active, knew
the triangles 4 and 0; it knows them still, although they are not active any more, and it does not know the new polygons. -/
theorem c121_neighbours_violated : ∃ r, twoFans.agglomerateFans [[0, 1, 2, 3], [4, 5, 6]] = ok r ∧
    r.mesh.row .edge2 7 = ok [0, 5, 6, 7, 8, 4] ∧ r.mesh.row .edge2 8 = ok [9, 5, 13, 14, 12] ∧
    edgeReport twoFans 5 = ok (true, [4, 0], [true, true]) ∧
    edgeReport r.mesh 5 = ok (true, [4, 0], [false, false]) := by
  have h : (match twoFans.agglomerateFans [[0, 1, 2, 3], [4, 5, 6]] with
    | ok r => decide (r.mesh.row .edge2 7 = ok [0, 5, 6, 7, 8, 4] ∧ r.mesh.row .edge2 8 = ok [9, 5, 13, 14, 12] ∧
        edgeReport twoFans 5 = ok (true, [4, 0], [true, true]) ∧
        edgeReport r.mesh 5 = ok (true, [4, 0], [false, false]))
    | _ => false) = true := by decide +kernel
  revert h
  cases twoFans.agglomerateFans [[0, 1, 2, 3], [4, 5, 6]] with
  | ok r => intro h; exact ⟨r, rfl, of_decide_eq_true h⟩
  | _ => intro h; cases h

end Verif
