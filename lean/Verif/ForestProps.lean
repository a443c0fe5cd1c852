/-
Property theorems C07 and C08: the refinement forest.
-/
import Verif.ForestLemmas
import Verif.MeshProps

namespace Verif

open Res

variable {α : Type}

/-- Five faces; 0 was replaced by 1 and 2, 2 was replaced by 3 and 4. -/
def forestOps : List (Op Int) :=
  [.append .d2 3, .insertUpd .d2 0 1, .insertUpd .d2 0 2, .append .d2 2, .insertUpd .d2 2 3,
   .insertUpd .d2 2 4, .setAct .d2 4 true]

/-- The mesh after `forestOps`. -/
def forestMesh : Mesh Int :=
  match (Mesh.empty : Mesh Int).run forestOps with
  | ok m => m
  | _ => Mesh.empty

theorem forestMesh_run : (Mesh.empty : Mesh Int).run forestOps = ok forestMesh := rfl

theorem forestOps_notInit : ∀ o ∈ forestOps, o.notInit := by
  intro o ho
  simp only [forestOps, List.mem_cons, List.not_mem_nil, or_false] at ho
  rcases ho with rfl | rfl | rfl | rfl | rfl | rfl | rfl <;> trivial

theorem forestOps_upward : ∀ o ∈ forestOps, o.upward := by
  intro o ho
  simp only [forestOps, List.mem_cons, List.not_mem_nil, or_false] at ho
  rcases ho with rfl | rfl | rfl | rfl | rfl | rfl | rfl <;> simp [Op.upward]

/-- **C07**: on a well-formed mesh whose updated-cell links have no cycle,
`CellXDUpdatedCellXDs(c, ids)` returns (recursion depth at most the number of cells), appends to
`ids` exactly the cells without updated cells that descend from `c` and at least one, returns `true`
exactly when `c` has no updated cells, and appends no cell twice if every cell replaces at most one
cell. -/
theorem c07_updated_cells (m : Mesh α) (h : m.WF) (d : Dim) (ha : m.Acyclic d) (c : Nat)
    (hc : c < m.num d) :
    ∃ leaves b, (∀ fuel acc, m.num d < fuel → m.updatedCells d fuel c acc = ok (acc ++ leaves, b)) ∧
      (∀ x, x ∈ leaves ↔ m.Descends d c x ∧ m.updated d x = ok none) ∧ leaves ≠ [] ∧
      (b = true ↔ m.updated d c = ok none) ∧ (m.SingleParent d → leaves.Nodup) := by
  obtain ⟨L, h1, h2, h3, h4⟩ := Mesh.updatedCells_spec h ha _ c hc rfl
  have hlt : ∀ x, m.Descends d c x → x < m.num d := by
    intro x hx
    rcases Relation.ReflTransGen.cases_tail hx with rfl | ⟨p, _, hp⟩
    · exact hc
    · exact (Mesh.child_lt h hp).2
  refine ⟨L, (mapFind (m.upd d) c).isNone, ?_, ?_, h3, ?_, h4⟩
  · intro fuel acc hf
    exact h1 fuel acc (by have := m.rank_le d c; omega)
  · intro x
    rw [h2]
    constructor
    · rintro ⟨hx, hn⟩
      exact ⟨hx, by rw [Mesh.updated_of_lt (hlt x hx), hn]⟩
    · rintro ⟨hx, hn⟩
      rw [Mesh.updated_of_lt (hlt x hx)] at hn
      exact ⟨hx, by simpa using hn⟩
  · rw [Mesh.updated_of_lt hc]
    simp

/-- **C07**: the hypothesis of `c07_updated_cells` holds for every mesh that is built by any sequence
of calls without `CellXDsInitialize` in which an inserted updated cell has a larger number than the
cell that it replaces. -/
theorem c07_acyclic_of_calls [Zero α] (ops : List (Op α)) (m : Mesh α) (hn : ∀ o ∈ ops, o.notInit)
    (hup : ∀ o ∈ ops, o.upward) (h : Mesh.empty.run ops = ok m) (d : Dim) : m.Acyclic d := by
  obtain ⟨hu, hw⟩ := Mesh.run_upward (d := d) Mesh.empty_wf hn hup h
    (by intro p s hp; cases hp)
  exact Mesh.acyclic_of_upward hw hu

theorem forestMesh_wf : forestMesh.WF :=
  (Mesh.run_upward (d := .d2) Mesh.empty_wf forestOps_notInit forestOps_upward forestMesh_run
    (by intro p s hp; cases hp)).2

example : forestMesh.WF ∧ forestMesh.Acyclic .d2 ∧ 0 < forestMesh.num .d2 ∧
    forestMesh.updatedCells .d2 6 0 [] = ok ([1, 3, 4], false) ∧
    forestMesh.updatedCells .d2 6 3 [7] = ok ([7, 3], true) :=
  ⟨forestMesh_wf,
    c07_acyclic_of_calls forestOps _ forestOps_notInit forestOps_upward forestMesh_run .d2,
    by decide, by decide, by decide⟩

/-- Two faces that replace each other. -/
def cycleOps : List (Op Int) := [.append .d2 2, .insertUpd .d2 0 1, .insertUpd .d2 1 0]

/-- The mesh after `cycleOps`. -/
def cycleMesh : Mesh Int :=
  match (Mesh.empty : Mesh Int).run cycleOps with
  | ok m => m
  | _ => Mesh.empty

/-- The hypothesis of `c07_updated_cells` is needed: the store accepts updated-cell links that form a
cycle, and then the recursion does not end at any depth. -/
theorem c07_cycle_does_not_return (fuel : Nat) :
    (Mesh.empty : Mesh Int).run cycleOps = ok cycleMesh ∧ cycleMesh.updatedCells .d2 fuel 0 [] = loop := by
  refine ⟨rfl, ?_⟩
  have key : ∀ fuel acc, cycleMesh.updatedCells .d2 fuel 0 acc = loop ∧
      cycleMesh.updatedCells .d2 fuel 1 acc = loop := by
    intro fuel
    induction fuel with
    | zero => intro acc; exact ⟨rfl, rfl⟩
    | succ n ih =>
      intro acc
      have e0 : mapFind (cycleMesh.upd .d2) 0 = some [1] := by decide
      have e1 : mapFind (cycleMesh.upd .d2) 1 = some [0] := by decide
      constructor
      · rw [Mesh.updatedCells, assert_true (by decide), ok_bind, e0]
        simp only [foldRes_cons, (ih acc).2, loop_bind]
      · rw [Mesh.updatedCells, assert_true (by decide), ok_bind, e1]
        simp only [foldRes_cons, (ih acc).1, loop_bind]
  exact (key fuel []).1

/-- **C08**: after any sequence of calls on an empty mesh without `CellXDsInitialize` (appends,
removals, insertions of updated cells and all others) that appends at most 2^32 - 1 cells, a cell that
reports an original cell is listed among the updated cells of that cell. -/
theorem c08_links_agree [Zero α] (ops : List (Op α)) (m : Mesh α) (hn : ∀ o ∈ ops, o.notInit)
    (hk : (ops.map Op.load).sum ≤ UINT_MAX) (h : Mesh.empty.run ops = ok m) (d : Dim)
    (hd : d ≠ .d0) (x p : Nat) (ho : m.hasOriginal d x = ok true) (hp : m.original d x = ok p) :
    m.Child d p x := by
  obtain ⟨B, h1, h2⟩ := Mesh.run_orig (d := d) Mesh.empty_wf hn h hd (Nat.le_refl UINT_MAX)
    (by intro x p hx; cases hx) (by simpa [Mesh.empty] using hk)
  have hw : m.WF := Mesh.run_wf_of_ok Mesh.empty_wf
    (Mesh.along_of_forall (fun o ho m => Mesh.notInit_of (hn o ho)) _) h
  rw [Mesh.hasOriginal_of hp] at ho
  simp only [Res.ok.injEq, decide_eq_true_eq] at ho
  have hg : (m.orig d)[x]? = some p := by
    unfold Mesh.original at hp
    by_cases hx : x < m.num d
    · rw [assert_true hx, ok_bind] at hp
      cases hq : (m.orig d)[x]? with
      | none => rw [hq] at hp; cases hp
      | some q => rw [hq] at hp; cases hp; rfl
    · rw [assert_false hx] at hp; cases hp
  rcases h1 x p hg with h3 | ⟨s, hs, hx⟩
  · omega
  · exact (Mesh.child_iff hw).2 ⟨s, hs, hx⟩

example : (forestOps.map Op.load).sum ≤ UINT_MAX ∧ forestMesh.hasOriginal .d2 4 = ok true ∧
    forestMesh.original .d2 4 = ok 2 ∧ forestMesh.updated .d2 2 = ok (some [3, 4]) :=
  ⟨by decide, by decide, by decide, by decide⟩

/-- **C08**: if moreover inserted updated cells have larger numbers, `MeshCell2DRoots` returns (at most
as many rounds per cell as there are cells), and the root of each cell has no original cell and the
cell descends from it. -/
theorem c08_roots [Zero α] (ops : List (Op α)) (m : Mesh α) (hn : ∀ o ∈ ops, o.notInit)
    (hup : ∀ o ∈ ops, o.upward) (hk : (ops.map Op.load).sum ≤ UINT_MAX)
    (h : Mesh.empty.run ops = ok m) :
    ∃ roots, (∀ fuel, m.num .d2 ≤ fuel → m.cell2DRoots fuel = ok roots) ∧
      roots.length = m.num .d2 ∧
      ∀ c r, roots[c]? = some r → m.hasOriginal .d2 r = ok false ∧ m.Descends .d2 r c := by
  obtain ⟨B, h1, h2⟩ := Mesh.run_orig (d := .d2) Mesh.empty_wf hn h (by decide)
    (Nat.le_refl UINT_MAX) (by intro x p hx; cases hx) (by simpa [Mesh.empty] using hk)
  obtain ⟨hu, hw⟩ := Mesh.run_upward (d := .d2) Mesh.empty_wf hn hup h (by intro p s hp; cases hp)
  have key : ∀ c, ∃ r, c < m.num .d2 → (∀ fuel, c < fuel → m.rootLoop .d2 fuel c = ok r) ∧
      m.hasOriginal .d2 r = ok false ∧ m.Descends .d2 r c := by
    intro c
    by_cases hc : c < m.num .d2
    · obtain ⟨r, hr⟩ := Mesh.rootLoop_spec hw (by decide) h1 h2 hu c hc
      exact ⟨r, fun _ => hr⟩
    · exact ⟨0, fun h => absurd h hc⟩
  choose f hf using key
  refine ⟨(List.range (m.num .d2)).map f, ?_, by simp, ?_⟩
  · intro fuel hfuel
    unfold Mesh.cell2DRoots
    refine mapRes_eq_map ?_
    intro c hc
    have hc' : c < m.num .d2 := by simpa using hc
    exact (hf c hc').1 fuel (by omega)
  · intro c r hr
    have hlt : c < m.num .d2 := by
      by_contra hh
      rw [List.getElem?_eq_none (by simpa using hh)] at hr
      cases hr
    rw [List.getElem?_map, List.getElem?_range hlt] at hr
    cases hr
    exact (hf c hlt).2

example : forestMesh.cell2DRoots 5 = ok [0, 0, 0, 0, 0] ∧
    (forestMesh.remove .d2 0 >>= fun m => m.cell2DRoots 5) = ok [0, 1, 1, 1] :=
  ⟨by decide, by decide⟩

end Verif
