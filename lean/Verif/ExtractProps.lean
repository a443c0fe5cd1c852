import Verif.ExtractLemmas2
import Mathlib.Algebra.Order.Ring.Int

/-
C57: filtering and extracting a part of a mesh.
-/
namespace Verif

open Res

variable {α : Type}

/-! ### Concrete meshes -/

/-- Two tetrahedra over five points that share a face; the first has marker 4, one point has marker 7, and
one face is inactive. -/
def twoTetra : Mesh Int :=
  (⟨3, [⟨0, 0, 0, 0, true⟩, ⟨1, 0, 0, 7, true⟩, ⟨0, 1, 0, 0, true⟩, ⟨0, 0, 1, 0, true⟩, ⟨0, 0, -1, 0, true⟩],
    [⟨0, 1, 0, true, []⟩, ⟨1, 2, 3, true, []⟩, ⟨2, 0, 0, true, []⟩, ⟨0, 3, 0, true, []⟩, ⟨1, 3, 0, true, []⟩,
      ⟨2, 3, 0, true, []⟩, ⟨0, 4, 0, true, []⟩, ⟨1, 4, 0, true, []⟩, ⟨2, 4, 0, true, []⟩],
    [⟨[0, 1, 2], [0, 1, 2], 0, true⟩, ⟨[0, 1, 3], [0, 4, 3], 0, true⟩, ⟨[1, 2, 3], [1, 5, 4], 0, true⟩,
      ⟨[2, 0, 3], [2, 3, 5], 0, true⟩, ⟨[0, 1, 4], [0, 7, 6], 0, true⟩, ⟨[1, 2, 4], [1, 8, 7], 0, false⟩,
      ⟨[2, 0, 4], [2, 6, 8], 0, true⟩],
    [⟨[0, 1, 2, 3], [0, 1, 2, 3, 4, 5], [0, 1, 2, 3], 4, true⟩,
      ⟨[0, 1, 2, 4], [0, 1, 2, 6, 7, 8], [0, 4, 5, 6], 5, true⟩]⟩ : MeshData Int).mesh

theorem twoTetra_wf : twoTetra.WF := MeshData.mesh_wf _

/-- Two triangles over four points and one edge without polygon; one point has marker 7, one edge is
inactive. -/
def twoTriangles : Mesh Int :=
  (⟨2, [⟨0, 0, 0, 0, true⟩, ⟨1, 0, 0, 7, true⟩, ⟨1, 1, 0, 0, true⟩, ⟨0, 1, 0, 0, true⟩, ⟨5, 5, 0, 0, true⟩],
    [⟨0, 1, 0, true, []⟩, ⟨1, 2, 3, true, []⟩, ⟨2, 0, 0, false, []⟩, ⟨2, 3, 0, true, []⟩, ⟨3, 0, 0, true, []⟩,
      ⟨3, 4, 0, true, []⟩],
    [⟨[0, 1, 2], [0, 1, 2], 0, false⟩, ⟨[0, 2, 3], [2, 3, 4], 6, true⟩], []⟩ : MeshData Int).mesh

theorem twoTriangles_wf : twoTriangles.WF := MeshData.mesh_wf _

/-- Check a property of the value of a call, when there is one. -/
def Res.allOk {β : Type} (r : Res β) (p : β → Bool) : Bool :=
  match r with
  | ok b => p b
  | _ => true

theorem Res.allOk_spec {β : Type} {r : Res β} {p : β → Bool} (h : r.allOk p = true) (b : β) (hb : r = ok b) :
    p b = true := by
  subst hb; exact h

namespace Mesh

/-- Computable form of `ValidFilter`. -/
def checkValid (m : Mesh α) (f : Dim → List Nat) : Bool :=
  [Dim.d0, .d1, .d2, .d3].all (fun d => decide (f d).Nodup && (f d).all (fun x => decide (x < m.num d)) &&
    decide ((f d).length ≤ UINT_MAX)) &&
  (f .d1).all (fun x => (m.extremes x).allOk fun e => decide (e.1 < m.num .d0) && decide (e.2 < m.num .d0)) &&
  [Lst.vert2, .edge2, .vert3, .edge3, .face3].all (fun l => (f l.owner).all fun x => (m.row l x).allOk fun r =>
    r.all fun y => decide (y < m.num l.target)) &&
  (f .d2).all (fun x => (m.row .vert2 x).allOk fun r => (m.row .edge2 x).allOk fun s =>
    decide (r.length = s.length))

/-- Computable form of `ClosedFilter`. -/
def checkClosed (m : Mesh α) (f : Dim → List Nat) : Bool :=
  (f .d1).all (fun x => (m.extremes x).allOk fun e => decide (e.1 ∈ f .d0) && decide (e.2 ∈ f .d0)) &&
  [Lst.vert2, .edge2, .vert3, .edge3, .face3].all (fun l => (f l.owner).all fun x => (m.row l x).allOk fun r =>
    r.all fun y => decide (y ∈ f l.target))

theorem valid_of_check {m : Mesh α} {f : Dim → List Nat} (h : m.checkValid f = true) : m.ValidFilter f := by
  simp only [checkValid, Bool.and_eq_true, List.all_eq_true, decide_eq_true_eq] at h
  obtain ⟨⟨⟨h1, h2⟩, h3⟩, h4⟩ := h
  have hd : ∀ d : Dim, d ∈ [Dim.d0, .d1, .d2, .d3] := by intro d; cases d <;> simp
  refine ⟨fun d => (h1 d (hd d)).1.1, fun d => (h1 d (hd d)).1.2, fun d => (h1 d (hd d)).2, ?_, ?_, ?_⟩
  · intro x hx a b hab
    have := Res.allOk_spec (h2 x hx) _ hab
    simpa using this
  · intro l hl x hx r hr
    have hm : l ∈ [Lst.vert2, .edge2, .vert3, .edge3, .face3] := by
      cases l <;> simp [Lst.isKept] at hl ⊢
    have := Res.allOk_spec (h3 l hm x hx) _ hr
    simpa using this
  · intro x hx r s hr hs
    have := Res.allOk_spec (Res.allOk_spec (h4 x hx) _ hr) _ hs
    simpa using this

theorem closed_of_check {m : Mesh α} {f : Dim → List Nat} (h : m.checkClosed f = true) :
    m.ClosedFilter f := by
  simp only [checkClosed, Bool.and_eq_true, List.all_eq_true] at h
  obtain ⟨h2, h3⟩ := h
  refine ⟨?_, ?_⟩
  · intro x hx a b hab
    have := Res.allOk_spec (h2 x hx) _ hab
    simpa using this
  · intro l hl x hx r hr
    have hm : l ∈ [Lst.vert2, .edge2, .vert3, .edge3, .face3] := by
      cases l <;> simp [Lst.isKept] at hl ⊢
    have := Res.allOk_spec (h3 l hm x hx) _ hr
    simpa using this

end Mesh

/-! ### Filters -/

/-- C57: `FilterMesh1D` returns the active edges among the given ones, in the given order, and the set of
their extremes in increasing order. -/
theorem c57_filter_1d (m : Mesh α) (h : m.WF) (cells : List Nat) (hc : ∀ c ∈ cells, c < m.num .d1) :
    ∃ F, m.filterMesh1D cells = ok F ∧ m.IsActiveAmong .d1 cells F.c1 ∧
      Mesh.Lists F.c0 (fun x => ∃ c ∈ F.c1, ∃ a b, m.extremes c = ok (a, b) ∧ (x = a ∨ x = b)) ∧
      F.c2 = [] ∧ F.c3 = [] := by
  obtain ⟨F, e, h1, h0, h2, h3⟩ := Mesh.filterMesh1D_eq h hc
  exact ⟨F, e, ⟨_, fun c hm => Mesh.active_keeps h (hc c hm), h1⟩, h0, h2, h3⟩

example : ∃ F, twoTriangles.filterMesh1D [4, 2, 0] = ok F ∧ F.c1 = [4, 0] ∧ F.c0 = [0, 1, 3] :=
  ⟨_, rfl, rfl, rfl⟩

example : ∀ c ∈ [4, 2, 0], c < twoTriangles.num .d1 := by decide

/-- C57: `FilterMesh2D` returns the active polygons among the given ones, in the given order, and the sets
of their vertices and edges in increasing order. -/
theorem c57_filter_2d (m : Mesh α) (h : m.WF) (cells : List Nat) (hc : ∀ c ∈ cells, c < m.num .d2)
    (hl : ∀ c ∈ cells, ∀ r s, m.row .vert2 c = ok r → m.row .edge2 c = ok s → r.length = s.length) :
    ∃ F, m.filterMesh2D cells = ok F ∧ m.IsActiveAmong .d2 cells F.c2 ∧
      Mesh.Lists F.c0 (m.Names .vert2 F.c2) ∧ Mesh.Lists F.c1 (m.Names .edge2 F.c2) ∧ F.c3 = [] := by
  obtain ⟨F, e, h2, h0, h1, h3⟩ := Mesh.filterMesh2D_eq h hc hl
  exact ⟨F, e, ⟨_, fun c hm => Mesh.active_keeps h (hc c hm), h2⟩, by rw [h2]; exact h0,
    by rw [h2]; exact h1, h3⟩

example : ∃ F, twoTriangles.filterMesh2D [1, 0] = ok F ∧ F.c2 = [1] ∧ F.c1 = [2, 3, 4] ∧ F.c0 = [0, 2, 3] :=
  ⟨_, rfl, rfl, rfl, rfl⟩

example : (∀ c ∈ [1, 0], c < twoTriangles.num .d2) ∧
    ∀ c ∈ [1, 0], ∀ r s, twoTriangles.row .vert2 c = ok r → twoTriangles.row .edge2 c = ok s →
      r.length = s.length := by
  refine ⟨by decide, ?_⟩
  intro c hc r s hr hs
  have key : ∀ c ∈ [1, 0], ((twoTriangles.row .vert2 c).allOk fun r => (twoTriangles.row .edge2 c).allOk
    fun s => decide (r.length = s.length)) = true := by decide +kernel
  simpa using Res.allOk_spec (Res.allOk_spec (key c hc) _ hr) _ hs

/-- C57: `FilterMesh3D` returns the active polyhedra among the given ones, in the given order, and the sets
of their vertices, edges and faces in increasing order. -/
theorem c57_filter_3d (m : Mesh α) (h : m.WF) (cells : List Nat) (hc : ∀ c ∈ cells, c < m.num .d3) :
    ∃ F, m.filterMesh3D cells = ok F ∧ m.IsActiveAmong .d3 cells F.c3 ∧
      Mesh.Lists F.c0 (m.Names .vert3 F.c3) ∧ Mesh.Lists F.c1 (m.Names .edge3 F.c3) ∧
      Mesh.Lists F.c2 (m.Names .face3 F.c3) := by
  obtain ⟨F, e, h3, h0, h1, h2⟩ := Mesh.filterMesh3D_eq h hc
  exact ⟨F, e, ⟨_, fun c hm => Mesh.active_keeps h (hc c hm), h3⟩, by rw [h3]; exact h0,
    by rw [h3]; exact h1, by rw [h3]; exact h2⟩

example : ∃ F, twoTetra.filterMesh3D [1] = ok F ∧ F.c3 = [1] ∧ F.c2 = [0, 4, 5, 6] ∧
    F.c1 = [0, 1, 2, 6, 7, 8] ∧ F.c0 = [0, 1, 2, 4] := ⟨_, rfl, rfl, rfl, rfl, rfl⟩

example : ∀ c ∈ [1], c < twoTetra.num .d3 := by decide

/-! ### Extraction -/

/-- C57, one dimension. For selected points and edges that exist, without repetitions, `ExtractMesh1D` on
an empty mesh returns the restriction and both maps when all extremes of selected edges are selected, and
stops at an assertion otherwise.

Partial: the property also asks for the markers and states of the selected cells, as in 2D and 3D; see
`c57_extract_1d_violated`. -/
theorem c57_extract_1d_partial [Zero α] (m : Mesh α) (h : m.WF) (f0 f1 : List Nat)
    (hv : m.ValidFilter (CellLists.cells ⟨f0, f1, [], []⟩)) :
    (m.ClosedFilter (CellLists.cells ⟨f0, f1, [], []⟩) →
      ∃ d m', Mesh.extractMesh1D f0 f1 m Mesh.empty = ok (d, m') ∧ m'.WF ∧ m'.dimension = 1 ∧
        m.Extracted (CellLists.cells ⟨f0, f1, [], []⟩) m' ∧ m'.AllActive ∧ (∀ d, m'.Unmarked d) ∧
        m.MapsOf ⟨f0, f1, [], []⟩ d [.d0, .d1]) ∧
    (¬ m.ClosedFilter (CellLists.cells ⟨f0, f1, [], []⟩) →
      Mesh.extractMesh1D f0 f1 m Mesh.empty = abort) := by
  obtain ⟨o0, o1, o2, o3, ps, es, fs, cs, e0, e1, _, _, i0, i1, _, _, hcol⟩ := Mesh.collect_eq h hv
  obtain rfl : fs = [] := by
    have := hcol.polygons; exact List.forall₂_nil_left_iff.1 this
  obtain rfl : cs = [] := by
    have := hcol.polyhedra; exact List.forall₂_nil_left_iff.1 this
  have hiff := hcol.range_iff hv.small
  simp only [CellLists.cells] at e0 e1 i0 i1
  have e := MeshData.fillMesh1D'_eq ps es
  unfold Mesh.extractMesh1D
  simp only [e0, ok_bind, e1]
  constructor
  · intro hc
    rw [if_pos (hiff.2 hc).1] at e
    obtain ⟨m1, k1, k2⟩ := bind_eq_ok.1 e
    obtain ⟨h1, h2, h3, h4, h5, h6, h7, h8, h9⟩ := MeshData.filled_reports 1 ps es [] [] [] rfl
    rw [k1, ok_bind, k2, ok_bind]
    refine ⟨_, _, rfl, h1, h2, hcol.extracted hc h3 h4 h5 h6 h9, h7, h8, rfl, ?_⟩
    intro d hd
    simp only [List.mem_cons, List.not_mem_nil, or_false] at hd
    rcases hd with rfl | rfl
    · exact i0
    · exact i1
  · intro hc
    have hne : ¬ EdgesInRange ps.length es := fun he => hc (hiff.1 ⟨he, by simp [RowsInRange]⟩)
    rw [if_neg hne] at e
    cases k : ({ (Mesh.empty : Mesh α) with dimension := 1 } : Mesh α).fillPoints ps with
    | ok m1 =>
      rw [k, ok_bind] at e
      simp only [ok_bind, e]
      rfl
    | abort => rfl
    | _ => rw [k] at e; cases e

/-- Two edges of the triangles, the second point first. -/
example : twoTriangles.ValidFilter (CellLists.cells ⟨[1, 0, 2], [1, 0], [], []⟩) ∧
    twoTriangles.ClosedFilter (CellLists.cells ⟨[1, 0, 2], [1, 0], [], []⟩) :=
  ⟨Mesh.valid_of_check (by decide +kernel), Mesh.closed_of_check (by decide +kernel)⟩

/-- An edge without its second extreme. -/
example : Mesh.extractMesh1D [1, 0] [1] twoTriangles Mesh.empty = abort := by
  refine (c57_extract_1d_partial twoTriangles twoTriangles_wf [1, 0] [1]
    (Mesh.valid_of_check (by decide +kernel))).2 fun h => ?_
  have := (h.extremes 1 (by decide) 1 2 rfl).2
  revert this
  decide

/-- C57, violated: `ExtractMesh1D` loses the markers and the states. Point 1 of the mesh has marker 7, edge
2 is inactive; in the extracted mesh the point has marker 0 and the edge is active. -/
theorem c57_extract_1d_violated :
    twoTriangles.ValidFilter (CellLists.cells ⟨[0, 1, 2], [0, 2], [], []⟩) ∧
    twoTriangles.ClosedFilter (CellLists.cells ⟨[0, 1, 2], [0, 2], [], []⟩) ∧
    ∃ d m', Mesh.extractMesh1D [0, 1, 2] [0, 2] twoTriangles Mesh.empty = ok (d, m') ∧
      twoTriangles.marker .d0 1 = ok 7 ∧ m'.marker .d0 1 = ok 0 ∧
      twoTriangles.active .d1 2 = ok false ∧ m'.active .d1 1 = ok true ∧
      ¬ twoTriangles.SameMarkers (CellLists.cells ⟨[0, 1, 2], [0, 2], [], []⟩) m' ∧
      ¬ twoTriangles.SameStates (CellLists.cells ⟨[0, 1, 2], [0, 2], [], []⟩) m' := by
  have hv : twoTriangles.ValidFilter (CellLists.cells ⟨[0, 1, 2], [0, 2], [], []⟩) :=
    Mesh.valid_of_check (by decide +kernel)
  have hc : twoTriangles.ClosedFilter (CellLists.cells ⟨[0, 1, 2], [0, 2], [], []⟩) :=
    Mesh.closed_of_check (by decide +kernel)
  obtain ⟨d, m', e, _, _, hx, ha, hu, _⟩ :=
    (c57_extract_1d_partial twoTriangles twoTriangles_wf _ _ hv).1 hc
  have n0 : m'.num .d0 = 3 := hx.num .d0
  have n1 : m'.num .d1 = 2 := hx.num .d1
  have k1 : m'.marker .d0 1 = ok 0 := hu .d0 1 (by omega)
  have k2 : m'.active .d1 1 = ok true := ha .d1 1 (by omega)
  refine ⟨hv, hc, d, m', e, rfl, k1, rfl, k2, ?_, ?_⟩
  · intro hs
    have := hs .d0 1 1 rfl
    rw [k1] at this
    cases this
  · intro hs
    have := hs .d1 1 2 rfl
    rw [k2] at this
    cases this

/-- C57, two dimensions. For selected points, edges and polygons that exist, without repetitions,
`ExtractMesh2D` on an empty mesh returns the restriction with markers and states, and both maps, when
together with a cell all cells that it names are selected; otherwise it stops at an assertion. -/
theorem c57_extract_2d [Zero α] (m : Mesh α) (h : m.WF) (f0 f1 f2 : List Nat)
    (hv : m.ValidFilter (CellLists.cells ⟨f0, f1, f2, []⟩)) :
    (m.ClosedFilter (CellLists.cells ⟨f0, f1, f2, []⟩) →
      ∃ d m', Mesh.extractMesh2D f0 f1 f2 m Mesh.empty = ok (d, m') ∧ m'.WF ∧ m'.dimension = 2 ∧
        m.Extracted (CellLists.cells ⟨f0, f1, f2, []⟩) m' ∧
        m.SameMarkers (CellLists.cells ⟨f0, f1, f2, []⟩) m' ∧
        m.SameStates (CellLists.cells ⟨f0, f1, f2, []⟩) m' ∧
        m.MapsOf ⟨f0, f1, f2, []⟩ d [.d0, .d1, .d2]) ∧
    (¬ m.ClosedFilter (CellLists.cells ⟨f0, f1, f2, []⟩) →
      Mesh.extractMesh2D f0 f1 f2 m Mesh.empty = abort) := by
  obtain ⟨o0, o1, o2, o3, ps, es, fs, cs, e0, e1, e2, _, i0, i1, i2, _, hcol⟩ := Mesh.collect_eq h hv
  obtain rfl : cs = [] := by
    have := hcol.polyhedra; exact List.forall₂_nil_left_iff.1 this
  have hiff := hcol.range_iff hv.small
  simp only [CellLists.cells] at e0 e1 e2 i0 i1 i2
  unfold Mesh.extractMesh2D
  rw [e0, ok_bind]
  simp only
  rw [e1, ok_bind]
  simp only
  rw [e2, ok_bind]
  simp only
  rw [MeshData.fillMesh2D_eq]
  constructor
  · intro hc
    obtain ⟨r1, r2, r3, _⟩ := hiff.2 hc
    rw [if_pos ⟨r1, r2, r3⟩, ok_bind]
    obtain ⟨h1, h2, h3, h4, h5, h6, h7, h8, h9⟩ := MeshData.filled_reports 2 ps es
      (fs.map (·.map Prod.fst)) (fs.map (·.map Prod.snd)) [] (by simp)
    have hx := hcol.extracted hc h3 h4 h5 h6 h9
    obtain ⟨m0, a0, w0, d0, x0, s0, t0⟩ := Mesh.copyMarks_extracted (d := .d0) h h1 (hv.range .d0) hx
    obtain ⟨m1, a1, w1, d1, x1, s1, t1⟩ := Mesh.copyMarks_extracted (d := .d1) h w0 (hv.range .d1) x0
    obtain ⟨m2, a2, w2, d2, x2, s2, t2⟩ := Mesh.copyMarks_extracted (d := .d2) h w1 (hv.range .d2) x1
    simp only [CellLists.cells] at a0 a1 a2
    rw [a0, ok_bind, a1, ok_bind, a2, ok_bind]
    have both : ∀ (d : Dim) (i x : Nat), (CellLists.cells ⟨f0, f1, f2, []⟩ d)[i]? = some x →
        m2.marker d i = m.marker d x ∧ m2.active d i = m.active d x := by
      intro d i x hi
      cases d with
      | d0 =>
        obtain ⟨u, v⟩ := t2 .d0 (by decide) i
        obtain ⟨u', v'⟩ := t1 .d0 (by decide) i
        rw [u, v, u', v']
        exact s0 i x hi
      | d1 =>
        obtain ⟨u, v⟩ := t2 .d1 (by decide) i
        rw [u, v]
        exact s1 i x hi
      | d2 => exact s2 i x hi
      | d3 => simp [CellLists.cells] at hi
    refine ⟨_, _, rfl, w2, by rw [d2, d1, d0, h2], x2, fun d i x hi => (both d i x hi).1,
      fun d i x hi => (both d i x hi).2, rfl, ?_⟩
    intro d hd
    simp only [List.mem_cons, List.not_mem_nil, or_false] at hd
    rcases hd with rfl | rfl | rfl
    · exact i0
    · exact i1
    · exact i2
  · intro hc
    rw [if_neg]
    · rfl
    · rintro ⟨r1, r2, r3⟩
      exact hc (hiff.1 ⟨r1, r2, r3, by simp [RowsInRange]⟩)

/-- The second triangle, with its points in another order. -/
example : twoTriangles.ValidFilter (CellLists.cells ⟨[3, 0, 2], [4, 2, 3], [1], []⟩) ∧
    twoTriangles.ClosedFilter (CellLists.cells ⟨[3, 0, 2], [4, 2, 3], [1], []⟩) :=
  ⟨Mesh.valid_of_check (by decide +kernel), Mesh.closed_of_check (by decide +kernel)⟩

/-- The second triangle without one of its edges. -/
example : Mesh.extractMesh2D [0, 2, 3] [2, 3] [1] twoTriangles Mesh.empty = abort := by
  refine (c57_extract_2d twoTriangles twoTriangles_wf [0, 2, 3] [2, 3] [1]
    (Mesh.valid_of_check (by decide +kernel))).2 fun h => ?_
  have := h.rows .edge2 rfl 1 (by decide) [2, 3, 4] rfl 4 (by decide)
  revert this
  decide

/-- C57, three dimensions. The same for `ExtractMesh3D`. -/
theorem c57_extract_3d [Zero α] (m : Mesh α) (h : m.WF) (f : CellLists) (hv : m.ValidFilter f.cells) :
    (m.ClosedFilter f.cells →
      ∃ d m', Mesh.extractMesh3D f.c0 f.c1 f.c2 f.c3 m Mesh.empty = ok (d, m') ∧ m'.WF ∧
        m'.dimension = 3 ∧ m.Extracted f.cells m' ∧ m.SameMarkers f.cells m' ∧
        m.SameStates f.cells m' ∧ m.MapsOf f d [.d0, .d1, .d2, .d3]) ∧
    (¬ m.ClosedFilter f.cells → Mesh.extractMesh3D f.c0 f.c1 f.c2 f.c3 m Mesh.empty = abort) := by
  obtain ⟨o0, o1, o2, o3, ps, es, fs, cs, e0, e1, e2, e3, i0, i1, i2, i3, hcol⟩ := Mesh.collect_eq h hv
  have hiff := hcol.range_iff hv.small
  simp only [CellLists.cells] at e0 e1 e2 e3 i0 i1 i2 i3
  unfold Mesh.extractMesh3D
  rw [e0, ok_bind]
  simp only
  rw [e1, ok_bind]
  simp only
  rw [e2, ok_bind]
  simp only
  rw [e3, ok_bind]
  simp only
  rw [MeshData.fillMesh3D_eq]
  constructor
  · intro hc
    rw [if_pos (hiff.2 hc), ok_bind]
    obtain ⟨h1, h2, h3, h4, h5, h6, h7, h8, h9⟩ := MeshData.filled_reports 3 ps es
      (fs.map (·.map Prod.fst)) (fs.map (·.map Prod.snd)) cs (by simp)
    have hx := hcol.extracted hc h3 h4 h5 h6 h9
    obtain ⟨m0, a0, w0, d0, x0, s0, t0⟩ := Mesh.copyMarks_extracted (d := .d0) h h1 (hv.range .d0) hx
    obtain ⟨m1, a1, w1, d1, x1, s1, t1⟩ := Mesh.copyMarks_extracted (d := .d1) h w0 (hv.range .d1) x0
    obtain ⟨m2, a2, w2, d2, x2, s2, t2⟩ := Mesh.copyMarks_extracted (d := .d2) h w1 (hv.range .d2) x1
    obtain ⟨m3, a3, w3, d3, x3, s3, t3⟩ := Mesh.copyMarks_extracted (d := .d3) h w2 (hv.range .d3) x2
    simp only [CellLists.cells] at a0 a1 a2 a3
    rw [a0, ok_bind, a1, ok_bind, a2, ok_bind, a3, ok_bind]
    have both : ∀ (d : Dim) (i x : Nat), (f.cells d)[i]? = some x →
        m3.marker d i = m.marker d x ∧ m3.active d i = m.active d x := by
      intro d i x hi
      cases d with
      | d0 =>
        obtain ⟨u, v⟩ := t3 .d0 (by decide) i
        obtain ⟨u', v'⟩ := t2 .d0 (by decide) i
        obtain ⟨u'', v''⟩ := t1 .d0 (by decide) i
        rw [u, v, u', v', u'', v'']
        exact s0 i x hi
      | d1 =>
        obtain ⟨u, v⟩ := t3 .d1 (by decide) i
        obtain ⟨u', v'⟩ := t2 .d1 (by decide) i
        rw [u, v, u', v']
        exact s1 i x hi
      | d2 =>
        obtain ⟨u, v⟩ := t3 .d2 (by decide) i
        rw [u, v]
        exact s2 i x hi
      | d3 => exact s3 i x hi
    refine ⟨_, _, rfl, w3, by rw [d3, d2, d1, d0, h2], x3, fun d i x hi => (both d i x hi).1,
      fun d i x hi => (both d i x hi).2, rfl, ?_⟩
    intro d hd
    cases d
    · exact i0
    · exact i1
    · exact i2
    · exact i3
  · intro hc
    rw [if_neg (fun hr => hc (hiff.1 hr))]
    rfl

/-- The second tetrahedron. -/
example : twoTetra.ValidFilter (CellLists.cells ⟨[4, 0, 1, 2], [8, 0, 1, 2, 6, 7], [6, 5, 4, 0], [1]⟩) ∧
    twoTetra.ClosedFilter (CellLists.cells ⟨[4, 0, 1, 2], [8, 0, 1, 2, 6, 7], [6, 5, 4, 0], [1]⟩) :=
  ⟨Mesh.valid_of_check (by decide +kernel), Mesh.closed_of_check (by decide +kernel)⟩

/-! ### Filter and extraction together -/

theorem Mesh.Lists.nodup {s : List Nat} {p : Nat → Prop} (h : Mesh.Lists s p) : s.Nodup :=
  h.1.imp fun hab => Nat.ne_of_lt hab

theorem Mesh.Lists.length_le {s : List Nat} {p : Nat → Prop} (h : Mesh.Lists s p) {n : Nat}
    (hp : ∀ x, p x → x < n) : s.length ≤ n := by
  have : s.Subperm (List.range n) := List.subperm_of_subset h.nodup fun x hx =>
    List.mem_range.2 (hp x ((h.2 x).1 hx))
  simpa using this.length_le

/-- C57: on a 2D mesh whose polygons name existing edges between their own vertices, `FilterMesh2D`
followed by `ExtractMesh2D` returns the restriction of the mesh to the active polygons among the given
ones with all their vertices and edges. -/
theorem c57_filter_extract_2d [Zero α] (m : Mesh α) (h : m.WF) (hn : m.Nested2)
    (hs : ∀ d, m.num d ≤ UINT_MAX) (cells : List Nat) (hc : ∀ c ∈ cells, c < m.num .d2)
    (hd : cells.Nodup) :
    ∃ F d m', m.filterMesh2D cells = ok F ∧ m.IsActiveAmong .d2 cells F.c2 ∧
      Mesh.extractMesh2D F.c0 F.c1 F.c2 m Mesh.empty = ok (d, m') ∧ m'.WF ∧ m'.dimension = 2 ∧
      m.Extracted F.cells m' ∧ m.SameMarkers F.cells m' ∧ m.SameStates F.cells m' ∧
      m.MapsOf F d [.d0, .d1, .d2] := by
  have hl : ∀ c ∈ cells, ∀ r s, m.row .vert2 c = ok r → m.row .edge2 c = ok s → r.length = s.length :=
    fun c hm r s hr hs => (hn.range c (hc c hm) r s hr hs).1
  obtain ⟨F, e, ⟨keep, hk, h2⟩, h0, h1, h3⟩ := c57_filter_2d m h cells hc hl
  have sub : ∀ c ∈ F.c2, c ∈ cells := fun c hm => by
    rw [h2] at hm; exact (List.mem_filter.1 hm).1
  have lt0 : ∀ x, m.Names .vert2 F.c2 x → x < m.num .d0 := by
    rintro x ⟨c, hm, r, hr, hx⟩
    obtain ⟨s, hs⟩ := Mesh.row_exists h .edge2 (i := c) (hc c (sub c hm))
    exact (hn.range c (hc c (sub c hm)) r s hr hs).2.1 x hx
  have lt1 : ∀ x, m.Names .edge2 F.c2 x → x < m.num .d1 := by
    rintro x ⟨c, hm, s, hs, hx⟩
    obtain ⟨r, hr⟩ := Mesh.row_exists h .vert2 (i := c) (hc c (sub c hm))
    exact (hn.range c (hc c (sub c hm)) r s hr hs).2.2 x hx
  have hF : (⟨F.c0, F.c1, F.c2, []⟩ : CellLists) = F := by rw [← h3]
  have closed : m.ClosedFilter F.cells := by
    refine ⟨?_, ?_⟩
    · intro x hx a b hab
      obtain ⟨c, hm, s, hs, hxs⟩ := (h1.2 x).1 hx
      obtain ⟨r, hr⟩ := Mesh.row_exists h .vert2 (i := c) (hc c (sub c hm))
      obtain ⟨ha, hb⟩ := hn.extremes c (hc c (sub c hm)) r s hr hs x hxs a b hab
      exact ⟨(h0.2 a).2 ⟨c, hm, r, hr, ha⟩, (h0.2 b).2 ⟨c, hm, r, hr, hb⟩⟩
    · intro l hl x hx r hr y hy
      cases l <;> first | (simp [Lst.isKept] at hl; done) | skip
      · exact (h0.2 y).2 ⟨x, hx, r, hr, hy⟩
      · exact (h1.2 y).2 ⟨x, hx, r, hr, hy⟩
      all_goals
        have hx : x ∈ F.c3 := hx
        rw [h3] at hx
        cases hx
  have hrange : ∀ d, ∀ x ∈ F.cells d, x < m.num d := by
    intro d x hx
    cases d
    · exact lt0 x ((h0.2 x).1 hx)
    · exact lt1 x ((h1.2 x).1 hx)
    · exact hc x (sub x hx)
    · have hx : x ∈ F.c3 := hx
      rw [h3] at hx
      cases hx
  have valid : m.ValidFilter F.cells := by
    refine ⟨?_, hrange, ?_, ?_, ?_, ?_⟩
    · intro d
      cases d
      · exact h0.nodup
      · exact h1.nodup
      · show F.c2.Nodup
        rw [h2]
        exact hd.filter _
      · show F.c3.Nodup
        rw [h3]
        exact List.nodup_nil
    · intro d
      have hnd : (F.cells d).Nodup := by
        cases d
        · exact h0.nodup
        · exact h1.nodup
        · show F.c2.Nodup
          rw [h2]
          exact hd.filter _
        · show F.c3.Nodup
          rw [h3]
          exact List.nodup_nil
      have : (F.cells d).Subperm (List.range (m.num d)) := List.subperm_of_subset hnd fun x hx =>
        List.mem_range.2 (hrange d x hx)
      have := this.length_le
      rw [List.length_range] at this
      exact this.trans (hs d)
    · intro x hx a b hab
      obtain ⟨ha, hb⟩ := closed.extremes x hx a b hab
      exact ⟨hrange .d0 a ha, hrange .d0 b hb⟩
    · intro l hl x hx r hr y hy
      exact hrange _ y (closed.rows l hl x hx r hr y hy)
    · intro x hx r r' hr hr'
      exact hl x (sub x hx) r r' hr hr'
  obtain ⟨d, m', e1, e2⟩ := (c57_extract_2d m h F.c0 F.c1 F.c2 (by rw [hF]; exact valid)).1
    (by rw [hF]; exact closed)
  rw [hF] at e2
  exact ⟨F, d, m', e, ⟨keep, hk, h2⟩, e1, e2⟩

theorem twoTriangles_nested : twoTriangles.Nested2 := by
  have key : ∀ c, c < twoTriangles.num .d2 →
      ((twoTriangles.row .vert2 c).allOk fun r => (twoTriangles.row .edge2 c).allOk fun s =>
        decide (r.length = s.length) && decide (∀ v ∈ r, v < twoTriangles.num .d0) &&
        decide (∀ e ∈ s, e < twoTriangles.num .d1) && s.all fun e => (twoTriangles.extremes e).allOk
          fun ab => decide (ab.1 ∈ r) && decide (ab.2 ∈ r)) = true := by decide +kernel
  constructor
  · intro c hc r s hr hs
    have := Res.allOk_spec (Res.allOk_spec (key c hc) _ hr) _ hs
    simp only [Bool.and_eq_true, decide_eq_true_eq] at this
    exact ⟨this.1.1.1, this.1.1.2, this.1.2⟩
  · intro c hc r s hr hs e he a b hab
    have := Res.allOk_spec (Res.allOk_spec (key c hc) _ hr) _ hs
    simp only [Bool.and_eq_true, decide_eq_true_eq, List.all_eq_true] at this
    simpa using Res.allOk_spec (this.2 e he) _ hab

example : twoTriangles.WF ∧ twoTriangles.Nested2 ∧ (∀ d, twoTriangles.num d ≤ UINT_MAX) ∧
    (∀ c ∈ [1, 0], c < twoTriangles.num .d2) ∧ [1, 0].Nodup :=
  ⟨twoTriangles_wf, twoTriangles_nested, fun d => by cases d <;> decide +kernel, by decide, by decide⟩

/-- C57: the same in three dimensions, on a mesh whose polyhedra name existing cells and together with a
face or an edge its vertices and edges. -/
theorem c57_filter_extract_3d [Zero α] (m : Mesh α) (h : m.WF) (hn : m.Nested3)
    (hs : ∀ d, m.num d ≤ UINT_MAX) (cells : List Nat) (hc : ∀ c ∈ cells, c < m.num .d3)
    (hd : cells.Nodup) :
    ∃ F d m', m.filterMesh3D cells = ok F ∧ m.IsActiveAmong .d3 cells F.c3 ∧
      Mesh.extractMesh3D F.c0 F.c1 F.c2 F.c3 m Mesh.empty = ok (d, m') ∧ m'.WF ∧ m'.dimension = 3 ∧
      m.Extracted F.cells m' ∧ m.SameMarkers F.cells m' ∧ m.SameStates F.cells m' ∧
      m.MapsOf F d [.d0, .d1, .d2, .d3] := by
  obtain ⟨F, e, ⟨keep, hk, h3⟩, h0, h1, h2⟩ := c57_filter_3d m h cells hc
  have sub : ∀ c ∈ F.c3, c < m.num .d3 := fun c hm => by
    rw [h3] at hm; exact hc c (List.mem_filter.1 hm).1
  have all : ∀ c ∈ F.c3, ∃ r s t, m.row .vert3 c = ok r ∧ m.row .edge3 c = ok s ∧ m.row .face3 c = ok t := by
    intro c hm
    obtain ⟨r, hr⟩ := Mesh.row_exists h .vert3 (i := c) (sub c hm)
    obtain ⟨s, hs⟩ := Mesh.row_exists h .edge3 (i := c) (sub c hm)
    obtain ⟨t, ht⟩ := Mesh.row_exists h .face3 (i := c) (sub c hm)
    exact ⟨r, s, t, hr, hs, ht⟩
  have hrange : ∀ d, ∀ x ∈ F.cells d, x < m.num d := by
    intro d x hx
    cases d
    · obtain ⟨c, hm, r', hr', hxr⟩ := (h0.2 x).1 hx
      obtain ⟨r, s, t, hr, hs, ht⟩ := all c hm
      obtain rfl := Res.ok.inj (hr.symm.trans hr')
      exact (hn.range c (sub c hm) r s t hr hs ht).1 x hxr
    · obtain ⟨c, hm, r', hr', hxr⟩ := (h1.2 x).1 hx
      obtain ⟨r, s, t, hr, hs, ht⟩ := all c hm
      obtain rfl := Res.ok.inj (hs.symm.trans hr')
      exact (hn.range c (sub c hm) r s t hr hs ht).2.1 x hxr
    · obtain ⟨c, hm, r', hr', hxr⟩ := (h2.2 x).1 hx
      obtain ⟨r, s, t, hr, hs, ht⟩ := all c hm
      obtain rfl := Res.ok.inj (ht.symm.trans hr')
      exact (hn.range c (sub c hm) r s t hr hs ht).2.2 x hxr
    · exact sub x hx
  have closed : m.ClosedFilter F.cells := by
    refine ⟨?_, ?_⟩
    · intro x hx a b hab
      obtain ⟨c, hm, s, hs, hxs⟩ := (h1.2 x).1 hx
      obtain ⟨r, hr⟩ := Mesh.row_exists h .vert3 (i := c) (sub c hm)
      obtain ⟨ha, hb⟩ := hn.extremes c (sub c hm) r s hr hs x hxs a b hab
      exact ⟨(h0.2 a).2 ⟨c, hm, r, hr, ha⟩, (h0.2 b).2 ⟨c, hm, r, hr, hb⟩⟩
    · intro l hl x hx r hr y hy
      cases l <;> first | (simp [Lst.isKept] at hl; done) | skip
      · obtain ⟨c, hm, t', ht', hxt⟩ := (h2.2 x).1 hx
        obtain ⟨r1, s1, t1, k1, k2, k3⟩ := all c hm
        rw [k3] at ht'; cases ht'
        obtain ⟨s', hs'⟩ := Mesh.row_exists h .edge2 (i := x) (hrange .d2 x hx)
        exact (h0.2 y).2 ⟨c, hm, r1, k1, (hn.faces c (sub c hm) r1 s1 _ k1 k2 k3 x hxt r s' hr hs').1 y hy⟩
      · obtain ⟨c, hm, t', ht', hxt⟩ := (h2.2 x).1 hx
        obtain ⟨r1, s1, t1, k1, k2, k3⟩ := all c hm
        rw [k3] at ht'; cases ht'
        obtain ⟨r', hr'⟩ := Mesh.row_exists h .vert2 (i := x) (hrange .d2 x hx)
        exact (h1.2 y).2 ⟨c, hm, s1, k2, (hn.faces c (sub c hm) r1 s1 _ k1 k2 k3 x hxt r' r hr' hr).2 y hy⟩
      · exact (h0.2 y).2 ⟨x, hx, r, hr, hy⟩
      · exact (h1.2 y).2 ⟨x, hx, r, hr, hy⟩
      · exact (h2.2 y).2 ⟨x, hx, r, hr, hy⟩
  have hnd : ∀ d, (F.cells d).Nodup := by
    intro d
    cases d
    · exact h0.nodup
    · exact h1.nodup
    · exact h2.nodup
    · show F.c3.Nodup
      rw [h3]
      exact hd.filter _
  have valid : m.ValidFilter F.cells := by
    refine ⟨hnd, hrange, ?_, ?_, ?_, ?_⟩
    · intro d
      have : (F.cells d).Subperm (List.range (m.num d)) := List.subperm_of_subset (hnd d) fun x hx =>
        List.mem_range.2 (hrange d x hx)
      have := this.length_le
      rw [List.length_range] at this
      exact this.trans (hs d)
    · intro x hx a b hab
      obtain ⟨ha, hb⟩ := closed.extremes x hx a b hab
      exact ⟨hrange .d0 a ha, hrange .d0 b hb⟩
    · intro l hl x hx r hr y hy
      exact hrange _ y (closed.rows l hl x hx r hr y hy)
    · intro x hx r r' hr hr'
      exact hn.sizes x (hrange .d2 x hx) r r' hr hr'
  obtain ⟨d, m', e1, e2⟩ := (c57_extract_3d m h F valid).1 closed
  exact ⟨F, d, m', e, ⟨keep, hk, h3⟩, e1, e2⟩

theorem twoTetra_nested : twoTetra.Nested3 := by
  have key : ∀ c, c < twoTetra.num .d3 →
      ((twoTetra.row .vert3 c).allOk fun r => (twoTetra.row .edge3 c).allOk fun s =>
        (twoTetra.row .face3 c).allOk fun t =>
        decide (∀ v ∈ r, v < twoTetra.num .d0) && decide (∀ e ∈ s, e < twoTetra.num .d1) &&
        decide (∀ e ∈ t, e < twoTetra.num .d2) && (s.all fun e => (twoTetra.extremes e).allOk
          fun ab => decide (ab.1 ∈ r) && decide (ab.2 ∈ r)) &&
        t.all fun g => (twoTetra.row .vert2 g).allOk fun r' => (twoTetra.row .edge2 g).allOk fun s' =>
          decide (∀ v ∈ r', v ∈ r) && decide (∀ v ∈ s', v ∈ s)) = true := by decide +kernel
  have key2 : ∀ c, c < twoTetra.num .d2 →
      ((twoTetra.row .vert2 c).allOk fun r => (twoTetra.row .edge2 c).allOk fun s =>
        decide (r.length = s.length)) = true := by decide +kernel
  constructor
  · intro c hc r s t hr hs ht
    have := Res.allOk_spec (Res.allOk_spec (Res.allOk_spec (key c hc) _ hr) _ hs) _ ht
    simp only [Bool.and_eq_true, decide_eq_true_eq] at this
    exact ⟨this.1.1.1.1, this.1.1.1.2, this.1.1.2⟩
  · intro g hg r s hr hs
    simpa using Res.allOk_spec (Res.allOk_spec (key2 g hg) _ hr) _ hs
  · intro c hc r s hr hs e he a b hab
    obtain ⟨t, ht⟩ := Mesh.row_exists twoTetra_wf .face3 (i := c) hc
    have := Res.allOk_spec (Res.allOk_spec (Res.allOk_spec (key c hc) _ hr) _ hs) _ ht
    simp only [Bool.and_eq_true, decide_eq_true_eq, List.all_eq_true] at this
    simpa using Res.allOk_spec (this.1.2 e he) _ hab
  · intro c hc r s t hr hs ht g hg r' s' hr' hs'
    have := Res.allOk_spec (Res.allOk_spec (Res.allOk_spec (key c hc) _ hr) _ hs) _ ht
    simp only [Bool.and_eq_true, decide_eq_true_eq, List.all_eq_true] at this
    simpa using Res.allOk_spec (Res.allOk_spec (this.2 g hg) _ hr') _ hs'

example : twoTetra.WF ∧ twoTetra.Nested3 ∧ (∀ d, twoTetra.num d ≤ UINT_MAX) ∧
    (∀ c ∈ [1], c < twoTetra.num .d3) ∧ [1].Nodup :=
  ⟨twoTetra_wf, twoTetra_nested, fun d => by cases d <;> decide +kernel, by decide, by decide⟩

end Verif
