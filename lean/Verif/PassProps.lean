import Verif.PassLemmas
import Verif.ChordPathLemmas

/-
C115: a new vertex on an edge is passed on to the polygons of the edge.
-/
namespace Verif

open Res

variable {α : Type}

/-- `UpdateCell2D_NewVertex` replaces the polygon by one with the new vertex between the ends of the edge and the halves of
the edge, in the order of the polygon, in its place. -/
theorem c115_add_vertex [Zero α] (m : Mesh α) (h : m.WF) (c k w h0 h1 : Nat) (dir : Bool) (vs es : List Nat)
    (hb : BoundedBy m c vs es) (hk : k < vs.length) (hw : w < m.num .d0) (hh0 : h0 < m.num .d1) (hh1 : h1 < m.num .d1) :
    ∃ m', m.addVertexOnEdge c dir k [h0, h1] w = ok (m', m.num .d2) ∧
      ReplacedAll m m' [c] (fun _ => withVertex vs es k w h0 h1 dir) :=
  addVertexOnEdge_spec h hb hk hw hh0 hh1

/-- `RefinePolygonCell_UpdateNeighbours` does the same for all polygons of the edge except `c` and those replaced before,
and reports each of them with its replacement. -/
theorem c115_pass [Zero α] (m : Mesh α) (h : m.WF) (c e w h0 h1 : Nat) (directions : List (List Bool)) (r : List Nat)
    (hr : m.row .nb12 e = ok r) (hf : ∀ y ∈ r, y < m.num .d2 ∨ m.num .d2 + r.length ≤ y)
    (hw : w < m.num .d0) (hh0 : h0 < m.num .d1) (hh1 : h1 < m.num .d1) (he0 : h0 ≠ e) (he1 : h1 ≠ e)
    (k : Nat → Nat) (dir : Nat → Bool) (vs es : Nat → List Nat)
    (hside : ∀ d ∈ r, d < m.num .d2 → d ≠ c → m.updated .d2 d = ok none →
      SideOnce m d e (k d) (vs d) (es d) ∧ ∃ ds, directions[d]? = some ds ∧ ds[k d]? = some (dir d)) :
    ∃ m' ns, m.passToNeighbours c e w [h0, h1] directions =
        ok (m', ns.zipIdx.map fun p => (p.1, m.num .d2 + p.2)) ∧
      Concerned m c r ns ∧ ReplacedAll m m' ns (fun d => withVertex (vs d) (es d) (k d) w h0 h1 (dir d)) := by
  obtain ⟨m', ns, h1', h2, h3⟩ := passLoop_spec h (c := c) hr hf hw hh0 hh1 he0 he1 hside r.length le_rfl
  rw [List.take_length] at h2
  refine ⟨m', ns, ?_, h2, h3⟩
  unfold Mesh.passToNeighbours
  rw [rowSize_of_row h hr, ok_bind, h1']

/-- If all active polygons with the edge are in its list, except `c` they were not replaced before, and `c` is not active
any more, then no active polygon has the edge afterwards: the new vertex is not a hanging one. -/
theorem c115_edge_gone (m m' : Mesh α) (c e w h0 h1 : Nat) (r ns : List Nat) (k : Nat → Nat) (dir : Nat → Bool)
    (vs es : Nat → List Nat) (he0 : h0 ≠ e) (he1 : h1 ≠ e)
    (hside : ∀ d ∈ r, d < m.num .d2 → d ≠ c → m.updated .d2 d = ok none → SideOnce m d e (k d) (vs d) (es d))
    (hc : Concerned m c r ns) (hR : ReplacedAll m m' ns (fun d => withVertex (vs d) (es d) (k d) w h0 h1 (dir d)))
    (hlist : ∀ i l, m.active .d2 i = ok true → m.row .edge2 i = ok l → e ∈ l → i ∈ r ∧ i ≠ c ∧ m.updated .d2 i = ok none)
    (i : Nat) (l : List Nat) (ha : m'.active .d2 i = ok true) (hl : m'.row .edge2 i = ok l) : e ∉ l := by
  intro hel
  have hi : i < m'.num .d2 := lt_of_row hl
  by_cases hlt : i < m.num .d2
  · by_cases hin : i ∈ ns
    · rw [hR.inactive i hin] at ha
      cases ha
    · rw [hR.active .d2 i hlt (by simp [hin])] at ha
      rw [hR.rows .edge2 i hlt (by simp) (by simp)] at hl
      obtain ⟨q1, q2, q3⟩ := hlist i l ha hl hel
      exact hin ((hc.mem i).2 ⟨q1, hlt, q2, q3⟩)
  · rw [hR.num2] at hi
    obtain ⟨j, rfl⟩ := Nat.exists_eq_add_of_le (Nat.le_of_not_lt hlt)
    have hj : j < ns.length := by omega
    obtain ⟨d, hd⟩ : ∃ d, ns[j]? = some d := ⟨_, List.getElem?_eq_getElem hj⟩
    rw [hR.edges j d hd] at hl
    cases hl
    obtain ⟨q0, q1, q2, q3⟩ := (hc.mem d).1 (List.mem_of_getElem? hd)
    have hs := hside d q0 q1 q2 q3
    rcases (mem_withVertex hs.count hs.lt e).1 hel with ⟨i, hi, hx⟩ | hx | hx
    · exact hi ((hs.side i).1 hx)
    · exact he0 hx.symm
    · exact he1 hx.symm

/-- If a new boundary, with the halves of the edge, encloses the polygon, then it encloses the replacement. -/
theorem c115_encloses (m m' : Mesh α) (ns : List Nat) (R : Nat → List (Nat × Nat)) (hR : ReplacedAll m m' ns R)
    (hn : ns.Nodup) (j d : Nat) (hd : ns[j]? = some d) (he : Encloses m d (R d)) : Encloses m' (m.num .d2 + j) (R d) := by
  intro a b hab
  obtain ⟨dir, r, l, h1, h2, h3⟩ := he a b hab
  have hlt : a.2 < m.num .d1 := lt_of_row h2
  have ha : a.2 ∈ (R d).map Prod.snd := List.mem_map_of_mem (List.of_mem_zip hab).1
  have hin : d ∈ ns := List.mem_of_getElem? hd
  have hj : ns.idxOf d = j := by
    obtain ⟨hj, rfl⟩ := List.getElem?_eq_some_iff.1 hd
    exact hn.idxOf_getElem j hj
  have hs : ∀ y, y = d → (if y ∈ ns ∧ a.2 ∈ (R y).map Prod.snd then m.num .d2 + ns.idxOf y else y) = m.num .d2 + j := by
    rintro y rfl
    rw [if_pos ⟨hin, ha⟩, hj]
  refine ⟨dir, _, _, by rw [hR.extremes _ hlt, h1], hR.polygonsOfEdges _ _ h2, ?_⟩
  cases dir
  · exact hs r h3
  · exact hs l h3

variable {K : Type} [Field K] [LinearOrder K] [IsStrictOrderedRing K]

/-- The replacement of a polygon has its area, if the new vertex is on the line of the edge. -/
theorem c115_area (m m' : Mesh α) (ns : List Nat) (R : Nat → List (Nat × Nat)) (hR : ReplacedAll m m' ns R) (j d : Nat)
    (hd : ns[j]? = some d) (vs es : List Nat) (hb : BoundedBy m d vs es) (k w h0 h1 : Nat) (dir : Bool)
    (hRd : R d = withVertex vs es k w h0 h1 dir) (pt : Nat → V3 K) (a b : Nat) (t : K) (ha : vs[k]? = some a)
    (hb' : vs[(k + 1) % vs.length]? = some b) (hx : (pt w).x = (1 - t) * (pt a).x + t * (pt b).x)
    (hy : (pt w).y = (1 - t) * (pt a).y + t * (pt b).y) :
    ∃ l, m'.row .vert2 (m.num .d2 + j) = ok l ∧ shoelace (l.map pt) = shoelace (vs.map pt) := by
  refine ⟨_, hR.vertices j d hd, ?_⟩
  rw [hRd]
  refine shoelace_boundary pt hb.count.symm ?_
  intro i s hs
  dsimp only at hs
  by_cases hi : i = k
  · subst hi
    rw [if_pos rfl] at hs
    refine ⟨a, b, t, ha, hb', ?_⟩
    cases dir <;> (cases hs; exact ⟨hx, hy⟩)
  · rw [if_neg hi] at hs
    cases hs

/-! ### Examples -/

/-- Two squares with the common edge 1, from vertex 1 to vertex 2, which was split at the vertex 6 in the edges 7 and 8. The
square 0 is the one that is refined. -/
def passOps : List (Op ℚ) :=
  [.append .d0 7, .insertCoord 1 2 0 0, .insertCoord 2 2 2 0, .insertCoord 3 0 2 0, .insertCoord 4 4 0 0,
   .insertCoord 5 4 2 0, .insertCoord 6 2 1 0,
   .append .d1 9, .insertExt 0 0 1, .insertExt 1 1 2, .insertExt 2 2 3, .insertExt 3 3 0, .insertExt 4 1 4,
   .insertExt 5 4 5, .insertExt 6 5 2, .insertExt 7 1 6, .insertExt 8 6 2, .append .d2 2,
   .addRow .vert2 0 [0, 1, 2, 3], .addRow .edge2 0 [0, 1, 2, 3], .addRow .vert2 1 [1, 4, 5, 2],
   .addRow .edge2 1 [4, 5, 6, 1], .setAct .d2 1 true, .setMark .d2 1 7,
   .resizeRow .nb12 1 2, .insertEntry .nb12 1 0 1, .insertEntry .nb12 1 1 0,
   .resizeRow .nb12 4 2, .insertEntry .nb12 4 1 1, .resizeRow .nb12 5 2, .insertEntry .nb12 5 1 1,
   .resizeRow .nb12 6 2, .insertEntry .nb12 6 1 1, .resizeRow .nb12 7 2, .insertEntry .nb12 7 0 1,
   .resizeRow .nb12 8 2, .insertEntry .nb12 8 0 1, .addRow .nb02 4 [1]]

def passBase : Mesh ℚ :=
  match Mesh.empty.run passOps with
  | ok m => m
  | _ => Mesh.empty

theorem passBase_run : (Mesh.empty : Mesh ℚ).run passOps = ok passBase := by
  have h : (match (Mesh.empty : Mesh ℚ).run passOps with | ok _ => true | _ => false) = true := by
    decide +kernel
  unfold passBase
  revert h
  cases (Mesh.empty : Mesh ℚ).run passOps <;> simp

theorem passBase_wf : passBase.WF := by
  refine Mesh.run_wf_of_ok (ops := passOps) Mesh.empty_wf (Mesh.along_of_forall ?_ _) passBase_run
  intro o ho m
  simp only [passOps, List.mem_cons, List.not_mem_nil, or_false] at ho
  repeat (rcases ho with rfl | ho; · trivial)

theorem passBase_side : SideOnce passBase 1 1 3 [1, 4, 5, 2] [4, 5, 6, 1] where
  vertices := by decide +kernel
  edges := by decide +kernel
  count := rfl
  vertex_lt := by decide +kernel
  edge_lt := by decide +kernel
  side := by
    intro i
    match i with
    | 0 | 1 | 2 | 3 => decide
    | n + 4 => simp

/-- The hypotheses of `c115_pass` and `c115_edge_gone` for the two squares. -/
example : passBase.row .nb12 1 = ok [1, 0] ∧ (∀ y ∈ [1, 0], y < passBase.num .d2 ∨ passBase.num .d2 + 2 ≤ y) ∧
    6 < passBase.num .d0 ∧ 7 < passBase.num .d1 ∧ 8 < passBase.num .d1 ∧
    (∀ d ∈ [1, 0], d < passBase.num .d2 → d ≠ 0 → passBase.updated .d2 d = ok none →
      SideOnce passBase d 1 3 [1, 4, 5, 2] [4, 5, 6, 1] ∧
      ∃ ds, [[true, true, true, true], [true, true, true, false]][d]? = some ds ∧ ds[3]? = some false) ∧
    passBase.active .d2 0 = ok false := by
  refine ⟨by decide +kernel, by decide +kernel, by decide +kernel, by decide +kernel, by decide +kernel, ?_,
    by decide +kernel⟩
  intro d hd _ h0 _
  simp only [List.mem_cons, List.not_mem_nil, or_false] at hd
  rcases hd with rfl | rfl
  · exact ⟨passBase_side, _, rfl, rfl⟩
  · exact absurd rfl h0

/-- The cells and lists of a result. -/
def passView (r : Res (Mesh ℚ × List (Nat × Nat))) : Option (List (Res (List Nat)) × List (Nat × Nat) × Res Bool) :=
  match r with
  | ok (m, out) => some ([m.row .vert2 2, m.row .edge2 2, m.row .nb12 1, m.row .nb12 4, m.row .nb12 7, m.row .nb12 8,
      m.row .nb02 4], out, m.active .d2 1)
  | _ => none

example : passView (passBase.passToNeighbours 0 1 6 [7, 8] [[true, true, true, true], [true, true, true, false]]) =
    some ([ok [1, 4, 5, 2, 6], ok [4, 5, 6, 8, 7], ok [1, 0], ok [UINT_MAX, 2], ok [2, UINT_MAX], ok [2, UINT_MAX],
      ok [2]], [(1, 2)], ok false) := by
  decide +kernel

/-- The new boundary encloses the square. -/
example : Encloses passBase 1 (withVertex [1, 4, 5, 2] [4, 5, 6, 1] 3 6 7 8 false) := by
  rw [show withVertex [1, 4, 5, 2] [4, 5, 6, 1] 3 6 7 8 false = [(1, 4), (4, 5), (5, 6), (2, 8), (6, 7)] from by decide]
  intro a b hab
  simp only [List.rotate_cons_succ, List.rotate_zero, List.cons_append, List.nil_append, List.zip_cons_cons,
    List.zip_nil_right, List.mem_cons, List.not_mem_nil, or_false, Prod.mk.injEq] at hab
  rcases hab with ⟨rfl, rfl⟩ | ⟨rfl, rfl⟩ | ⟨rfl, rfl⟩ | ⟨rfl, rfl⟩ | ⟨rfl, rfl⟩
  · exact ⟨true, UINT_MAX, 1, by decide +kernel, by decide +kernel, rfl⟩
  · exact ⟨true, UINT_MAX, 1, by decide +kernel, by decide +kernel, rfl⟩
  · exact ⟨true, UINT_MAX, 1, by decide +kernel, by decide +kernel, rfl⟩
  · exact ⟨false, 1, UINT_MAX, by decide +kernel, by decide +kernel, rfl⟩
  · exact ⟨false, 1, UINT_MAX, by decide +kernel, by decide +kernel, rfl⟩

end Verif
