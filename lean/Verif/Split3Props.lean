import Verif.Split3Lemmas
import Verif.NeighProps

/-
C126: splitting a polyhedron.
-/
namespace Verif

open Res

variable {α : Type}

/-- C126, what is proved: `SplitCell3D` succeeds, keeps the mesh well formed and returns the numbers of
the new cells; the cell becomes inactive and is recorded as original of the new cells, which get their
vertices, edges, faces and marker. In the neighbour list of a vertex (edge, face) the cell is replaced by
the first sub-cell with that vertex (edge, face); if no sub-cell has it, the list keeps the cell. The
property asks for all sub-cells with the vertex; the lists are therefore complete only at vertices of
one sub-cell. -/
theorem c126_split_partial [Zero α] (m : Mesh α) (h : m.WF) (c : Nat) (hc : c < m.num .d3)
    (vs es fs : List (List Nat)) (hs : AreSubCells m vs es fs) :
    ∃ m', m.splitCell3D c vs es fs = ok (m', (List.range vs.length).map (m.num .d3 + ·)) ∧ m'.WF ∧
      OthersKept3 m m' c vs.length ∧ IsParent3 m m' c vs.length ∧
      (∀ (i : Nat) v e f, vs[i]? = some v → es[i]? = some e → fs[i]? = some f →
        IsSubCell3 m m' c (m.num .d3 + i) v e f) ∧
      ReplacedBy m m' .nb03 c (heir c (m.num .d3) vs) ∧
      ReplacedBy m m' .nb13 c (heir c (m.num .d3) es) ∧
      ReplacedBy m m' .nb23 c (heir c (m.num .d3) fs) := by
  obtain ⟨A, hA, rfl⟩ := AMesh.exists_conc h
  have hc' : c < A.num .d3 := hc
  obtain ⟨subs, hsubs⟩ : ∃ s, s = List.zipWith (fun v (p : List Nat × List Nat) => SubCell3.mk v p.1 p.2)
      vs (es.zip fs) := ⟨_, rfl⟩
  have hle := hs.edgesLength
  have hlf := hs.facesLength
  have hls : subs.length = vs.length := by rw [hsubs]; simp; omega
  have hsub := subCells_getElem? hle hlf hsubs
  obtain ⟨hmv, hme, hmf⟩ := subCells_map hle hlf hsubs
  set n := vs.length with hn
  have hA1 := AMesh.ok_append hA .d3 n
  have hold := AMesh.sameOldCells_append hA .d3 n
  generalize hB : A.append .d3 n = B at hA1 hold
  have hnB2 : B.num .d3 = A.num .d3 + n := by rw [← hB]; simp [AMesh.append]
  have hnB : ∀ d, d ≠ .d3 → B.num d = A.num d := by
    intro d hd; rw [← hB]; simp [AMesh.append, fset_ne _ _ hd]
  have hBrow : ∀ l i, i < A.num l.owner → (B.rows l)[i]? = (A.rows l)[i]? := by
    intro l i hi
    rw [← hB]
    simp only [AMesh.append]
    split
    · rw [List.getElem?_append_left (by rw [hA.rows]; exact hi)]
    · rfl
  have hBnew : ∀ l i, l.owner = .d3 → A.num .d3 ≤ i → i < A.num .d3 + n →
      (B.rows l)[i]? = some [] := by
    intro l i hl h1 h2
    have hll := hA.rows l
    rw [hl] at hll
    rw [← hB]
    simp only [AMesh.append]
    rw [if_pos hl, List.getElem?_append_right (by omega)]
    rw [List.getElem?_replicate, if_pos (by omega)]
  -- the state of the cell
  obtain ⟨C, hC⟩ : ∃ C : AMesh α, C = { B with act := fset B.act .d3 ((B.act .d3).set c false) } :=
    ⟨_, rfl⟩
  have hCn : C.num = B.num := by rw [hC]
  have hCok : C.Ok := by
    rw [hC]
    refine ⟨hA1.coord, hA1.ext, hA1.mark, ?_, hA1.orig0, hA1.orig, hA1.upd, hA1.ids, hA1.ids_nodup,
      hA1.props, hA1.rows⟩
    intro d
    by_cases hd : d = .d3
    · subst hd; simpa using hA1.act .d3
    · simpa [fset_ne _ _ hd] using hA1.act d
  have hset : B.conc.setAct .d3 c false = ok C.conc := by
    unfold Mesh.setAct
    show (do assert (c < B.num .d3); let l ← vset (B.act .d3) c false; _) = _
    rw [assert_true (by omega), ok_bind, vset_of_lt _ (by rw [hA1.act]; omega), ok_bind, hC]
    rfl
  -- the loop
  obtain ⟨k, hk⟩ : ∃ k, (A.mark .d3)[c]? = some k :=
    ⟨_, List.getElem?_eq_getElem (by rw [hA.mark]; exact hc')⟩
  have hBk : ∀ i, i < A.num .d3 → (B.mark .d3)[i]? = (A.mark .d3)[i]? := by
    intro i hi
    rw [← hB]; simp only [AMesh.append, fset_self]
    rw [List.getElem?_append_left (by rw [hA.mark]; exact hi)]
  obtain ⟨hrun, hDok⟩ := AMesh.splitFrom3_conc (c := c) (k := k) (ss := subs)
    (new := A.num .d3) hCok hc' (by rw [hCn, hnB2, hls])
    (by rw [hC]; exact (hBk c hc').trans hk)
    (by
      rw [hCn, hnB _ (by simp), hnB _ (by simp), hnB _ (by simp)]
      intro s hsm
      obtain ⟨i, hi⟩ := List.getElem?_of_mem hsm
      obtain ⟨s1, s2, s3⟩ := (hsub i s).1 hi
      exact ⟨hs.vertices _ (List.mem_of_getElem? s1), hs.edges _ (List.mem_of_getElem? s2),
        hs.faces _ (List.mem_of_getElem? s3)⟩)
  have hDn := AMesh.splitAll3_num C c k (A.num .d3) subs
  obtain ⟨f1, f2, f3, f4, f5, f6, f7⟩ := AMesh.splitAll3_frame c k C (A.num .d3) subs
  have hl2 : A.num .d3 + subs.length ≤ C.num .d3 := by rw [hCn, hnB2, hls]
  have gm := AMesh.splitAll3_mark c k C (A.num .d3) subs (by rw [hCok.mark]; exact hl2)
  have ga := AMesh.splitAll3_act c k C (A.num .d3) subs (by rw [hCok.act]; exact hl2)
  have go := AMesh.splitAll3_orig c k C (A.num .d3) subs
    (by rw [hCok.orig _ (by simp)]; exact hl2)
  obtain ⟨gv, gv'⟩ := AMesh.splitAll3_vert3 c k C (A.num .d3) subs (by rw [hCok.rows]; exact hl2)
  obtain ⟨ge, ge'⟩ := AMesh.splitAll3_edge3 c k C (A.num .d3) subs (by rw [hCok.rows]; exact hl2)
  obtain ⟨gf, gf'⟩ := AMesh.splitAll3_face3 c k C (A.num .d3) subs (by rw [hCok.rows]; exact hl2)
  have g03 := AMesh.splitAll3_nb03 c k C (A.num .d3) hc' subs
  have g13 := AMesh.splitAll3_nb13 c k C (A.num .d3) hc' subs
  have g23 := AMesh.splitAll3_nb23 c k C (A.num .d3) hc' subs
  obtain ⟨gu, gu'⟩ := AMesh.splitAll3_upd c k C hCok (A.num .d3) subs hc' (by rw [hCn, hnB2, hls])
  rw [hmv] at g03
  rw [hme] at g13
  rw [hmf] at g23
  rw [hls] at gm ga go gu'
  generalize hD : C.splitAll3 c k (A.num .d3) subs = D at *
  have hDB : D.num = B.num := by rw [hDn, hCn]
  have hDl : ∀ d i, i < A.num d → i < D.num d := by
    intro d i hi
    rw [hDB]
    by_cases hd : d = .d3
    · subst hd; omega
    · rw [hnB d hd]; exact hi
  have hCB : C.mark = B.mark ∧ C.orig = B.orig ∧ C.upd = B.upd ∧ C.rows = B.rows ∧
      C.ids = B.ids ∧ C.props = B.props ∧ C.coord = B.coord ∧ C.ext = B.ext ∧
      C.dimension = B.dimension ∧ (∀ d i, ¬ (d = .d3 ∧ i = c) → (C.act d)[i]? = (B.act d)[i]?) := by
    rw [hC]
    refine ⟨rfl, rfl, rfl, rfl, rfl, rfl, rfl, rfl, rfl, ?_⟩
    intro d i hi
    by_cases hd : d = .d3
    · subst hd
      simp only [fset_self]
      rw [List.getElem?_set_ne (by rintro rfl; exact hi ⟨rfl, rfl⟩)]
    · simp only [fset_ne _ _ hd]
  obtain ⟨e1, e2, e3, e4, e5, e6, e7, e8, e9, e10⟩ := hCB
  have hprops : D.conc.props = B.conc.props := by
    show (fun d => (D.props d).map Csr.ofRows) = fun d => (B.props d).map Csr.ofRows
    rw [f5, e6]
  have hBl : ∀ d i, i < A.num d → i < B.num d := by
    intro d i hi; rw [← hDB]; exact hDl d i hi
  refine ⟨D.conc, ?_, AMesh.wf_conc hDok, ?_, ?_, ?_, ?_, ?_, ?_⟩
  · unfold Mesh.splitCell3D
    rw [assert_true (by omega), ok_bind, AMesh.append_conc hA .d3, ok_bind, ← hn, hB, ← hsubs]
    show (do let m ← B.conc.setAct .d3 c false; _) = _
    rw [hset, ok_bind]
    show (do let m ← C.conc.splitFrom3 c (A.num .d3) subs; _) = _
    rw [hrun, ok_bind]
    rfl
  · constructor
    · show D.dimension = _
      rw [f1, e9]; exact hold.dimension
    · show D.num .d3 = _
      rw [hDB]; exact hnB2
    · intro d hd
      show D.num d = _
      rw [hDB]; exact hnB d hd
    · intro i hi
      rw [← hold.coordinates i hi]
      exact coordinates_congr hDB (f2.trans e7)
    · intro i hi
      rw [← hold.extremes i hi]
      exact extremes_congr hDB (f3.trans e8)
    · intro d i hi
      rw [← hold.marker d i hi]
      apply marker_congr (hBl d i hi) (hDl d i hi)
      show (D.mark d)[i]? = (B.mark d)[i]?
      by_cases hd : d = .d3
      · subst hd
        rw [gm, if_neg (by have : i < A.num .d3 := hi; omega), e1]
      · rw [(f6 d hd).1, e1]
    · intro d i hi hne
      rw [← hold.active d i hi]
      apply active_congr (hBl d i hi) (hDl d i hi)
      show (D.act d)[i]? = (B.act d)[i]?
      by_cases hd : d = .d3
      · subst hd
        rw [ga, if_neg (by have : i < A.num .d3 := hi; omega), e10 _ _ hne]
      · rw [(f6 d hd).2.1, e10 _ _ hne]
    · intro d i hi
      rw [← hold.original d i hi]
      apply original_congr (hBl d i hi) (hDl d i hi)
      show (D.orig d)[i]? = (B.orig d)[i]?
      by_cases hd : d = .d3
      · subst hd
        rw [go, if_neg (by have : i < A.num .d3 := hi; omega), e2]
      · rw [(f6 d hd).2.2.2, e2]
    · intro d i hi hne
      rw [← hold.updated d i hi]
      apply updated_congr (hBl d i hi) (hDl d i hi)
      show mapFind (D.upd d) i = mapFind (B.upd d) i
      by_cases hd : d = .d3
      · subst hd
        rw [gu i (fun e => hne ⟨rfl, e⟩), e3]
      · rw [(f6 d hd).2.2.1, e3]
    · show D.ids = _
      rw [f4, e5]
      funext d
      exact hold.ids d
    · intro d i p hi
      rw [← hold.propSize d i p hi]
      exact propSize_congr hDB (f4.trans e5) hprops
    · intro d i p t hi
      rw [← hold.propValue d i p t hi]
      exact propValue_congr hDB (f4.trans e5) hprops
    · intro l i hi hl1 hl2' hl3
      have hi' : i < A.num l.owner := hi
      obtain ⟨r, hr⟩ := AMesh.getElem?_row hA hi'
      rw [AMesh.row_conc hA hr]
      apply AMesh.row_conc hDok
      rw [← hr, ← hBrow l i hi', ← e4]
      by_cases h1 : l = .vert3
      · subst h1; exact gv' i hi'
      · by_cases h2 : l = .edge3
        · subst h2; exact ge' i hi'
        · by_cases h3 : l = .face3
          · subst h3; exact gf' i hi'
          · rw [f7 l h1 h2 h3 hl1 hl2' hl3]
  · constructor
    · unfold Mesh.active
      show (do assert (c < D.num .d3); vget (D.act .d3) c) = _
      rw [assert_true (hDl _ _ hc'), ok_bind, vget_eq_ok, ga, if_neg (by omega), hC]
      simp only [fset_self]
      rw [List.getElem?_set_self (by rw [hA1.act]; omega)]
    · refine ⟨mapFind (A.upd .d3) c, mapFind (D.upd .d3) c, ?_, ?_, ?_⟩
      · unfold Mesh.updated
        rw [show A.conc.num = A.num from rfl, assert_true hc']
        rfl
      · unfold Mesh.updated
        rw [show D.conc.num = D.num from rfl, assert_true (hDl _ _ hc')]
        rfl
      · intro j
        rw [gu', e3, ← hB]
        rfl
  · intro i v e f hv he hf
    have hi : i < vs.length := (List.getElem?_eq_some_iff.1 hv).1
    have hsi := (hsub i ⟨v, e, f⟩).2 ⟨hv, he, hf⟩
    have hnew : A.num .d3 + i < D.num .d3 := by rw [hDB]; omega
    constructor
    · exact AMesh.row_conc hDok (gv i _ hsi)
    · exact AMesh.row_conc hDok (ge i _ hsi)
    · exact AMesh.row_conc hDok (gf i _ hsi)
    · apply marker_congr hc' hnew
      show (D.mark .d3)[A.num .d3 + i]? = (A.mark .d3)[c]?
      rw [gm, if_pos (by omega), hk]
    · unfold Mesh.active
      show (do assert (A.num .d3 + i < D.num .d3); vget (D.act .d3) (A.num .d3 + i)) = _
      rw [assert_true hnew, ok_bind, vget_eq_ok, ga, if_pos (by omega)]
    · unfold Mesh.original
      rw [show D.conc.num = D.num from rfl, show D.conc.orig = D.orig from rfl]
      show (do assert (A.num .d3 + i < D.num .d3); match (D.orig .d3)[A.num .d3 + i]? with | some a => ok a | none => throw) = _
      rw [assert_true hnew, ok_bind, go, if_pos (by omega)]
    · unfold Mesh.updated
      show (do assert (A.num .d3 + i < D.num .d3); ok (mapFind (D.upd .d3) (A.num .d3 + i))) = _
      rw [assert_true hnew, ok_bind, gu _ (by omega), e3, ← hB]
      show ok (mapFind (A.upd .d3) _) = _
      congr 1
      rw [mapFind_eq_none]
      intro t ht
      have := (hA.upd .d3).key_lt _ ht
      simp only at this
      omega
    · intro p hp
      have hp' : p < (A.ids .d3).length := hp
      have : D.conc.propSize .d3 (A.num .d3 + i) p = B.conc.propSize .d3 (A.num .d3 + i) p :=
        propSize_congr hDB (f4.trans e5) hprops
      exact this.trans (by
        rw [← hB]
        exact (AMesh.blankCell_append hA .d3 n (Nat.le_add_right _ _) (by omega)).propSize p hp')
  · intro x r hr
    have hr' := AMesh.row_eq_ok hA hr
    have hx : x < A.num .d0 := by
      have := AMesh.lt_of_getElem? hr'
      rwa [hA.rows] at this
    apply AMesh.row_conc hDok
    exact g03 x r (by rw [e4, hBrow .nb03 x hx]; exact hr')
  · intro x r hr
    have hr' := AMesh.row_eq_ok hA hr
    have hx : x < A.num .d1 := by
      have := AMesh.lt_of_getElem? hr'
      rwa [hA.rows] at this
    apply AMesh.row_conc hDok
    exact g13 x r (by rw [e4, hBrow .nb13 x hx]; exact hr')
  · intro x r hr
    have hr' := AMesh.row_eq_ok hA hr
    have hx : x < A.num .d2 := by
      have := AMesh.lt_of_getElem? hr'
      rwa [hA.rows] at this
    apply AMesh.row_conc hDok
    exact g23 x r (by rw [e4, hBrow .nb23 x hx]; exact hr')

/-- The mesh of a double pyramid: the triangle `0, 1, 2` with the apexes 3 and 4. The vertices, edges and
outer faces list the polyhedron as neighbour; face 6 is the triangle `0, 1, 2`. -/
def bipyramidOps : List (Op Int) :=
  [.append .d0 5, .append .d1 9, .append .d2 7, .append .d3 1,
   .addRow .vert3 0 [0, 1, 2, 3, 4], .addRow .edge3 0 [0, 1, 2, 3, 4, 5, 6, 7, 8],
   .addRow .face3 0 [0, 1, 2, 3, 4, 5], .setAct .d3 0 true, .setMark .d3 0 7] ++
  (List.range 5).map (.addRow .nb03 · [0]) ++ (List.range 9).map (.addRow .nb13 · [0]) ++
  (List.range 6).map (.addRow .nb23 · [0])

/-- The mesh built by `bipyramidOps`. -/
def bipyramid : Mesh Int :=
  match (Mesh.empty : Mesh Int).run bipyramidOps with
  | ok m => m
  | _ => Mesh.empty

theorem bipyramid_wf : bipyramid.WF := by
  refine Mesh.run_wf_of_ok (ops := bipyramidOps) Mesh.empty_wf (Mesh.along_of_forall ?_ _)
    (show _ = ok bipyramid from rfl)
  intro o ho m
  simp only [bipyramidOps, List.mem_append, List.mem_cons, List.not_mem_nil, or_false, List.mem_map] at ho
  rcases ho with (((rfl | rfl | rfl | rfl | rfl | rfl | rfl | rfl | rfl) | ⟨i, _, rfl⟩) | ⟨i, _, rfl⟩) | ⟨i, _, rfl⟩ <;> trivial

/-- The vertices, edges and faces of the two pyramids. -/
def pyramidVertices : List (List Nat) := [[0, 1, 2, 3], [0, 1, 2, 4]]

/-- The edges of the two pyramids. -/
def pyramidEdges : List (List Nat) := [[0, 1, 2, 3, 4, 5], [0, 1, 2, 6, 7, 8]]

/-- The faces of the two pyramids. -/
def pyramidFaces : List (List Nat) := [[0, 1, 2, 6], [3, 4, 5, 6]]

theorem pyramids_are : AreSubCells bipyramid pyramidVertices pyramidEdges pyramidFaces :=
  ⟨rfl, rfl, by decide +kernel, by decide +kernel, by decide +kernel⟩

example : bipyramid.WF ∧ 0 < bipyramid.num .d3 ∧
    AreSubCells bipyramid pyramidVertices pyramidEdges pyramidFaces :=
  ⟨bipyramid_wf, by decide +kernel, pyramids_are⟩

/-- The mesh after the split. -/
def bipyramidSplit : Mesh Int :=
  match bipyramid.splitCell3D 0 pyramidVertices pyramidEdges pyramidFaces with
  | ok r => r.1
  | _ => Mesh.empty

example : bipyramid.splitCell3D 0 pyramidVertices pyramidEdges pyramidFaces = ok (bipyramidSplit, [1, 2]) ∧
    bipyramidSplit.active .d3 0 = ok false ∧ bipyramidSplit.row .face3 2 = ok [3, 4, 5, 6] ∧
    bipyramidSplit.marker .d3 2 = ok 7 ∧ bipyramidSplit.row .nb23 4 = ok [2] ∧
    bipyramidSplit.row .nb03 3 = ok [1] ∧ bipyramidSplit.row .nb13 7 = ok [2] :=
  ⟨rfl, by decide +kernel, by decide +kernel, by decide +kernel, by decide +kernel, by decide +kernel,
    by decide +kernel⟩

/-- C126 for the single lists, of vertices, of edges or of faces: the list of a vertex of a sub-cell has no
reference to the split cell any more and contains one sub-cell with this vertex if the split cell was
in it. It contains all of them when there is only one. The property asks for the last part without
"when there is only one". -/
theorem c126_neighbours_partial [Zero α] (m m' : Mesh α) (new : List Nat) (h : m.WF) (c : Nat)
    (hc : c < m.num .d3) (vs es fs : List (List Nat)) (hs : AreSubCells m vs es fs)
    (hrun : m.splitCell3D c vs es fs = ok (m', new)) (l : Lst) (subs : List (List Nat))
    (hl : l = .nb03 ∧ subs = vs ∨ l = .nb13 ∧ subs = es ∨ l = .nb23 ∧ subs = fs)
    (x j : Nat) (s : List Nat) (hj : subs[j]? = some s) (hx : x ∈ s) (r : List Nat)
    (hr : m.row l x = ok r) :
    ∃ r', m'.row l x = ok r' ∧ c ∉ r' ∧ (∀ y ∈ r, y ≠ c → y ∈ r') ∧
      (c ∈ r → ∃ (i : Nat) (t : List Nat), subs[i]? = some t ∧ x ∈ t ∧ m.num .d3 + i ∈ r') ∧
      (c ∈ r → (∀ (i : Nat) t, subs[i]? = some t → x ∈ t → i = j) → m.num .d3 + j ∈ r') := by
  obtain ⟨m'', h1, -, -, -, -, h03, h13, h23⟩ := c126_split_partial m h c hc vs es fs hs
  rw [h1] at hrun
  cases hrun
  have hrep : ReplacedBy m m' l c (heir c (m.num .d3) subs) := by
    rcases hl with ⟨rfl, rfl⟩ | ⟨rfl, rfl⟩ | ⟨rfl, rfl⟩
    · exact h03
    · exact h13
    · exact h23
  obtain ⟨i, t, _, ht, hxt, he⟩ := heir_of_mem (c := c) (first := m.num .d3) hj hx
  have hin : c ∈ r → m.num .d3 + i ∈
      r.map fun y => if y = c then heir c (m.num .d3) subs x else y := by
    intro hcr
    exact List.mem_map.2 ⟨c, hcr, by rw [if_pos rfl, he]⟩
  refine ⟨_, hrep x r hr, ?_, ?_, ?_, ?_⟩
  · rw [List.mem_map]
    rintro ⟨y, _, hy⟩
    rw [he] at hy
    split at hy <;> omega
  · intro y hy hne
    exact List.mem_map.2 ⟨y, hy, if_neg hne⟩
  · intro hcr
    exact ⟨i, t, ht, hxt, hin hcr⟩
  · intro hcr huniq
    rw [← huniq i t ht hxt]
    exact hin hcr

example : bipyramid.row .nb23 4 = ok [0] ∧ pyramidFaces[1]? = some [3, 4, 5, 6] ∧
    (∀ (i : Nat) t, pyramidFaces[i]? = some t → 4 ∈ t → i = 1) := by
  refine ⟨by decide +kernel, rfl, ?_⟩
  intro i t
  match i with
  | 0 => rintro ⟨⟩ h; simp at h
  | 1 => intro _ _; rfl
  | i + 2 => intro h; simp [pyramidFaces] at h

/-- C126 for a cell that is replaced by one cell, as the refinement does with the neighbours of a refined
polyhedron: in the lists of its vertices, edges and faces the new cell stands where the old one stood;
nothing else in the lists changes. -/
theorem c126_single [Zero α] (m : Mesh α) (h : m.WF) (c : Nat) (hc : c < m.num .d3)
    (v e f : List Nat) (hs : AreSubCells m [v] [e] [f]) :
    ∃ m', m.splitCell3D c [v] [e] [f] = ok (m', [m.num .d3]) ∧ m'.WF ∧
      ∀ l xs, (l = .nb03 ∧ xs = v ∨ l = .nb13 ∧ xs = e ∨ l = .nb23 ∧ xs = f) → ∀ x r, m.row l x = ok r →
        (x ∈ xs → m'.row l x = ok (r.map fun y => if y = c then m.num .d3 else y)) ∧
        (x ∉ xs → m'.row l x = ok r) := by
  obtain ⟨m', h1, h2, -, -, -, h03, h13, h23⟩ := c126_split_partial m h c hc [v] [e] [f] hs
  refine ⟨m', h1, h2, ?_⟩
  intro l xs hl x r hr
  have hrep : ReplacedBy m m' l c (heir c (m.num .d3) [xs]) := by
    rcases hl with ⟨rfl, rfl⟩ | ⟨rfl, rfl⟩ | ⟨rfl, rfl⟩
    · exact h03
    · exact h13
    · exact h23
  rw [hrep x r hr]
  constructor
  · intro hx
    simp [heir, hx]
  · intro hx
    congr 1
    conv_rhs => rw [← List.map_id r]
    apply List.map_congr_left
    intro y _
    by_cases hy : y = c
    · simp [heir, hx, hy]
    · simp [hy]

example : AreSubCells bipyramid [[0, 1, 2, 3, 4]] [[0, 1, 2, 3, 4, 5, 6, 7, 8]] [[0, 1, 2, 3, 4, 5]] :=
  ⟨rfl, rfl, by decide +kernel, by decide +kernel, by decide +kernel⟩

/-- C126: lists of different lengths are refused. -/
theorem c126_refused [Zero α] (m : Mesh α) (c : Nat) (vs es fs : List (List Nat))
    (hl : vs.length ≠ es.length ∨ vs.length ≠ fs.length) : m.splitCell3D c vs es fs = abort := by
  unfold Mesh.splitCell3D
  rw [assert_false (by omega)]
  rfl

example : pyramidVertices.length ≠ ([[0]] : List (List Nat)).length := by decide

/-- C126 does not hold: after the double pyramid is cut along the triangle, vertex 0 and edge 0 list the
first pyramid only, although they belong to the second one, too. -/
theorem c126_shared_violated :
    bipyramid.splitCell3D 0 pyramidVertices pyramidEdges pyramidFaces = ok (bipyramidSplit, [1, 2]) ∧
    bipyramid.row .nb03 0 = ok [0] ∧ bipyramidSplit.row .vert3 2 = ok [0, 1, 2, 4] ∧
    bipyramid.row .nb13 0 = ok [0] ∧ bipyramidSplit.row .edge3 2 = ok [0, 1, 2, 6, 7, 8] ∧
    bipyramidSplit.active .d3 2 = ok true ∧ bipyramidSplit.row .nb03 0 = ok [1] ∧
    bipyramidSplit.row .nb13 0 = ok [1] :=
  ⟨rfl, by decide +kernel, by decide +kernel, by decide +kernel, by decide +kernel, by decide +kernel,
    by decide +kernel, by decide +kernel⟩

end Verif
