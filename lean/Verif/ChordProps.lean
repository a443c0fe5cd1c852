import Verif.ChordAreaLemmas

/-
C114: a polygon is cut along a chord between two of its vertices or points on its sides.
-/
namespace Verif

open Res

variable {K : Type} [Field K] [LinearOrder K] [IsStrictOrderedRing K]

/-
Missing in the four theorems: a part without area is refused only if the area test answers for it; the test stops the
program for a part whose points are all on one line (`c114_flat_violated`).
-/

/-- The chord joins two different vertices of the polygon. -/
theorem c114_corner_to_corner_partial (G : GeoCfg K) (sqrt : K → K) (tol2D : K) (m : Mesh K) (h : m.WF) (c : Nat)
    (vs es : List Nat) (hvs : m.row .vert2 c = ok vs) (hes : m.row .edge2 c = ok es) (hl : es.length = vs.length)
    (hv0 : ∀ v ∈ vs, v < m.num .d0) (he1 : ∀ e ∈ es, e < m.num .d1) (i j p q : Nat) (hi : vs[i]? = some p)
    (hj : vs[j]? = some q) (hij : i ≠ j) (rotation : M3 K) (translation : V3 K) :
    ∃ X Y m', Halves (vs.zip es) X Y p q ∧ IsCutAlong m m' c p q X Y ∧
      ChordOutcome G sqrt tol2D m m' rotation translation p q X Y
        (G.splitNoNewVertices sqrt tol2D m c vs.length i j rotation translation) := by
  have hi' := (List.getElem?_eq_some_iff.1 hi).1
  have hj' := (List.getElem?_eq_some_iff.1 hj).1
  rw [← boundary_none]
  exact splitChord_spec G sqrt tol2D h rotation translation hvs hes rfl hl hv0 he1 (a := .corner i) (b := .corner j)
    hi' hj' hij hij.symm (by simp [ChordEnd.vertex, ChordEnd.stop, hi]) (by simp [ChordEnd.vertex, ChordEnd.stop, hj]) rfl

/-- The chord starts at a new vertex on a side. -/
theorem c114_side_to_corner_partial (G : GeoCfg K) (sqrt : K → K) (tol2D : K) (m : Mesh K) (h : m.WF) (c : Nat)
    (vs es : List Nat) (hvs : m.row .vert2 c = ok vs) (hes : m.row .edge2 c = ok es) (hl : es.length = vs.length)
    (hv0 : ∀ v ∈ vs, v < m.num .d0) (he1 : ∀ e ∈ es, e < m.num .d1) (i j w q h0 h1 : Nat) (dir : Bool)
    (hi : i < vs.length) (hj : vs[j]? = some q) (hw : w < m.num .d0) (hh0 : h0 < m.num .d1) (hh1 : h1 < m.num .d1)
    (rotation : M3 K) (translation : V3 K) :
    ∃ X Y m', Halves (boundary vs es fun k => if k = i then
        some (if dir then ⟨w, h0, h1⟩ else ⟨w, h1, h0⟩) else none) X Y w q ∧
      IsCutAlong m m' c w q X Y ∧
      ChordOutcome G sqrt tol2D m m' rotation translation w q X Y
        (G.splitNewVertexFrom sqrt tol2D m c vs.length i j rotation translation w [h0, h1] dir) := by
  have hj' := (List.getElem?_eq_some_iff.1 hj).1
  exact splitChord_spec G sqrt tol2D h rotation translation hvs hes rfl hl hv0 he1 (a := .onEdge i w [h0, h1] dir)
    (b := .corner j) ⟨hi, hw, rfl, by simp [hh0, hh1]⟩ hj' trivial trivial rfl
    (by simp [ChordEnd.vertex, ChordEnd.stop, hj])
    (by funext k; simp only [bothCuts, ChordEnd.cutAt]; by_cases hk : k = i <;> cases dir <;> simp [hk])

/-- The chord ends at a new vertex on a side. -/
theorem c114_corner_to_side_partial (G : GeoCfg K) (sqrt : K → K) (tol2D : K) (m : Mesh K) (h : m.WF) (c : Nat)
    (vs es : List Nat) (hvs : m.row .vert2 c = ok vs) (hes : m.row .edge2 c = ok es) (hl : es.length = vs.length)
    (hv0 : ∀ v ∈ vs, v < m.num .d0) (he1 : ∀ e ∈ es, e < m.num .d1) (i j p w h0 h1 : Nat) (dir : Bool)
    (hi : vs[i]? = some p) (hj : j < vs.length) (hw : w < m.num .d0) (hh0 : h0 < m.num .d1) (hh1 : h1 < m.num .d1)
    (rotation : M3 K) (translation : V3 K) :
    ∃ X Y m', Halves (boundary vs es fun k => if k = j then
        some (if dir then ⟨w, h0, h1⟩ else ⟨w, h1, h0⟩) else none) X Y p w ∧
      IsCutAlong m m' c p w X Y ∧
      ChordOutcome G sqrt tol2D m m' rotation translation p w X Y
        (G.splitNewVertexTo sqrt tol2D m c vs.length i j rotation translation w [h0, h1] dir) := by
  have hi' := (List.getElem?_eq_some_iff.1 hi).1
  rw [splitNewVertexTo_chord]
  exact splitChord_spec G sqrt tol2D h rotation translation hvs hes rfl hl hv0 he1 (a := .corner i)
    (b := .onEdge j w [h0, h1] dir) hi' ⟨hj, hw, rfl, by simp [hh0, hh1]⟩ trivial trivial
    (by simp [ChordEnd.vertex, ChordEnd.stop, hi]) rfl
    (by funext k; simp only [bothCuts, ChordEnd.cutAt]; by_cases hk : k = j <;> cases dir <;> simp [hk])

/-- The chord joins new vertices on two different sides. -/
theorem c114_side_to_side_partial (G : GeoCfg K) (sqrt : K → K) (tol2D : K) (m : Mesh K) (h : m.WF) (c : Nat)
    (vs es : List Nat) (hvs : m.row .vert2 c = ok vs) (hes : m.row .edge2 c = ok es) (hl : es.length = vs.length)
    (hv0 : ∀ v ∈ vs, v < m.num .d0) (he1 : ∀ e ∈ es, e < m.num .d1) (i j w u h0 h1 k0 k1 : Nat) (dir dir' : Bool)
    (hi : i < vs.length) (hj : j < vs.length) (hij : i ≠ j) (hw : w < m.num .d0) (hu : u < m.num .d0)
    (hh0 : h0 < m.num .d1) (hh1 : h1 < m.num .d1) (hk0 : k0 < m.num .d1) (hk1 : k1 < m.num .d1)
    (rotation : M3 K) (translation : V3 K) :
    ∃ X Y m', Halves (boundary vs es fun k =>
        if k = i then some (if dir then ⟨w, h0, h1⟩ else ⟨w, h1, h0⟩)
        else if k = j then some (if dir' then ⟨u, k0, k1⟩ else ⟨u, k1, k0⟩) else none) X Y w u ∧
      IsCutAlong m m' c w u X Y ∧
      ChordOutcome G sqrt tol2D m m' rotation translation w u X Y
        (G.splitNewVertices sqrt tol2D m c vs.length i j rotation translation w u [h0, h1] [k0, k1] dir dir') :=
  splitChord_spec G sqrt tol2D h rotation translation hvs hes rfl hl hv0 he1 (a := .onEdge i w [h0, h1] dir)
    (b := .onEdge j u [k0, k1] dir') ⟨hi, hw, rfl, by simp [hh0, hh1]⟩ ⟨hj, hu, rfl, by simp [hk0, hk1]⟩ hij hij.symm
    rfl rfl
    (by funext k; simp only [bothCuts, ChordEnd.cutAt]
        by_cases hk : k = i
        · cases dir <;> simp [hk]
        · by_cases hk' : k = j
          · subst hk'; cases dir' <;> simp [hk]
          · simp [hk, hk'])

/-- If the boundary encloses the polygon, then the two new polygons are enclosed by their edges; the new edge has one of
them on each side. -/
theorem c114_encloses {α : Type} (m m' : Mesh α) (c p q : Nat) (R X Y : List (Nat × Nat)) (hH : Halves R X Y p q)
    (hC : IsCutAlong m m' c p q X Y) (hR : Encloses m c R) (hn : (R.map Prod.snd).Nodup) :
    ∃ A B, m'.row .vert2 (m.num .d2) = ok (A.map Prod.fst) ∧ m'.row .edge2 (m.num .d2) = ok (A.map Prod.snd) ∧
      Encloses m' (m.num .d2) A ∧
      m'.row .vert2 (m.num .d2 + 1) = ok (B.map Prod.fst) ∧ m'.row .edge2 (m.num .d2 + 1) = ok (B.map Prod.snd) ∧
      Encloses m' (m.num .d2 + 1) B := by
  obtain ⟨h1, h2⟩ := encloses_parts hH hC hR hn
  exact ⟨_, _, by rw [hC.vertices0]; simp, by rw [hC.edges0]; simp, h1, by rw [hC.vertices1]; simp,
    by rw [hC.edges1]; simp, h2⟩

/-- The areas of the new polygons add up to the area of the old one, if new vertices are on the lines of their sides. -/
theorem c114_area {α : Type} (m m' : Mesh α) (c p q : Nat) (vs es : List Nat) (cut : Nat → Option SidePoint)
    (X Y : List (Nat × Nat)) (hH : Halves (boundary vs es cut) X Y p q) (hC : IsCutAlong m m' c p q X Y)
    (hl : es.length = vs.length) (pt : Nat → V3 K) (hs : OnSides pt vs cut) :
    ∃ A B, m'.row .vert2 (m.num .d2) = ok A ∧ m'.row .vert2 (m.num .d2 + 1) = ok B ∧
      shoelace (A.map pt) + shoelace (B.map pt) = shoelace (vs.map pt) :=
  ⟨_, _, hC.vertices0, hC.vertices1, by rw [shoelace_parts hH pt, shoelace_boundary pt hl.symm hs]⟩

/-- The area test, for the vertices `vs` of a part at the points `qs` of the plane of the polygon: for a part with an area
it answers whether the area is above the tolerance; any part it accepts has such an area. -/
theorem c114_area_test (g : GeoCfg K) (sqrt : K → K) (tol2D : K) (h1 : 0 ≤ g.tolerance1D) (m : Mesh K) (vs : List Nat)
    (rotation : M3 K) (translation : V3 K) (ps qs : List (V3 K)) (hp : List.Forall₂ (fun v p => m.point v = ok p) vs ps)
    (hq : ps.map (rotateTo2D rotation translation) = qs) (h2 : 2 < qs.length) (hm : MovesOn qs)
    (he : AlignedExact g sqrt qs) :
    (shoelace qs ≠ 0 → g.isAreaPositive sqrt tol2D m vs rotation translation =
      ok (!g.isValueZero (shoelace qs / 2) tol2D)) ∧
    (∀ b, g.isAreaPositive sqrt tol2D m vs rotation translation = ok b → b = !g.isValueZero (shoelace qs / 2) tol2D) := by
  obtain ⟨us, hu⟩ := unaligned_exists g sqrt h2
  have e := isAreaPositive_eq (sqrt := sqrt) tol2D h1 (mapRes_eq_ok.2 hp) hq h2 hm he hu
  rw [e]
  constructor
  · intro ha
    rw [if_pos (unaligned_gt_two hm he h2 hu ha)]
  · intro b hb
    split at hb
    · exact (ok.inj hb).symm
    · cases hb

/-! ### Examples -/

/-- A square with the vertices 0 to 3; the vertices 4 and 5 are on the sides 0 and 2, which were split. -/
def chordOps : List (Op ℚ) :=
  [.append .d0 6, .insertCoord 1 4 0 0, .insertCoord 2 4 4 0, .insertCoord 3 0 4 0, .insertCoord 4 2 0 0,
   .insertCoord 5 2 4 0,
   .append .d1 8, .insertExt 0 0 1, .insertExt 1 1 2, .insertExt 2 3 2, .insertExt 3 3 0, .insertExt 4 0 4,
   .insertExt 5 4 1, .insertExt 6 3 5, .insertExt 7 5 2, .append .d2 1, .addRow .vert2 0 [0, 1, 2, 3],
   .addRow .edge2 0 [0, 1, 2, 3], .setAct .d2 0 true, .setMark .d2 0 7,
   .resizeRow .nb12 0 2, .insertEntry .nb12 0 1 0, .resizeRow .nb12 1 2, .insertEntry .nb12 1 1 0,
   .resizeRow .nb12 2 2, .insertEntry .nb12 2 0 0, .resizeRow .nb12 3 2, .insertEntry .nb12 3 1 0,
   .resizeRow .nb12 4 2, .insertEntry .nb12 4 1 0, .resizeRow .nb12 5 2, .insertEntry .nb12 5 1 0,
   .resizeRow .nb12 6 2, .insertEntry .nb12 6 0 0, .resizeRow .nb12 7 2, .insertEntry .nb12 7 0 0,
   .addRow .nb02 0 [0], .addRow .nb02 1 [0]]

def chordBase : Mesh ℚ :=
  match Mesh.empty.run chordOps with
  | ok m => m
  | _ => Mesh.empty

theorem chordBase_run : (Mesh.empty : Mesh ℚ).run chordOps = ok chordBase := by
  have h : (match (Mesh.empty : Mesh ℚ).run chordOps with | ok _ => true | _ => false) = true := by
    decide +kernel
  unfold chordBase
  revert h
  cases (Mesh.empty : Mesh ℚ).run chordOps <;> simp

theorem chordBase_wf : chordBase.WF := by
  refine Mesh.run_wf_of_ok (ops := chordOps) Mesh.empty_wf (Mesh.along_of_forall ?_ _) chordBase_run
  intro o ho m
  simp only [chordOps, List.mem_cons, List.not_mem_nil, or_false] at ho
  repeat (rcases ho with rfl | ho; · trivial)

/-- The hypotheses of the four theorems, for the square. -/
example : chordBase.WF ∧ chordBase.row .vert2 0 = ok [0, 1, 2, 3] ∧ chordBase.row .edge2 0 = ok [0, 1, 2, 3] ∧
    (∀ v ∈ [0, 1, 2, 3, 4, 5], v < chordBase.num .d0) ∧ (∀ e ∈ [0, 1, 2, 3, 4, 5, 6, 7], e < chordBase.num .d1) :=
  ⟨chordBase_wf, by decide +kernel, by decide +kernel, by decide +kernel, by decide +kernel⟩

def chordGeo : GeoCfg ℚ := ⟨1 / 1000000, 1 / 1000000⟩

/-- The cells and the new edge of a result. -/
def chordView (r : Res (Mesh ℚ × Option (Nat × List Nat))) : Option (List (Res (List Nat)) × Res (Nat × Nat)) :=
  match r with
  | ok (m, some _) => some ([m.row .vert2 1, m.row .edge2 1, m.row .vert2 2, m.row .edge2 2, m.row .nb12 8,
      m.row .nb12 1], m.extremes 8)
  | _ => none

/-- The four cuts of the square; the squared length takes the place of the length. -/
example : chordView (chordGeo.splitNoNewVertices id (1 / 1000000) chordBase 0 4 0 2 M3.one V3.zero) =
    some ([ok [0, 1, 2], ok [0, 1, 8], ok [2, 3, 0], ok [2, 3, 8], ok [2, 1], ok [UINT_MAX, 1]], ok (2, 0)) := by
  decide +kernel
example : chordView (chordGeo.splitNewVertexFrom id (1 / 1000000) chordBase 0 4 0 2 M3.one V3.zero 4 [4, 5] true) =
    some ([ok [4, 1, 2], ok [5, 1, 8], ok [2, 3, 0, 4], ok [2, 3, 4, 8], ok [2, 1], ok [UINT_MAX, 1]], ok (2, 4)) := by
  decide +kernel
example : chordView (chordGeo.splitNewVertexTo id (1 / 1000000) chordBase 0 4 1 2 M3.one V3.zero 5 [6, 7] false) =
    some ([ok [1, 2, 5], ok [1, 7, 8], ok [5, 3, 0, 1], ok [6, 3, 0, 8], ok [2, 1], ok [UINT_MAX, 1]], ok (5, 1)) := by
  decide +kernel
example : chordView (chordGeo.splitNewVertices id (1 / 1000000) chordBase 0 4 0 2 M3.one V3.zero 4 5 [4, 5] [6, 7] true
    false) = some ([ok [4, 1, 2, 5], ok [5, 1, 7, 8], ok [5, 3, 0, 4], ok [6, 3, 4, 8], ok [2, 1], ok [UINT_MAX, 1]],
      ok (5, 4)) := by
  decide +kernel

/-- The boundary of the square with the two points encloses it, and no edge repeats. -/
example : Encloses chordBase 0 [(0, 4), (4, 5), (1, 1), (2, 7), (5, 6), (3, 3)] ∧
    ([(0, 4), (4, 5), (1, 1), (2, 7), (5, 6), (3, 3)].map Prod.snd).Nodup ∧
    boundary [0, 1, 2, 3] [0, 1, 2, 3] (fun k => if k = 0 then some ⟨4, 4, 5⟩ else if k = 2 then some ⟨5, 7, 6⟩ else none) =
      [(0, 4), (4, 5), (1, 1), (2, 7), (5, 6), (3, 3)] := by
  refine ⟨?_, by decide, by decide⟩
  intro a b hab
  simp only [List.rotate_cons_succ, List.rotate_zero, List.cons_append, List.nil_append, List.zip_cons_cons,
    List.zip_nil_right, List.mem_cons, List.not_mem_nil, or_false, Prod.mk.injEq] at hab
  rcases hab with ⟨rfl, rfl⟩ | ⟨rfl, rfl⟩ | ⟨rfl, rfl⟩ | ⟨rfl, rfl⟩ | ⟨rfl, rfl⟩ | ⟨rfl, rfl⟩
  · exact ⟨true, UINT_MAX, 0, by decide +kernel, by decide +kernel, rfl⟩
  · exact ⟨true, UINT_MAX, 0, by decide +kernel, by decide +kernel, rfl⟩
  · exact ⟨true, UINT_MAX, 0, by decide +kernel, by decide +kernel, rfl⟩
  · exact ⟨false, 0, UINT_MAX, by decide +kernel, by decide +kernel, rfl⟩
  · exact ⟨false, 0, UINT_MAX, by decide +kernel, by decide +kernel, rfl⟩
  · exact ⟨true, UINT_MAX, 0, by decide +kernel, by decide +kernel, rfl⟩

/-- The points of the square. -/
def chordPt (v : Nat) : V3 ℚ :=
  match chordBase.point v with
  | ok p => p
  | _ => V3.zero

example : OnSides chordPt [0, 1, 2, 3]
    (fun k => if k = 0 then some ⟨4, 4, 5⟩ else if k = 2 then some ⟨5, 7, 6⟩ else none) := by
  intro i s hs
  dsimp only at hs
  by_cases h0 : i = 0
  · subst h0
    rw [if_pos rfl] at hs
    cases hs
    exact ⟨0, 1, 1 / 2, rfl, rfl, by decide +kernel, by decide +kernel⟩
  · rw [if_neg h0] at hs
    by_cases h2 : i = 2
    · subst h2
      rw [if_pos rfl] at hs
      cases hs
      exact ⟨2, 3, 1 / 2, rfl, rfl, by decide +kernel, by decide +kernel⟩
    · rw [if_neg h2] at hs
      cases hs

/-- The part with the vertices 4, 1 and 2 of the square. -/
example : List.Forall₂ (fun v p => chordBase.point v = ok p) [4, 1, 2] [⟨2, 0, 0⟩, ⟨4, 0, 0⟩, ⟨4, 4, 0⟩] ∧
    [(⟨2, 0, 0⟩ : V3 ℚ), ⟨4, 0, 0⟩, ⟨4, 4, 0⟩].map (rotateTo2D M3.one V3.zero) = [⟨2, 0, 0⟩, ⟨4, 0, 0⟩, ⟨4, 4, 0⟩] ∧
    MovesOn [(⟨2, 0, 0⟩ : V3 ℚ), ⟨4, 0, 0⟩, ⟨4, 4, 0⟩] ∧
    AlignedExact chordGeo id [(⟨2, 0, 0⟩ : V3 ℚ), ⟨4, 0, 0⟩, ⟨4, 4, 0⟩] ∧
    shoelace [(⟨2, 0, 0⟩ : V3 ℚ), ⟨4, 0, 0⟩, ⟨4, 4, 0⟩] ≠ 0 := by
  refine ⟨?_, by decide +kernel, ?_, ?_, by decide +kernel⟩
  · exact .cons (by decide +kernel) (.cons (by decide +kernel) (.cons (by decide +kernel) .nil))
  · intro i a b ha hb
    match i, ha, hb with
    | 0, ha, hb => cases ha; cases hb; exact .inl (by decide +kernel)
    | 1, ha, hb => cases ha; cases hb; exact .inr (by decide +kernel)
    | 2, ha, hb => cases ha; cases hb; exact .inl (by decide +kernel)
  · unfold AlignedExact
    decide +kernel

/-- Whether a run stops at a failed assertion. -/
def chordStops (r : Res (Mesh ℚ × Option (Nat × List Nat))) : Bool :=
  match r with
  | abort => true
  | _ => false

/-- A cut along a side of the square, between neighbouring vertices or from a point on the side to its end, leaves a part
without area. It is not refused: the program stops. -/
theorem c114_flat_violated :
    chordStops (chordGeo.splitNoNewVertices id (1 / 1000000) chordBase 0 4 0 1 M3.one V3.zero) = true ∧
    chordStops (chordGeo.splitNewVertexFrom id (1 / 1000000) chordBase 0 4 0 1 M3.one V3.zero 4 [4, 5] true) = true ∧
    chordStops (chordGeo.splitNewVertexTo id (1 / 1000000) chordBase 0 4 1 0 M3.one V3.zero 4 [4, 5] true) = true := by
  decide +kernel

end Verif
