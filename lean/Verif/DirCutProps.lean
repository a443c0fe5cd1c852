import Verif.DirCutPathLemmas
import Verif.DirDefLemmas
import Verif.DirectionProps

/-
C118: the refinement of a polygon by a direction.
-/
namespace Verif

open Res

variable {K : Type} [Field K] [LinearOrder K] [IsStrictOrderedRing K]

/-- The outcome of the refinement of a polygon whose sides `k.hitOne.index` and `k.hitTwo.index` are met by the line: it is not
made, for the reasons given, or the sides that get a new vertex are halved, and the polygon is cut along a chord between the
two sides, or nothing is cut since a part would have no area or the chord no length.

Missing for the full statement: if the polygon is not cut after sides were halved, then the mesh is as before. What is listed
in `GivenUp` is as before; the lists of the edges at the vertices are not, see `c118_rollback_violated`. -/
theorem c118_outcome_partial (g : GeoCfg K) (sqrt : K → K) (h0 : sqrt 0 = 0) (tol2D : K) (m m' : Mesh K) (c : Nat)
    (triangle unalignedTriangle : Bool) (vs es : List Nat) (ps : List (V3 K)) (k : DirCheck K) (rotation : M3 K)
    (translation : V3 K) (dirs : List Bool) (extend : Bool) (r : DirResult) (h : DirInput m c vs es ps k)
    (hrun : g.refineByDirection sqrt tol2D m c triangle unalignedTriangle ps (.toBeSplit k) rotation translation dirs extend =
      ok (m', r)) :
    (r = .qualityFailed ∧ m' = m ∧ extend = true ∧
      ((unalignedTriangle = false ∧ notToExtend k.sideOne k.sideTwo = false) ∨
        (toSplitRelaxed k.sideOne k.sideTwo = false ∧ ∃ a b, FlatChord g sqrt ps a b ∧
          g.splitKind sqrt triangle unalignedTriangle ps k = ok (.noNewVertices a b)))) ∨
    ((extend = true → unalignedTriangle = false → notToExtend k.sideOne k.sideTwo = true) ∧
      ∃ kind, g.splitKind sqrt triangle unalignedTriangle ps k = ok kind ∧ kind ≠ .unknown ∧
      ((r = .underTolerance ∧ m' = m ∧ (kind = .newVertexFrom ∧ k.sideOne.verdict = .lengthNotEnough ∨
          kind = .newVertexTo ∧ k.sideTwo.verdict = .lengthNotEnough)) ∨
        ∃ S p q, CutOrNot g sqrt tol2D m m' c vs es dirs rotation translation S p q r ∧
          ChordEndOn m vs S k.hitOne.index p ∧ ChordEndOn m vs S k.hitTwo.index q ∧
          (k.hitOne.index ∈ S ↔ kind.onOne) ∧ (k.hitTwo.index ∈ S ↔ kind.onTwo) ∧
          (kind.onOne → k.hitOne.inside = true) ∧ (kind.onTwo → k.hitTwo.inside = true) ∧
          (∀ a b, kind = .noNewVertices a b → S = [] ∧ vs[a]? = some p ∧ vs[b]? = some q ∧ ¬ FlatChord g sqrt ps a b) ∧
          (kind = .newVertexFrom → S = [k.hitOne.index] ∧ k.sideOne.verdict ≠ .lengthNotEnough ∧
            ∃ v, vs[v]? = some q ∧ IsOpposite g sqrt ps k.hitOne.index k.hitTwo k.sideTwo false v) ∧
          (kind = .newVertexTo → S = [k.hitTwo.index] ∧ k.sideTwo.verdict ≠ .lengthNotEnough ∧
            ∃ v, vs[v]? = some p ∧ IsOpposite g sqrt ps k.hitTwo.index k.hitOne k.sideOne true v) ∧
          (kind = .newVertices → S = [k.hitOne.index, k.hitTwo.index]))) := by
  have i1 := h.lt_one
  have i2 := h.lt_two
  unfold GeoCfg.refineByDirection at hrun
  simp only [] at hrun
  split at hrun
  · rename_i hc
    cases hrun
    exact Or.inl ⟨rfl, rfl, hc.1, Or.inl ⟨hc.2.1, hc.2.2⟩⟩
  · rename_i hc
    obtain ⟨kind, hkind, hr⟩ := bind_eq_ok.1 hrun
    have hext : extend = true → unalignedTriangle = false → notToExtend k.sideOne k.sideTwo = true := by
      intro e1 e2
      by_contra hne
      exact hc ⟨e1, e2, by simpa using hne⟩
    cases kind with
    | unknown => cases hr
    | noNewVertices a b =>
      have hk := c117_vertices_partial g sqrt triangle unalignedTriangle ps k (by rw [h.points]; exact i1)
        (by rw [h.points]; exact i2) a b hkind
      obtain ⟨-, -, -, ha, hb, -⟩ := hk
      rw [h.points] at ha hb
      rcases refineCorners_spec (dirs := dirs) h h0 (ha.lt i1) (hb.lt i2) hr with
        ⟨hf, he, hs, rfl, rfl⟩ | ⟨hf, p, q, hp, hq, hcut⟩
      · exact Or.inl ⟨rfl, rfl, he, Or.inr ⟨hs, a, b, hf, hkind⟩⟩
      · refine Or.inr ⟨hext, _, hkind, by simp, Or.inr ⟨[], p, q, hcut, Or.inr ⟨by simp, a, ha, hp⟩, Or.inr ⟨by simp, b, hb, hq⟩, ?_⟩⟩
        refine ⟨by simp [SplitKind.onOne], by simp [SplitKind.onTwo], by simp [SplitKind.onOne], by simp [SplitKind.onTwo],
          ?_, by simp, by simp, by simp⟩
        intro a' b' he
        cases he
        exact ⟨rfl, hp, hq, hf⟩
    | newVertexFrom =>
      refine Or.inr ⟨hext, _, hkind, by simp, ?_⟩
      rcases refineFrom_spec h hr with ⟨hl, rfl, rfl⟩ | ⟨hl, hin, v, q, hopp, hq, hcut⟩
      · exact Or.inl ⟨rfl, rfl, Or.inl ⟨rfl, hl⟩⟩
      · refine Or.inr ⟨_, _, q, hcut, Or.inl ⟨0, rfl, rfl⟩,
          Or.inr ⟨by simpa using h.apart.symm, v, h.points ▸ hopp.isEnd, hq⟩, ?_⟩
        refine ⟨by simp [SplitKind.onOne], by simpa [SplitKind.onTwo] using h.apart.symm, fun _ => hin, by simp [SplitKind.onTwo],
          by simp, fun _ => ⟨rfl, hl, v, hq, hopp⟩, by simp, by simp⟩
    | newVertexTo =>
      refine Or.inr ⟨hext, _, hkind, by simp, ?_⟩
      rcases refineTo_spec h hr with ⟨hl, rfl, rfl⟩ | ⟨hl, hin, v, p, hopp, hp, hcut⟩
      · exact Or.inl ⟨rfl, rfl, Or.inr ⟨rfl, hl⟩⟩
      · refine Or.inr ⟨_, p, _, hcut, Or.inr ⟨by simpa using h.apart, v, h.points ▸ hopp.isEnd, hp⟩,
          Or.inl ⟨0, rfl, rfl⟩, ?_⟩
        refine ⟨by simpa [SplitKind.onOne] using h.apart, by simp [SplitKind.onTwo], by simp [SplitKind.onOne], fun _ => hin,
          by simp, by simp, fun _ => ⟨rfl, hl, v, hp, hopp⟩, by simp⟩
    | newVertices =>
      refine Or.inr ⟨hext, _, hkind, by simp, ?_⟩
      obtain ⟨hin, hin', hcut⟩ := refineBoth_spec h hr
      exact Or.inr ⟨_, _, _, hcut, Or.inl ⟨0, rfl, rfl⟩, Or.inl ⟨1, rfl, rfl⟩, by simp [SplitKind.onOne],
        by simp [SplitKind.onTwo], fun _ => hin, fun _ => hin', by simp, by simp, by simp, fun _ => rfl⟩

/-- When there is an outcome: the kind of the split is known, the line meets the sides to be halved inside, and each end of the
chord at a corner has an admissible choice. Then the refinement has a result, unless the area of a part cannot be computed. -/
theorem c118_defined (g : GeoCfg K) (sqrt : K → K) (h0 : sqrt 0 = 0) (tol2D : K) (m : Mesh K) (c : Nat)
    (triangle unalignedTriangle : Bool) (vs es : List Nat) (ps : List (V3 K)) (k : DirCheck K) (rotation : M3 K)
    (translation : V3 K) (dirs : List Bool) (extend : Bool) (kind : SplitKind) (h : DirInput m c vs es ps k)
    (hd : dirs.length = vs.length) (hkind : g.splitKind sqrt triangle unalignedTriangle ps k = ok kind)
    (hknown : kind ≠ .unknown) (hone : kind.onOne → k.hitOne.inside = true) (htwo : kind.onTwo → k.hitTwo.inside = true)
    (hfrom : kind = .newVertexFrom → ∃ v, IsOpposite g sqrt ps k.hitOne.index k.hitTwo k.sideTwo false v)
    (hto : kind = .newVertexTo → ∃ v, IsOpposite g sqrt ps k.hitTwo.index k.hitOne k.sideOne true v)
    (hflat : ∀ a b, kind = .noNewVertices a b → ¬ FlatChord g sqrt ps a b) :
    (∃ m' r, g.refineByDirection sqrt tol2D m c triangle unalignedTriangle ps (.toBeSplit k) rotation translation dirs extend =
      ok (m', r)) ∨ AreaUndefined g sqrt tol2D m vs es dirs rotation translation := by
  have pack : ∀ {x : Res (Mesh K × DirResult)}, (∃ y, x = ok y) → ∃ m' r, x = ok (m', r) := by
    rintro x ⟨⟨m', r⟩, e⟩
    exact ⟨m', r, e⟩
  unfold GeoCfg.refineByDirection
  simp only []
  split
  · exact Or.inl ⟨_, _, rfl⟩
  · rw [hkind, ok_bind]
    cases kind with
    | unknown => exact absurd rfl hknown
    | noNewVertices a b =>
      obtain ⟨-, -, -, ha, hb, -⟩ := c117_vertices_partial g sqrt triangle unalignedTriangle ps k
        (by rw [h.points]; exact h.lt_one) (by rw [h.points]; exact h.lt_two) a b hkind
      rw [h.points] at ha hb
      exact (refineCorners_defined h h0 (ha.lt h.lt_one) (hb.lt h.lt_two) (hflat a b rfl)).imp_left pack
    | newVertexFrom => exact (refineFrom_defined h hd (hone (by simp [SplitKind.onOne])) (hfrom rfl)).imp_left pack
    | newVertexTo => exact (refineTo_defined h hd (htwo (by simp [SplitKind.onTwo])) (hto rfl)).imp_left pack
    | newVertices =>
      exact (refineBoth_defined h hd (hone (by simp [SplitKind.onOne])) (htwo (by simp [SplitKind.onTwo]))).imp_left pack

/-- The refinement is put off if a neighbour objects to a side and the polygon objects to none of the two; a chord along sides
is put off if for one of the sides a neighbour objects and not the polygon. -/
theorem c118_extend (one two : SideCheck) :
    (notToExtend one two = false ↔ (one.verdict.blamed.2 = true ∨ two.verdict.blamed.2 = true) ∧
      one.verdict.blamed.1 = false ∧ two.verdict.blamed.1 = false) ∧
    (toSplitRelaxed one two = false ↔ one.verdict.blamed = (false, true) ∨ two.verdict.blamed = (false, true)) := by
  unfold notToExtend toSplitRelaxed
  generalize one.verdict = v
  generalize two.verdict = w
  constructor <;> cases v <;> cases w <;> decide

/-- Without the verdict that the polygon is to be split, nothing happens. -/
theorem c118_not_to_be_split (g : GeoCfg K) (sqrt : K → K) (tol2D : K) (m : Mesh K) (c : Nat)
    (triangle unalignedTriangle : Bool) (ps : List (V3 K)) (rotation : M3 K)
    (translation : V3 K) (dirs : List Bool) (extend : Bool) :
    g.refineByDirection sqrt tol2D m c triangle unalignedTriangle ps .alreadySplit rotation translation dirs extend =
      ok (m, .alreadySplit) ∧
    g.refineByDirection sqrt tol2D m c triangle unalignedTriangle ps .underTolerance rotation translation dirs extend =
      ok (m, .underTolerance) ∧
    g.refineByDirection sqrt tol2D m c triangle unalignedTriangle ps .notInside rotation translation dirs extend =
      ok (m, .notInside) := ⟨rfl, rfl, rfl⟩

/-- A refinement that is reported as successful: the polygon was cut, and the report names the new cells. -/
theorem c118_success (g : GeoCfg K) (sqrt : K → K) (h0 : sqrt 0 = 0) (tol2D : K) (m m' : Mesh K) (c : Nat)
    (triangle unalignedTriangle : Bool) (vs es : List Nat) (ps : List (V3 K)) (k : DirCheck K) (rotation : M3 K)
    (translation : V3 K) (dirs : List Bool) (extend : Bool) (ws : List Nat) (edges : List RefinedEdge) (cells : List Nat)
    (h : DirInput m c vs es ps k)
    (hrun : g.refineByDirection sqrt tol2D m c triangle unalignedTriangle ps (.toBeSplit k) rotation translation dirs extend =
      ok (m', .successful ws edges cells)) :
    ∃ S p q mid X Y, CutBy m mid m' c vs es dirs S p q X Y ∧ Reported m es S ws edges cells ∧
      ChordEndOn m vs S k.hitOne.index p ∧ ChordEndOn m vs S k.hitTwo.index q ∧
      ∀ i ∈ S, i = k.hitOne.index ∨ i = k.hitTwo.index := by
  rcases c118_outcome_partial g sqrt h0 tol2D m m' c triangle unalignedTriangle vs es ps k rotation translation dirs extend _ h
    hrun with ⟨hr, -⟩ | ⟨-, kind, -, hk, ⟨hr, -⟩ | ⟨S, p, q, hcut, hp, hq, -, -, -, -, c1, c2, c3, c4⟩⟩
  · cases hr
  · cases hr
  · obtain ⟨mid, X, Y, hS, hH, ⟨hr, -⟩ | ⟨ws', edges', cells', hr, hrep, hC⟩⟩ := hcut
    · cases hr
    · cases hr
      refine ⟨S, p, q, mid, X, Y, ⟨hS, hH, hC⟩, hrep, hp, hq, ?_⟩
      intro i hi
      cases kind with
      | unknown => exact absurd rfl hk
      | noNewVertices a b => rw [(c1 a b rfl).1] at hi; simp at hi
      | newVertexFrom => rw [(c2 rfl).1] at hi; simp at hi; exact Or.inl hi
      | newVertexTo => rw [(c3 rfl).1] at hi; simp at hi; exact Or.inr hi
      | newVertices => rw [c4 rfl] at hi; simpa using hi

/-- The two new polygons are closed paths of edges that name them as neighbours on the proper side. -/
theorem c118_encloses (m mid m' : Mesh K) (c : Nat) (vs es : List Nat) (dirs : List Bool) (S : List Nat) (p q : Nat)
    (X Y : List (Nat × Nat)) (hb : BoundedBy m c vs es) (hn : es.Nodup) (hR : RunsAlong m c vs es dirs)
    (hC : CutBy m mid m' c vs es dirs S p q X Y) :
    ∃ A B, m'.row .vert2 (m.num .d2) = ok (A.map Prod.fst) ∧ m'.row .edge2 (m.num .d2) = ok (A.map Prod.snd) ∧
      Encloses m' (m.num .d2) A ∧
      m'.row .vert2 (m.num .d2 + 1) = ok (B.map Prod.fst) ∧ m'.row .edge2 (m.num .d2 + 1) = ok (B.map Prod.snd) ∧
      Encloses m' (m.num .d2 + 1) B := by
  have := c114_encloses mid m' c p q _ X Y hC.halves hC.cut (halved_encloses hb hR hC.sides) (boundary_once hb hR.1 hn _)
  rwa [hC.sides.num2] at this

/-- The areas of the two new polygons add up to the area of the old one. -/
theorem c118_area (m mid m' : Mesh K) (c : Nat) (vs es : List Nat) (dirs : List Bool) (S : List Nat) (p q : Nat)
    (X Y : List (Nat × Nat)) (hb : BoundedBy m c vs es) (hR : RunsAlong m c vs es dirs)
    (hC : CutBy m mid m' c vs es dirs S p q X Y) (pt : Nat → V3 K) (hp : ∀ v x, m'.point v = ok x → pt v = x) :
    ∃ A B, m'.row .vert2 (m.num .d2) = ok A ∧ m'.row .vert2 (m.num .d2 + 1) = ok B ∧
      shoelace (A.map pt) + shoelace (B.map pt) = shoelace (vs.map pt) := by
  have hon := halved_onSides hb hR hC.sides pt (fun v x hx => by
    apply hp
    have hv := lt_of_point hx
    rw [point_congr (hC.cut.coordinates v hv), hx])
  have := c114_area mid m' c p q vs es _ X Y hC.halves hC.cut hb.count pt hon
  rwa [hC.sides.num2] at this

/-! ### A square -/

/-- The square with the side 4, with the neighbours of vertices and edges; the edge 2 runs against the polygon. -/
def dirOps : List (Op ℚ) :=
  [.append .d0 4, .insertCoord 1 4 0 0, .insertCoord 2 4 4 0, .insertCoord 3 0 4 0,
   .append .d1 4, .insertExt 0 0 1, .insertExt 1 1 2, .insertExt 2 3 2, .insertExt 3 3 0,
   .setAct .d1 0 true, .setAct .d1 1 true, .setAct .d1 2 true, .setAct .d1 3 true, .setMark .d1 0 5,
   .append .d2 1, .addRow .vert2 0 [0, 1, 2, 3],
   .addRow .edge2 0 [0, 1, 2, 3], .setAct .d2 0 true, .setMark .d2 0 7,
   .resizeRow .nb12 0 2, .insertEntry .nb12 0 1 0, .resizeRow .nb12 1 2, .insertEntry .nb12 1 1 0,
   .resizeRow .nb12 2 2, .insertEntry .nb12 2 0 0, .resizeRow .nb12 3 2, .insertEntry .nb12 3 1 0,
   .addRow .nb01 0 [0, 3], .addRow .nb01 1 [0, 1], .addRow .nb01 2 [1, 2], .addRow .nb01 3 [2, 3]]

def dirBase : Mesh ℚ :=
  match Mesh.empty.run dirOps with
  | ok m => m
  | _ => Mesh.empty

theorem dirBase_run : (Mesh.empty : Mesh ℚ).run dirOps = ok dirBase := by
  have h : (match (Mesh.empty : Mesh ℚ).run dirOps with | ok _ => true | _ => false) = true := by
    decide +kernel
  unfold dirBase
  revert h
  cases (Mesh.empty : Mesh ℚ).run dirOps <;> simp

theorem dirBase_wf : dirBase.WF := by
  refine Mesh.run_wf_of_ok (ops := dirOps) Mesh.empty_wf (Mesh.along_of_forall ?_ _) dirBase_run
  intro o ho m
  simp only [dirOps, List.mem_cons, List.not_mem_nil, or_false] at ho
  repeat (rcases ho with rfl | ho; · trivial)

def dirPoints : List (V3 ℚ) := [⟨0, 0, 0⟩, ⟨4, 0, 0⟩, ⟨4, 4, 0⟩, ⟨0, 4, 0⟩]

/-- The line through the middles of the sides 0 and 2. -/
def dirMiddle (one two : SideCheck) : DirCheck ℚ := ⟨0, 2, ⟨0, 1 / 2, true⟩, ⟨2, 1 / 2, true⟩, one, two⟩

/-- Verdicts about a side. -/
def sideYes : SideCheck := { verdict := .toSplit, isToSplit := true }
def sideNo : SideCheck := { verdict := .bothQuality, isToSplit := false }

/-- The hypotheses of the theorems, for the square. -/
theorem dirBase_input (one two : SideCheck) :
    DirInput dirBase 0 [0, 1, 2, 3] [0, 1, 2, 3] dirPoints (dirMiddle one two) where
  wf := dirBase_wf
  bounded := ⟨by decide +kernel, by decide +kernel, rfl, by decide +kernel, by decide +kernel⟩
  points := rfl
  once := by decide
  ends := by
    intro e he
    simp only [List.mem_cons, List.not_mem_nil, or_false] at he
    rcases he with rfl | rfl | rfl | rfl
    · exact ⟨0, 1, by decide +kernel, by decide +kernel, by decide +kernel⟩
    · exact ⟨1, 2, by decide +kernel, by decide +kernel, by decide +kernel⟩
    · exact ⟨3, 2, by decide +kernel, by decide +kernel, by decide +kernel⟩
    · exact ⟨3, 0, by decide +kernel, by decide +kernel, by decide +kernel⟩
  one := rfl
  two := rfl
  apart := by show (0 : Nat) ≠ 2; decide

example : RunsAlong dirBase 0 [0, 1, 2, 3] [0, 1, 2, 3] [true, true, false, true] := by
  refine ⟨rfl, ?_⟩
  intro i a b e d ha hb he hd
  match i with
  | 0 => cases ha; cases hb; cases he; cases hd; exact ⟨by decide +kernel, UINT_MAX, 0, by decide +kernel, rfl⟩
  | 1 => cases ha; cases hb; cases he; cases hd; exact ⟨by decide +kernel, UINT_MAX, 0, by decide +kernel, rfl⟩
  | 2 => cases ha; cases hb; cases he; cases hd; exact ⟨by decide +kernel, 0, UINT_MAX, by decide +kernel, rfl⟩
  | 3 => cases ha; cases hb; cases he; cases hd; exact ⟨by decide +kernel, UINT_MAX, 0, by decide +kernel, rfl⟩
  | i + 4 => simp at ha

/-- A root that is exact for squares. -/
def ratRoot (x : ℚ) : ℚ := (Nat.sqrt x.num.toNat : ℚ) / (Nat.sqrt x.den : ℚ)

example : ratRoot 0 = 0 := by decide +kernel

/-- What is seen of a result. -/
def dirView (x : Res (Mesh ℚ × DirResult)) : Option (DirResult × List (Res (List Nat))) :=
  match x with
  | ok (m, r) => some (r, [m.row .vert2 1, m.row .edge2 1, m.row .vert2 2, m.row .edge2 2])
  | _ => none

/-- Both sides get a new vertex. -/
example : dirView (chordGeo.refineByDirection ratRoot (1 / 1000000) dirBase 0 false false dirPoints
      (.toBeSplit (dirMiddle sideYes sideYes)) M3.one V3.zero [true, true, false, true] false) =
    some (.successful [4, 5] [.updated 0 0 [4, 5] 4, .updated 2 2 [6, 7] 5, .new 8] [1, 2],
      [ok [4, 1, 2, 5], ok [5, 1, 7, 8], ok [5, 3, 0, 4], ok [6, 3, 4, 8]]) := by decide +kernel

/-- Only the first, only the second, or none. -/
example : dirView (chordGeo.refineByDirection ratRoot (1 / 1000000) dirBase 0 false false dirPoints
      (.toBeSplit (dirMiddle sideYes sideNo)) M3.one V3.zero [true, true, false, true] false) =
    some (.successful [4] [.updated 0 0 [4, 5] 4, .new 6] [1, 2],
      [ok [4, 1, 2], ok [5, 1, 6], ok [2, 3, 0, 4], ok [2, 3, 4, 6]]) := by decide +kernel

example : dirView (chordGeo.refineByDirection ratRoot (1 / 1000000) dirBase 0 false false dirPoints
      (.toBeSplit (dirMiddle sideNo sideYes)) M3.one V3.zero [true, true, false, true] false) =
    some (.successful [4] [.updated 2 2 [4, 5] 4, .new 6] [1, 2],
      [ok [0, 1, 2, 4], ok [0, 1, 5, 6], ok [4, 3, 0], ok [4, 3, 6]]) := by decide +kernel

example : dirView (chordGeo.refineByDirection ratRoot (1 / 1000000) dirBase 0 false false dirPoints
      (.toBeSplit (dirMiddle sideNo sideNo)) M3.one V3.zero [true, true, false, true] false) =
    some (.successful [] [.new 4] [1, 2],
      [ok [0, 1, 2], ok [0, 1, 4], ok [2, 3, 0], ok [2, 3, 4]]) := by decide +kernel

/-- The hypotheses of `c118_defined`, for the square with both sides halved. -/
example : chordGeo.splitKind ratRoot false false dirPoints (dirMiddle sideYes sideYes) = ok .newVertices ∧
    (dirMiddle sideYes sideYes).hitOne.inside = true ∧ (dirMiddle sideYes sideYes).hitTwo.inside = true ∧
    [true, true, false, true].length = [0, 1, 2, 3].length := by decide +kernel

/-- A refinement that is given up does not leave the mesh as it was: with a tolerance for areas above the area of a half of the
square, the halves of the side 0 and the new vertex are removed again and the side is active, but its ends do not list it
any more. -/
theorem c118_rollback_violated : dirBase.row .nb01 0 = ok [0, 3] ∧
    ∃ m', chordGeo.refineByDirection ratRoot 100 dirBase 0 false false dirPoints
      (.toBeSplit (dirMiddle sideYes sideNo)) M3.one V3.zero [true, true, false, true] false = ok (m', .underTolerance) ∧
      m'.num .d0 = 4 ∧ m'.num .d1 = 4 ∧ m'.active .d1 0 = ok true ∧ m'.row .nb01 0 = ok [UINT_MAX, 3] := by
  refine ⟨by decide +kernel, ?_⟩
  have h : (match chordGeo.refineByDirection ratRoot 100 dirBase 0 false false dirPoints
      (.toBeSplit (dirMiddle sideYes sideNo)) M3.one V3.zero [true, true, false, true] false with
    | ok (m', r) => decide (r = .underTolerance ∧ m'.num .d0 = 4 ∧ m'.num .d1 = 4 ∧ m'.active .d1 0 = ok true ∧
        m'.row .nb01 0 = ok [UINT_MAX, 3])
    | _ => false) = true := by decide +kernel
  revert h
  cases chordGeo.refineByDirection ratRoot 100 dirBase 0 false false dirPoints
      (.toBeSplit (dirMiddle sideYes sideNo)) M3.one V3.zero [true, true, false, true] false with
  | ok x =>
    obtain ⟨m', r⟩ := x
    intro h
    have h := of_decide_eq_true h
    obtain ⟨rfl, h1, h2, h3, h4⟩ := h
    exact ⟨m', rfl, h1, h2, h3, h4⟩
  | _ => intro h; simp at h

end Verif
