import Verif.NormalLemmas
import Verif.GraphLemmas2
import Verif.CheckProps

/-!
# C102 and C103: directions of the normals and convexity of polyhedra
-/

namespace Verif
open Res

variable {K : Type} [Field K] [LinearOrder K] [IsStrictOrderedRing K]

/-! ### C102 -/

/-- The faces have a first vertex and a normal different from zero. -/
def HaveNormals (faces : List (List (V3 K))) (normals : List (V3 K)) : Prop :=
  ∀ (f : Nat) vs, faces[f]? = some vs → ∃ o n, vs[0]? = some o ∧ normals[f]? = some n ∧ 0 < along n n

/-- C102, with a point inside: the direction of a face is true exactly if the point is on the side opposite to the
normal; so the normal, turned if its direction is false, points away from the point. -/
theorem c102_point {sqrt : K → K} (hs : IsSqrt sqrt) (g : GeoCfg K) (h0 : 0 ≤ g.minTolerance)
    (faces : List (List (V3 K))) (normals : List (V3 K)) (p : V3 K) (hn : HaveNormals faces normals)
    (hp : ∀ (f : Nat) vs o n, faces[f]? = some vs → vs[0]? = some o → normals[f]? = some n →
      g.tol1D * n.norm sqrt < |side n o p|) :
    ∃ ds, g.normalDirections sqrt faces p normals = ok ds ∧ ds.length = faces.length ∧
      ∀ (f : Nat) vs o n, faces[f]? = some vs → vs[0]? = some o → normals[f]? = some n →
        ∃ d, ds[f]? = some d ∧ (d = true ↔ side n o p < 0) ∧
          (if d = true then side n o p else -side n o p) < 0 := by
  have hstep : ∀ i (hi : i < faces.length), ∃ d o n, faces[i][0]? = some o ∧ normals[i]? = some n ∧
      (do
        let n ← vget normals i
        let vs ← vget faces i
        let o ← vget vs 0
        let position := g.pointPlane sqrt p n o
        assert (position = -1 ∨ position = 1)
        ok (!decide (position = 1))) = ok d ∧ (d = true ↔ side n o p < 0) ∧
          (if d = true then side n o p else -side n o p) < 0 := by
    intro i hi
    have hf := List.getElem?_eq_getElem hi
    obtain ⟨o, n, ho, hn', hpos⟩ := hn i _ hf
    have hd := hp i _ o n hf ho hn'
    have hT0 := g.tol1D_nonneg h0
    have hN := norm_pos hs (hpos : 0 < n.dot n)
    have hTN : 0 ≤ g.tol1D * n.norm sqrt := mul_nonneg hT0 hN.le
    have hside : n.dot (p.sub o) = side n o p := rfl
    obtain ⟨c1, c2, -⟩ := pointPlane_iff hs g h0 p n o hpos
    rw [hside] at c1 c2
    rw [vget_eq_ok.2 hn', ok_bind, vget_of_lt hi, ok_bind, vget_eq_ok.2 ho, ok_bind]
    rcases lt_abs.1 hd with h | h
    · have e := c1.2 h
      refine ⟨false, o, n, ho, hn', ?_, ?_, ?_⟩
      · change (assert (g.pointPlane sqrt p n o = -1 ∨ g.pointPlane sqrt p n o = 1) >>= fun _ =>
          ok (!decide (g.pointPlane sqrt p n o = 1))) = _
        rw [e, assert_true (Or.inr rfl), ok_bind]
        rfl
      · simp only [Bool.false_eq_true, false_iff, not_lt]; linarith
      · simp only [Bool.false_eq_true, if_false]; linarith
    · have e := c2.2 (by linarith)
      refine ⟨true, o, n, ho, hn', ?_, ?_, ?_⟩
      · change (assert (g.pointPlane sqrt p n o = -1 ∨ g.pointPlane sqrt p n o = 1) >>= fun _ =>
          ok (!decide (g.pointPlane sqrt p n o = 1))) = _
        rw [e, assert_true (Or.inl rfl), ok_bind]
        rfl
      · simp only [true_iff]; linarith
      · simp only [if_true]; linarith
  choose d o n e1 e2 e3 e4 e5 using hstep
  have hmap : g.normalDirections sqrt faces p normals =
      ok ((List.range faces.length).attach.map fun i => d i.1 (List.mem_range.1 i.2)) := by
    unfold GeoCfg.normalDirections
    rw [mapRes_eq_ok, List.forall₂_iff_get]
    refine ⟨by simp, ?_⟩
    intro i h1 h2
    simp only [List.length_range] at h1
    simp only [List.get_eq_getElem, List.getElem_range, List.getElem_map, List.getElem_attach]
    exact e3 i h1
  refine ⟨_, hmap, by simp, ?_⟩
  intro f vs o' n' hf ho' hn'
  obtain ⟨hlt, hvs⟩ := List.getElem?_eq_some_iff.1 hf
  subst hvs
  have i1 := e1 f hlt
  have i2 := e2 f hlt
  rw [ho'] at i1
  rw [hn'] at i2
  have i3 := e4 f hlt
  have i4 := e5 f hlt
  rw [← Option.some.inj i1, ← Option.some.inj i2] at i3 i4
  refine ⟨d f hlt, ?_, i3, i4⟩
  rw [List.getElem?_eq_getElem (by simpa using hlt)]
  simp

/-- C102, with a point inside: a point in the plane of a face, up to the tolerance, fails an assertion. -/
theorem c102_point_abort {sqrt : K → K} (hs : IsSqrt sqrt) (g : GeoCfg K) (h0 : 0 ≤ g.minTolerance)
    (faces : List (List (V3 K))) (normals : List (V3 K)) (p : V3 K) (hn : HaveNormals faces normals)
    (hp : ∃ f : Nat, ∃ vs o n, faces[f]? = some vs ∧ vs[0]? = some o ∧ normals[f]? = some n ∧
      |side n o p| ≤ g.tol1D * n.norm sqrt) :
    g.normalDirections sqrt faces p normals = abort := by
  obtain ⟨f, vs, o, n, hf, ho, hn', hle⟩ := hp
  have hstep : ∀ i, i < faces.length → ((do
        let n ← vget normals i
        let vs ← vget faces i
        let o ← vget vs 0
        let position := g.pointPlane sqrt p n o
        assert (position = -1 ∨ position = 1)
        ok (!decide (position = 1))) = (abort : Res Bool)) ∨ ∃ d, (do
        let n ← vget normals i
        let vs ← vget faces i
        let o ← vget vs 0
        let position := g.pointPlane sqrt p n o
        assert (position = -1 ∨ position = 1)
        ok (!decide (position = 1))) = ok d := by
    intro i hi
    obtain ⟨o, n, ho, hn', -⟩ := hn i _ (List.getElem?_eq_getElem hi)
    rw [vget_eq_ok.2 hn', ok_bind, vget_of_lt hi, ok_bind, vget_eq_ok.2 ho, ok_bind]
    by_cases h : g.pointPlane sqrt p n o = -1 ∨ g.pointPlane sqrt p n o = 1
    · right
      simp only
      rw [assert_true h, ok_bind]
      exact ⟨_, rfl⟩
    · left
      simp only
      rw [assert_false h]
      rfl
  have hbad : (do
        let n ← vget normals f
        let vs ← vget faces f
        let o ← vget vs 0
        let position := g.pointPlane sqrt p n o
        assert (position = -1 ∨ position = 1)
        ok (!decide (position = 1))) = (abort : Res Bool) := by
    obtain ⟨o', n', ho', hn'', hpos⟩ := hn f _ hf
    rw [ho] at ho'
    rw [hn'] at hn''
    obtain rfl := Option.some.inj ho'
    obtain rfl := Option.some.inj hn''
    have e := (pointPlane_iff hs g h0 p n o hpos).2.2.2 hle
    rw [vget_eq_ok.2 hn', ok_bind, vget_eq_ok.2 hf, ok_bind, vget_eq_ok.2 ho, ok_bind]
    change (assert (g.pointPlane sqrt p n o = -1 ∨ g.pointPlane sqrt p n o = 1) >>= fun _ =>
      ok (!decide (g.pointPlane sqrt p n o = 1))) = _
    rw [e, assert_false (by decide)]
    rfl
  unfold GeoCfg.normalDirections
  have hmem : f ∈ List.range faces.length := List.mem_range.2 (List.getElem?_eq_some_iff.1 hf).1
  have hall : ∀ i ∈ List.range faces.length, i < faces.length := fun i hi => List.mem_range.1 hi
  generalize List.range faces.length = l at hmem hall
  induction l with
  | nil => simp at hmem
  | cons i l ih =>
    rw [mapRes]
    rcases hstep i (hall i List.mem_cons_self) with h | ⟨d, h⟩
    · rw [h]; rfl
    · rw [h, ok_bind]
      rcases List.mem_cons.1 hmem with k | k
      · subst k
        rw [hbad] at h
        cases h
      · rw [ih k fun j hj => hall j (List.mem_cons_of_mem _ hj)]
        rfl

/-- C102, with rays: if the rays stay away from the borders of the faces, and two faces are not met at the same
place, the direction of a face is true exactly if its ray passes through an even number of other faces.
Partial: if a ray meets a vertex or an edge, the direction is wrong if a ray before met it as well, see
`c102_rays_violated`. -/
theorem c102_rays_partial {sqrt : K → K} (hs : IsSqrt sqrt) (g : GeoCfg K) (h0 : 0 ≤ g.minTolerance)
    (hT : g.tol1D < 1 / 2) (ht : 0 ≤ g.tolerance1D) (numVertices numEdges : Nat) (faces : List (NormalFace K))
    (hunit : ∀ f ∈ faces, along f.normal f.normal = 1)
    (hclear : ∀ (f1 f2 : Nat) a b, f1 ≠ f2 → faces[f1]? = some a → faces[f2]? = some b → g.RayClear a b)
    (hap : ∀ (f1 f2 f3 : Nat) a b c s t, f1 ≠ f2 → f1 ≠ f3 → f2 ≠ f3 → faces[f1]? = some a → faces[f2]? = some b →
      faces[f3]? = some c → Crosses a b s → Crosses a c t → g.Apart s t) :
    g.normalDirectionsByRays sqrt numVertices numEdges faces =
      ok ((List.range faces.length).map fun f => decide (crossings faces f % 2 = 0)) := by
  classical
  have hone : ∀ f1, f1 < faces.length → ∀ st : RayMarks K, ∃ cs, cs.length = crossings faces f1 ∧
      g.rayOfFace sqrt faces f1 st = ok { st with coords := cs } := by
    intro f1 hf1 st
    have h1 := List.getElem?_eq_getElem hf1
    unfold GeoCfg.rayOfFace
    rw [vget_of_lt hf1, ok_bind]
    obtain ⟨cs, e1, e2⟩ := rayLoop_clear' hs g h0 hT ht h1 hunit
      (fun f2 other hne ho => hclear f1 f2 _ other (Ne.symm hne) h1 ho)
      (fun f2 f3 a b s t h2 h3 h23 ha hb h4 h5 => hap f1 f2 f3 _ a b s t (Ne.symm h2) (Ne.symm h3) h23 h1 ha hb h4 h5)
      (List.range faces.length) (fun i hi => List.mem_range.1 hi) List.nodup_range { st with coords := [] }
      (by simp)
    exact ⟨cs, by rw [e1]; rfl, by rw [e2]; simp⟩
  have hloop : ∀ (l : List Nat), (∀ i ∈ l, i < faces.length) → ∀ st : RayMarks K × List Bool,
      ∃ m, foldRes (fun (st : RayMarks K × List Bool) f1 => do
        let m ← g.rayOfFace sqrt faces f1 st.1
        ok (m, st.2 ++ [decide (m.coords.length % 2 = 0)])) st l =
        ok (m, st.2 ++ l.map fun f => decide (crossings faces f % 2 = 0)) := by
    intro l
    induction l with
    | nil => intro _ st; exact ⟨st.1, by simp⟩
    | cons i l ih =>
      intro hl st
      obtain ⟨cs, e1, e2⟩ := hone i (hl i List.mem_cons_self) st.1
      obtain ⟨m, e3⟩ := ih (fun j hj => hl j (List.mem_cons_of_mem _ hj))
        ({ st.1 with coords := cs }, st.2 ++ [decide (crossings faces i % 2 = 0)])
      refine ⟨m, ?_⟩
      rw [foldRes_cons, e2, ok_bind, ok_bind]
      simp only [e1]
      rw [e3]
      simp
  unfold GeoCfg.normalDirectionsByRays
  obtain ⟨m, e⟩ := hloop (List.range faces.length) (fun i hi => List.mem_range.1 hi)
    (⟨List.replicate numVertices false, List.replicate numEdges false, []⟩, [])
  rw [e, ok_bind]
  simp

/-- A face of the unit cube: the corner `o`, the directions `u` and `v` of the sides and the normal `n`. -/
def cubeFace {K : Type} [Field K] (o u v n : V3 K) : NormalFace K :=
  ⟨[], [o, o.add u, (o.add u).add v, o.add v], [⟨0, 0, 0⟩, ⟨1, 0, 0⟩, ⟨1, 1, 0⟩, ⟨0, 1, 0⟩],
    o.add (V3.smul (1 / 2) (u.add v)), n, true, o, ⟨u.x, v.x, n.x, u.y, v.y, n.y, u.z, v.z, n.z⟩⟩

/-- The unit cube with normals to the inside. -/
def normalCube (K : Type) [Field K] : List (NormalFace K) :=
  [cubeFace ⟨0, 0, 0⟩ ⟨1, 0, 0⟩ ⟨0, 1, 0⟩ ⟨0, 0, 1⟩, cubeFace ⟨0, 0, 1⟩ ⟨0, 1, 0⟩ ⟨1, 0, 0⟩ ⟨0, 0, -1⟩,
    cubeFace ⟨0, 0, 0⟩ ⟨0, 1, 0⟩ ⟨0, 0, 1⟩ ⟨1, 0, 0⟩, cubeFace ⟨1, 0, 0⟩ ⟨0, 0, 1⟩ ⟨0, 1, 0⟩ ⟨-1, 0, 0⟩,
    cubeFace ⟨0, 0, 0⟩ ⟨0, 0, 1⟩ ⟨1, 0, 0⟩ ⟨0, 1, 0⟩, cubeFace ⟨0, 1, 0⟩ ⟨1, 0, 0⟩ ⟨0, 0, 1⟩ ⟨0, -1, 0⟩]

theorem square_clear {p : V3 ℝ} (h : p = ⟨1 / 2, 1 / 2, 0⟩) (v : Nat) (a b : V3 ℝ)
    (he : IsEdge [⟨0, 0, 0⟩, ⟨1, 0, 0⟩, ⟨1, 1, 0⟩, ⟨0, 1, 0⟩] v a b) : defaultGeo.ClearOfRay p a b := by
  subst h
  obtain ⟨h1, h2⟩ := he
  have hv : v < 4 := by simpa using (List.getElem?_eq_some_iff.1 h1).1
  have hw : ∀ x y : V3 ℝ, some x = some y → y = x := fun x y h => (Option.some.inj h).symm
  interval_cases v <;>
    (obtain rfl := hw _ _ h1; obtain rfl := hw _ _ h2; unfold GeoCfg.ClearOfRay; rw [defaultGeo_tol1D]; norm_num)

theorem normalCube_clear (f1 f2 : Nat) (a b : NormalFace ℝ) (hne : f1 ≠ f2) (ha : (normalCube ℝ)[f1]? = some a)
    (hb : (normalCube ℝ)[f2]? = some b) :
    defaultGeo.RayClear a b ∧ (along a.normal b.normal ≠ 0 → f2 = if f1 % 2 = 0 then f1 + 1 else f1 - 1) := by
  have h1 : f1 < 6 := (List.getElem?_eq_some_iff.1 ha).1
  have h2 : f2 < 6 := (List.getElem?_eq_some_iff.1 hb).1
  have hw : ∀ x y : NormalFace ℝ, some x = some y → y = x := fun x y h => (Option.some.inj h).symm
  by_cases hpar : along a.normal b.normal = 0
  · refine ⟨?_, fun h => absurd hpar h⟩
    have hshape : ∃ o u v n, b = cubeFace o u v n := by
      clear hne
      interval_cases f2 <;> (obtain rfl := hw _ _ hb; exact ⟨_, _, _, _, rfl⟩)
    obtain ⟨o, u, v, n, rfl⟩ := hshape
    exact ⟨o, rfl, by simp [cubeFace], Or.inl hpar⟩
  · interval_cases f1 <;> interval_cases f2 <;> first
    | exact absurd rfl hne
    | (obtain rfl := hw _ _ ha
       obtain rfl := hw _ _ hb
       exfalso
       apply hpar
       norm_num [along, cubeFace]
       done)
    | (obtain rfl := hw _ _ ha
       obtain rfl := hw _ _ hb
       refine ⟨⟨_, rfl, by simp [cubeFace], Or.inr ⟨?_, ?_⟩⟩, fun _ => rfl⟩
       · rw [defaultGeo_tolSq]
         norm_num [along, cubeFace]
       · intro s hs
         have hs1 : s = 1 := by
           norm_num [side, cubeFace, NormalFace.onRay, V3.add, V3.smul] at hs
           linarith
         subst hs1
         refine Or.inr ⟨by rw [defaultGeo_tol1D]; norm_num, Or.inl rfl, ?_⟩
         intro v a b he
         refine square_clear ?_ v a b he
         ext <;> norm_num [NormalFace.inPlane, NormalFace.onRay, cubeFace, V3.add, V3.smul, M3.col0, M3.col1])

example : defaultGeo.normalDirectionsByRays Real.sqrt 8 12 (normalCube ℝ) =
    ok ((List.range 6).map fun f => decide (crossings (normalCube ℝ) f % 2 = 0)) := by
  refine c102_rays_partial isSqrt_real defaultGeo (by norm_num [defaultGeo]) (by rw [defaultGeo_tol1D]; norm_num)
    (by norm_num [defaultGeo]) 8 12 (normalCube ℝ) ?_ (fun f1 f2 a b hne ha hb => (normalCube_clear f1 f2 a b hne ha hb).1) ?_
  · intro f hf
    simp only [normalCube, List.mem_cons, List.not_mem_nil, or_false] at hf
    rcases hf with rfl | rfl | rfl | rfl | rfl | rfl <;> norm_num [along, cubeFace]
  · intro f1 f2 f3 a b c s t h12 h13 h23 ha hb hc hs ht
    exact absurd (((normalCube_clear f1 f2 a b h12 ha hb).2 hs.1).trans ((normalCube_clear f1 f3 a c h13 ha hc).2 ht.1).symm)
      h23

/-- With normals of length 1 only the root of 1 is taken. -/
theorem segmentPlane_root {sqrt sqrt' : K → K} (h1 : sqrt 1 = 1) (h1' : sqrt' 1 = 1) (g : GeoCfg K) {o n m p : V3 K}
    (hn : along n n = 1) (hm : along m m = 1) :
    g.intersectionSegmentPlane sqrt o (o.add n) m p = g.intersectionSegmentPlane sqrt' o (o.add n) m p := by
  have hsub : (o.add n).sub o = n := by simp only [V3.add, V3.sub]; ext <;> simp
  have hnn : n.dot n = 1 := hn
  have hmm : m.dot m = 1 := hm
  unfold GeoCfg.intersectionSegmentPlane
  simp only [hsub, V3.norm, V3.normalized, hnn, hmm, h1, h1']

theorem rays_root {sqrt sqrt' : K → K} (h1 : sqrt 1 = 1) (h1' : sqrt' 1 = 1) (g : GeoCfg K) (nv ne : Nat)
    {faces : List (NormalFace K)} (hu : ∀ f ∈ faces, along f.normal f.normal = 1) :
    g.normalDirectionsByRays sqrt nv ne faces = g.normalDirectionsByRays sqrt' nv ne faces := by
  unfold GeoCfg.normalDirectionsByRays
  rw [foldRes_congr (List.range faces.length) _ fun st f1 hf1 => ?_]
  have hf := List.mem_range.1 hf1
  have : g.rayOfFace sqrt faces f1 st.1 = g.rayOfFace sqrt' faces f1 st.1 := by
    unfold GeoCfg.rayOfFace
    rw [vget_of_lt hf, ok_bind, ok_bind]
    refine foldRes_congr _ _ fun st f2 hf2 => ?_
    have hf' := List.mem_range.1 hf2
    rw [vget_of_lt hf', ok_bind, ok_bind]
    unfold GeoCfg.rayFace
    simp only [segmentPlane_root h1 h1' g (hu _ (List.getElem_mem hf)) (hu _ (List.getElem_mem hf'))]
  rw [this]

/-- The corners of a box whose left side is split into a front and a back part and whose right side is split into a
lower and an upper part. -/
def slitPoints : List (V3 ℚ) :=
  [⟨0, 0, 0⟩, ⟨1, 0, 0⟩, ⟨1, 1, 0⟩, ⟨0, 1, 0⟩, ⟨0, 0, 1⟩, ⟨1, 0, 1⟩, ⟨1, 1, 1⟩, ⟨0, 1, 1⟩,
    ⟨0, 1 / 2, 0⟩, ⟨0, 1 / 2, 1⟩, ⟨1, 0, 1 / 2⟩, ⟨1, 1, 1 / 2⟩]

/-- A face of the box with the given vertices and edges, point, normal and directions in its plane. -/
def slitFace (border : List (Nat × Nat)) (point normal u v : V3 ℚ) : NormalFace ℚ :=
  let vs := border.map fun e => slitPoints.getD e.1 ⟨0, 0, 0⟩
  let o := vs.headD ⟨0, 0, 0⟩
  let w := u.cross v
  ⟨border, vs, vs.map fun q => ⟨u.dot (q.sub o), v.dot (q.sub o), 0⟩, point, normal, true, o,
    ⟨u.x, v.x, w.x, u.y, v.y, w.y, u.z, v.z, w.z⟩⟩

/-- The box, with all normals to the inside and the mean of the corners of each face: left front, left back, right
below, right above, bottom, top, front, back. -/
def slitBox : List (NormalFace ℚ) :=
  [slitFace [(0, 4), (8, 12), (9, 9), (4, 10)] ⟨0, 1 / 4, 1 / 2⟩ ⟨1, 0, 0⟩ ⟨0, 1, 0⟩ ⟨0, 0, 1⟩,
    slitFace [(8, 3), (3, 11), (7, 8), (9, 12)] ⟨0, 3 / 4, 1 / 2⟩ ⟨1, 0, 0⟩ ⟨0, 1, 0⟩ ⟨0, 0, 1⟩,
    slitFace [(1, 1), (2, 15), (11, 17), (10, 13)] ⟨1, 1 / 2, 1 / 4⟩ ⟨-1, 0, 0⟩ ⟨0, 1, 0⟩ ⟨0, 0, 1⟩,
    slitFace [(10, 17), (11, 16), (6, 6), (5, 14)] ⟨1, 1 / 2, 3 / 4⟩ ⟨-1, 0, 0⟩ ⟨0, 1, 0⟩ ⟨0, 0, 1⟩,
    slitFace [(0, 0), (1, 1), (2, 2), (3, 3), (8, 4)] ⟨1 / 2, 1 / 2, 0⟩ ⟨0, 0, 1⟩ ⟨1, 0, 0⟩ ⟨0, 1, 0⟩,
    slitFace [(4, 5), (5, 6), (6, 7), (7, 8), (9, 9)] ⟨1 / 2, 1 / 2, 1⟩ ⟨0, 0, -1⟩ ⟨1, 0, 0⟩ ⟨0, 1, 0⟩,
    slitFace [(0, 0), (1, 13), (10, 14), (5, 5), (4, 10)] ⟨1 / 2, 0, 1 / 2⟩ ⟨0, 1, 0⟩ ⟨1, 0, 0⟩ ⟨0, 0, 1⟩,
    slitFace [(3, 2), (2, 15), (11, 16), (6, 7), (7, 11)] ⟨1 / 2, 1, 1 / 2⟩ ⟨0, -1, 0⟩ ⟨1, 0, 0⟩ ⟨0, 0, 1⟩]

/-- The configuration of the witness. -/
def ratGeo : GeoCfg ℚ := ⟨10 / 2 ^ 52, 10 / 2 ^ 52⟩

/-- C102 does not hold with rays that meet an edge: the rays of the two left faces meet the edge between the two
right faces, which is counted only for the first one, so the second one gets the direction true although all normals
of this closed box point to the inside; the same happens on the right. -/
theorem c102_rays_violated (sqrt : ℚ → ℚ) (h1 : sqrt 1 = 1) :
    (∀ e < 18, (slitBox.flatMap fun f => f.border.map Prod.snd).count e = 2) ∧
    (∀ f ∈ slitBox, along f.normal f.normal = 1 ∧ ∃ o, f.vertices3D[0]? = some o ∧ (∀ v ∈ f.vertices3D,
      side f.normal o v = 0) ∧ side f.normal o f.point = 0 ∧ ∀ v ∈ slitPoints, 0 ≤ side f.normal o v) ∧
    ratGeo.normalDirectionsByRays sqrt 12 18 slitBox =
      ok [false, true, false, true, false, false, false, false] := by
  have hu : ∀ f ∈ slitBox, along f.normal f.normal = 1 := by decide +kernel
  refine ⟨by decide +kernel, ?_, ?_⟩
  · intro f hf
    refine ⟨hu f hf, ?_⟩
    have : ∀ f ∈ slitBox, f.vertices3D[0]? = some (f.vertices3D.headD ⟨0, 0, 0⟩) ∧ (∀ v ∈ f.vertices3D,
      side f.normal (f.vertices3D.headD ⟨0, 0, 0⟩) v = 0) ∧ side f.normal (f.vertices3D.headD ⟨0, 0, 0⟩) f.point = 0 ∧
      ∀ v ∈ slitPoints, 0 ≤ side f.normal (f.vertices3D.headD ⟨0, 0, 0⟩) v := by decide +kernel
    exact ⟨_, this f hf⟩
  · rw [rays_root h1 (sqrt' := id) rfl ratGeo 12 18 hu]
    decide +kernel

/-! ### C103 -/

/-- C103, the verdict of `PolyhedronIsConvex` for a point that is inside of the planes of all faces: it is true
exactly if no face has a vertex in the interior of its hull and no point of a face is beyond the plane of another
face. -/
theorem c103_verdict {sqrt : K → K} (hs : IsSqrt sqrt) (g : GeoCfg K) (h0 : 0 ≤ g.minTolerance)
    (h1D : 0 ≤ g.tolerance1D) (hT : g.tol1D < 1 / 2) (h1 : g.tolSq ≤ 1)
    {sort : (HullPt K → HullPt K → Bool) → List (HullPt K) → List (HullPt K)} (hsort : IsSort sort) (p : V3 K)
    (faces : List (NormalFace K)) (hP : ∀ f ∈ faces, ProperPoints g sqrt f.vertices2D)
    (hclear : ∀ (f1 f2 : Nat) face other, f1 ≠ f2 → faces[f1]? = some face → faces[f2]? = some other →
      g.PairClear sqrt p face other) :
    ∃ b, g.polyhedronIsConvex sqrt sort faces p = ok b ∧
      (b = true ↔ (∀ f ∈ faces, ∀ q ∈ f.vertices2D, ¬ StrictlyInside f.vertices2D q) ∧
        ∀ (f1 f2 : Nat) face other, f1 ≠ f2 → faces[f1]? = some face → faces[f2]? = some other →
          ¬ other.Beyond face.point) := by
  obtain ⟨b, e, hb⟩ := convexFaces_clear hs g h0 h1D hT h1 hsort hP hclear (List.range faces.length)
    (fun i hi => List.mem_range.1 hi)
  refine ⟨b, e, hb.trans ⟨fun h => ⟨fun f hf => ?_, fun f1 f2 face other hne hf ho => ?_⟩,
    fun h f1 _ face hf => ⟨h.1 face (List.mem_of_getElem? hf), fun f2 other hne ho =>
      h.2 f1 f2 face other (Ne.symm hne) hf ho⟩⟩⟩
  · obtain ⟨i, hi, rfl⟩ := List.getElem_of_mem hf
    exact (h i (List.mem_range.2 hi) _ (List.getElem?_eq_getElem hi)).1
  · exact (h f1 (List.mem_range.2 (List.getElem?_eq_some_iff.1 hf).1) face hf).2 f2 other (Ne.symm hne) ho

/-- C103, convex polyhedra are accepted. -/
theorem c103_convex_partial {sqrt : K → K} (hs : IsSqrt sqrt) (g : GeoCfg K) (h0 : 0 ≤ g.minTolerance)
    (h1D : 0 ≤ g.tolerance1D) (hT : g.tol1D < 1 / 2) (h1 : g.tolSq ≤ 1)
    {sort : (HullPt K → HullPt K → Bool) → List (HullPt K) → List (HullPt K)} (hsort : IsSort sort) (p : V3 K)
    (faces : List (NormalFace K)) (hP : ∀ f ∈ faces, ProperPoints g sqrt f.vertices2D)
    (hclear : ∀ (f1 f2 : Nat) face other, f1 ≠ f2 → faces[f1]? = some face → faces[f2]? = some other →
      g.PairClear sqrt p face other)
    (hw : ∀ f ∈ faces, 1 < f.vertices2D.length ∧ WeaklyConvex f.vertices2D) (hin : ∀ f ∈ faces, PointInside f)
    (hc : ConvexSolid faces) : g.polyhedronIsConvex sqrt sort faces p = ok true := by
  obtain ⟨b, e, hb⟩ := c103_verdict hs g h0 h1D hT h1 hsort p faces hP hclear
  rw [e, hb.2 ⟨fun f hf => convex_not_inside (hP f hf).flat (hP f hf).nodup (hw f hf).1 (hw f hf).2,
    fun f1 f2 face other hne hf ho => ?_⟩]
  rintro ⟨o, ho', hpos⟩
  have hfm := List.mem_of_getElem? hf
  obtain ⟨w, hw0, hw1, hx, hy, hz⟩ := hin face hfm
  rw [side_mean _ o _ _ w hw1 hx hy hz] at hpos
  refine absurd hpos (not_lt.2 (sum_nonpos' _ fun x hx => ?_))
  obtain ⟨v, hv, rfl⟩ := List.mem_map.1 hx
  have := hc face hfm other (List.mem_of_getElem? ho) v hv
  exact mul_nonpos_of_nonneg_of_nonpos (hw0 v hv).le (not_lt.1 fun k => this ⟨o, ho', k⟩)

/-- C103, polyhedra with a face that is not convex or with a face folded outwards at another one are rejected, if
the point is inside of the planes of all faces.
Partial: for other points the call can throw, see `c103_throws_violated`. -/
theorem c103_concave_partial {sqrt : K → K} (hs : IsSqrt sqrt) (g : GeoCfg K) (h0 : 0 ≤ g.minTolerance)
    (h1D : 0 ≤ g.tolerance1D) (hT : g.tol1D < 1 / 2) (h1 : g.tolSq ≤ 1)
    {sort : (HullPt K → HullPt K → Bool) → List (HullPt K) → List (HullPt K)} (hsort : IsSort sort) (p : V3 K)
    (faces : List (NormalFace K)) (hP : ∀ f ∈ faces, ProperPoints g sqrt f.vertices2D)
    (hclear : ∀ (f1 f2 : Nat) face other, f1 ≠ f2 → faces[f1]? = some face → faces[f2]? = some other →
      g.PairClear sqrt p face other)
    (hin : ∀ f ∈ faces, PointInside f)
    (hc : (∃ f ∈ faces, ∃ q ∈ f.vertices2D, StrictlyInside f.vertices2D q) ∨
      ∃ f1 f2 : Nat, ∃ face other, f1 ≠ f2 ∧ faces[f1]? = some face ∧ faces[f2]? = some other ∧ Reflex face other) :
    g.polyhedronIsConvex sqrt sort faces p = ok false := by
  obtain ⟨b, e, hb⟩ := c103_verdict hs g h0 h1D hT h1 hsort p faces hP hclear
  rw [e]
  cases b
  · rfl
  · exfalso
    obtain ⟨k1, k2⟩ := hb.1 rfl
    rcases hc with ⟨f, hf, q, hq, h⟩ | ⟨f1, f2, face, other, hne, hf, ho, hr, v, hv, o, ho', hpos⟩
    · exact k1 f hf q hq h
    · refine k2 f1 f2 face other hne hf ho ⟨o, ho', ?_⟩
      obtain ⟨w, hw0, hw1, hx, hy, hz⟩ := hin face (List.mem_of_getElem? hf)
      rw [side_mean _ o _ _ w hw1 hx hy hz]
      have hterm : 0 < w v * side other.outer o v := mul_pos (hw0 v hv) hpos
      refine lt_of_lt_of_le hterm (List.single_le_sum ?_ _ (List.mem_map.2 ⟨v, hv, rfl⟩))
      intro x hx
      obtain ⟨u, hu, rfl⟩ := List.mem_map.1 hx
      exact mul_nonneg (hw0 u hu).le (hr o ho' u hu)

/-- A face with corner `o` and sides `a u` and `b v`, and the normal `n`. -/
def rectFace {K : Type} [Field K] (o u v n : V3 K) (a b : K) : NormalFace K :=
  ⟨[], [o, o.add (V3.smul a u), (o.add (V3.smul a u)).add (V3.smul b v), o.add (V3.smul b v)],
    [⟨0, 0, 0⟩, ⟨a, 0, 0⟩, ⟨a, b, 0⟩, ⟨0, b, 0⟩],
    o.add ((V3.smul (a / 2) u).add (V3.smul (b / 2) v)), n, true, o,
    ⟨u.x, v.x, n.x, u.y, v.y, n.y, u.z, v.z, n.z⟩⟩

/-- A face in the shape of an L with the lower side at height `z`. -/
def lFace {K : Type} [Field K] (z n : K) : NormalFace K :=
  ⟨[], [⟨0, 0, z⟩, ⟨2, 0, z⟩, ⟨2, 1, z⟩, ⟨1, 1, z⟩, ⟨1, 2, z⟩, ⟨0, 2, z⟩],
    [⟨0, 0, 0⟩, ⟨2, 0, 0⟩, ⟨2, 1, 0⟩, ⟨1, 1, 0⟩, ⟨1, 2, 0⟩, ⟨0, 2, 0⟩], ⟨1 / 2, 1 / 2, z⟩, ⟨0, 0, n⟩, true, ⟨0, 0, z⟩,
    ⟨1, 0, 0, 0, 1, 0, 0, 0, 1⟩⟩

/-- The prism over an L of two and one units, of height one, with normals to the outside: the long left side, the two
sides in the corner, the other sides, bottom and top. -/
def lPrism (K : Type) [Field K] : List (NormalFace K) :=
  [rectFace ⟨0, 0, 0⟩ ⟨0, 1, 0⟩ ⟨0, 0, 1⟩ ⟨-1, 0, 0⟩ 2 1, rectFace ⟨1, 1, 0⟩ ⟨1, 0, 0⟩ ⟨0, 0, 1⟩ ⟨0, 1, 0⟩ 1 1,
    rectFace ⟨1, 1, 0⟩ ⟨0, 1, 0⟩ ⟨0, 0, 1⟩ ⟨1, 0, 0⟩ 1 1, rectFace ⟨0, 0, 0⟩ ⟨1, 0, 0⟩ ⟨0, 0, 1⟩ ⟨0, -1, 0⟩ 2 1,
    rectFace ⟨2, 0, 0⟩ ⟨0, 1, 0⟩ ⟨0, 0, 1⟩ ⟨1, 0, 0⟩ 1 1, rectFace ⟨0, 2, 0⟩ ⟨1, 0, 0⟩ ⟨0, 0, 1⟩ ⟨0, 1, 0⟩ 1 1,
    lFace 0 (-1), lFace 1 1]

theorem rect_gridCell {a b : ℤ} (ha : 0 < a) (ha' : a ≤ 2) (hb : 0 < b) (hb' : b ≤ 2) :
    GridCell [⟨0, 0, 0⟩, ⟨(a : ℝ), 0, 0⟩, ⟨(a : ℝ), (b : ℝ), 0⟩, ⟨0, (b : ℝ), 0⟩] := by
  have hA : (0 : ℝ) < a := by exact_mod_cast ha
  have hB : (0 : ℝ) < b := by exact_mod_cast hb
  refine gridCell_of_turnsLeft (by simp) ?_ ?_ ?_
  · intro q hq
    have k1 : |a| ≤ 2 ^ 10 := by rw [abs_of_pos ha]; linarith
    have k2 : |b| ≤ 2 ^ 10 := by rw [abs_of_pos hb]; linarith
    simp only [List.mem_cons, List.not_mem_nil, or_false] at hq
    rcases hq with rfl | rfl | rfl | rfl
    · exact ⟨0, 0, by norm_num, by norm_num, by simp⟩
    · exact ⟨a, 0, k1, by norm_num, by simp⟩
    · exact ⟨a, b, k1, k2, by simp⟩
    · exact ⟨0, b, by norm_num, k2, by simp⟩
  · simp [hA.ne', hB.ne', hA.ne, hB.ne]
  · intro i j k x y z hij hjk hx hy hz
    have hk : k < 4 := (List.getElem?_eq_some_iff.1 hz).1
    have hab := mul_pos hA hB
    have hw : ∀ x y : V3 ℝ, some x = some y → y = x := fun x y h => (Option.some.inj h).symm
    interval_cases k <;> interval_cases j <;> interval_cases i <;>
      (obtain rfl := hw _ _ hx; obtain rfl := hw _ _ hy; obtain rfl := hw _ _ hz; unfold area2; simp; linarith)

/-- C103 does not hold if the point inside is in the plane of a face: for the prism over an L and the point
(1/2, 1, 1/2) in its interior the call throws, although the polyhedron is not convex. -/
theorem c103_throws_violated {sort : (HullPt ℝ → HullPt ℝ → Bool) → List (HullPt ℝ) → List (HullPt ℝ)}
    (hsort : IsSort sort) :
    (∃ f ∈ lPrism ℝ, ∃ other ∈ lPrism ℝ, Reflex f other) ∧
    defaultGeo.polyhedronIsConvex Real.sqrt sort (lPrism ℝ) ⟨1 / 2, 1, 1 / 2⟩ = throw := by
  have h0 : (0 : ℝ) ≤ defaultGeo.minTolerance := by norm_num [defaultGeo]
  have hT : defaultGeo.tol1D < 1 / 2 := by rw [defaultGeo_tol1D]; norm_num
  constructor
  · refine ⟨rectFace ⟨1, 1, 0⟩ ⟨1, 0, 0⟩ ⟨0, 0, 1⟩ ⟨0, 1, 0⟩ 1 1, by simp [lPrism],
      rectFace ⟨1, 1, 0⟩ ⟨0, 1, 0⟩ ⟨0, 0, 1⟩ ⟨1, 0, 0⟩ 1 1, by simp [lPrism], ?_, ⟨2, 1, 0⟩, ?_, ⟨1, 1, 0⟩, rfl, ?_⟩
    · intro o ho v hv
      obtain rfl : o = ⟨1, 1, 0⟩ := (Option.some.inj ho).symm
      simp only [rectFace, List.mem_cons, List.not_mem_nil, or_false] at hv
      rcases hv with rfl | rfl | rfl | rfl <;> norm_num [side, NormalFace.outer, rectFace, V3.add, V3.smul]
    · simp only [rectFace, List.mem_cons, List.not_mem_nil, or_false]
      right; left
      ext <;> norm_num [V3.add, V3.smul]
    · norm_num [side, NormalFace.outer, rectFace]
  · have hgrid := rect_gridCell (a := 2) (b := 1) (by norm_num) (by norm_num) (by norm_num) (by norm_num)
    obtain ⟨b, e, hb⟩ := faceIsConvex_proper isSqrt_real defaultGeo h0 (by norm_num [defaultGeo]) hT
      (by rw [defaultGeo_tolSq]; norm_num) hsort hgrid.proper
    have hb' := hb.2 hgrid.border
    subst hb'
    have hthrow : defaultGeo.convexPair Real.sqrt ⟨1 / 2, 1, 1 / 2⟩
        (rectFace ⟨0, 0, 0⟩ ⟨0, 1, 0⟩ ⟨0, 0, 1⟩ ⟨-1, 0, 0⟩ 2 1)
        (rectFace ⟨1, 1, 0⟩ ⟨1, 0, 0⟩ ⟨0, 0, 1⟩ ⟨0, 1, 0⟩ 1 1) = throw := by
      unfold GeoCfg.convexPair
      have hget : vget (rectFace (K := ℝ) ⟨1, 1, 0⟩ ⟨1, 0, 0⟩ ⟨0, 0, 1⟩ ⟨0, 1, 0⟩ 1 1).vertices3D 0 = ok ⟨1, 1, 0⟩ := rfl
      rw [hget, ok_bind, outer_eq, c66_in_plane Real.sqrt isSqrt_real defaultGeo h0 hT]
      · rfl
      · rw [norm_one isSqrt_real (by norm_num [along, NormalFace.outer, rectFace])]
        exact compare_one defaultGeo h0
      · have : ((rectFace (K := ℝ) ⟨0, 0, 0⟩ ⟨0, 1, 0⟩ ⟨0, 0, 1⟩ ⟨-1, 0, 0⟩ 2 1).point.sub ⟨1 / 2, 1, 1 / 2⟩) =
            ⟨-(1 / 2), 0, 0⟩ := by
          ext <;> norm_num [rectFace, V3.add, V3.smul, V3.sub]
        rw [this, V3.norm, V3.dot, defaultGeo_tol1D]
        apply Real.lt_sqrt_of_sq_lt
        norm_num
      · norm_num [side, NormalFace.outer, rectFace]
      · norm_num [side, NormalFace.outer, rectFace, V3.add, V3.smul]
    unfold GeoCfg.polyhedronIsConvex
    rw [show List.range (lPrism ℝ).length = [0, 1, 2, 3, 4, 5, 6, 7] from rfl, GeoCfg.convexFaces]
    have hg0 : vget (lPrism ℝ) 0 = ok (rectFace ⟨0, 0, 0⟩ ⟨0, 1, 0⟩ ⟨0, 0, 1⟩ ⟨-1, 0, 0⟩ 2 1) := rfl
    have hg1 : vget (lPrism ℝ) 1 = ok (rectFace ⟨1, 1, 0⟩ ⟨1, 0, 0⟩ ⟨0, 0, 1⟩ ⟨0, 1, 0⟩ 1 1) := rfl
    have e' : defaultGeo.faceIsConvex Real.sqrt sort
        (rectFace (K := ℝ) ⟨0, 0, 0⟩ ⟨0, 1, 0⟩ ⟨0, 0, 1⟩ ⟨-1, 0, 0⟩ 2 1).vertices2D = ok true := by
      simpa [rectFace] using e
    rw [hg0, ok_bind, e', ok_bind]
    simp only [if_true]
    rw [show List.range (lPrism ℝ).length = [0, 1, 2, 3, 4, 5, 6, 7] from rfl, GeoCfg.convexPairs, if_pos rfl,
      GeoCfg.convexPairs, if_neg (by decide), hg1, ok_bind, hthrow]
    rfl

/-! Examples. -/

/-- Pairs of faces of moderate size. -/
theorem pairClear_of {p o : V3 ℝ} {f other : NormalFace ℝ} (hv : other.vertices3D[0]? = some o)
    (hu : along other.normal other.normal = 1)
    (hd : 1 / 100 ≤ (f.point.sub p).dot (f.point.sub p) ∧ (f.point.sub p).dot (f.point.sub p) ≤ 16)
    (hp : side other.outer o p ≤ -(1 / 4) ∧ -4 ≤ side other.outer o p) (ha : |along other.outer p| ≤ 4)
    (hc : side other.outer o f.point ≤ 0 ∨ 1 / 4 ≤ side other.outer o f.point ∧ side other.outer o f.point ≤ 4) :
    defaultGeo.PairClear Real.sqrt p f other := by
  have h1 : (1 / 10 : ℝ) ≤ (f.point.sub p).norm Real.sqrt := Real.le_sqrt_of_sq_le (by norm_num; linarith [hd.1])
  have h2 : (f.point.sub p).norm Real.sqrt ≤ 4 := Real.sqrt_le_iff.2 ⟨by norm_num, by norm_num; linarith [hd.2]⟩
  have hw : window (10 / 2 ^ 52 : ℝ) (along other.outer p) (along other.outer o) ≤ 10 / 2 ^ 52 * 4 := by
    unfold window
    refine mul_le_mul_of_nonneg_left ?_ (by norm_num)
    split
    · exact ha
    · norm_num
  refine ⟨o, hv, hu, ?_, ?_, ?_, ?_⟩
  · rw [defaultGeo_tol1D]; norm_num; norm_num at h1; linarith
  · rw [defaultGeo_tolSq]
    have : (10 / 2 ^ 52 : ℝ) * (f.point.sub p).norm Real.sqrt ≤ 10 / 2 ^ 52 * 4 :=
      mul_le_mul_of_nonneg_left h2 (by norm_num)
    norm_num at this ⊢
    linarith [hp.1]
  · rw [defaultGeo_tolSq]
    norm_num at hw ⊢
    linarith [hp.1]
  · rcases hc with hc | ⟨c1, c2⟩
    · exact Or.inl hc
    · right
      rw [defaultGeo_tol1D]
      have : (10 / 2 ^ 52 : ℝ) * (side other.outer o f.point - side other.outer o p) ≤ 10 / 2 ^ 52 * 8 :=
        mul_le_mul_of_nonneg_left (by linarith [hp.2]) (by norm_num)
      norm_num at this ⊢
      constructor <;> linarith [hp.1]

set_option maxHeartbeats 4000000 in
theorem lPrism_clear (f1 f2 : Nat) (face other : NormalFace ℝ) (hne : f1 ≠ f2) (h1 : (lPrism ℝ)[f1]? = some face)
    (h2 : (lPrism ℝ)[f2]? = some other) : defaultGeo.PairClear Real.sqrt ⟨1 / 2, 1 / 2, 1 / 2⟩ face other := by
  have l1 : f1 < 8 := (List.getElem?_eq_some_iff.1 h1).1
  have l2 : f2 < 8 := (List.getElem?_eq_some_iff.1 h2).1
  have hw : ∀ x y : NormalFace ℝ, some x = some y → y = x := fun x y h => (Option.some.inj h).symm
  clear hne
  interval_cases f1 <;> obtain rfl := hw _ _ h1 <;> interval_cases f2 <;> obtain rfl := hw _ _ h2 <;>
    refine pairClear_of rfl ?_ ?_ ?_ ?_ ?_ <;>
    norm_num [along, rectFace, lFace, NormalFace.outer, side, V3.dot, V3.sub, V3.add, V3.smul, abs_le]

theorem rect_inside (o u v n : V3 ℝ) (a b : ℝ) :
    PointInside (rectFace o u v n a b) := by
  refine ⟨fun _ => 1 / 4, fun _ _ => by norm_num, ?_, ?_, ?_, ?_⟩ <;>
    (simp [rectFace, V3.add, V3.smul]; try ring)

theorem lFace_inside (z n : ℝ) : PointInside (lFace z n) := by
  refine ⟨fun v => if v.x = 0 then (if v.y = 0 then 9 / 16 else 2 / 16) else
    if v.y = 0 then 2 / 16 else 1 / 16, ?_, ?_, ?_, ?_, ?_⟩
  · intro v _
    dsimp only
    split <;> split <;> norm_num
  all_goals norm_num [lFace]
  ring

theorem rect_proper (o u v n : V3 ℝ) {a b : ℤ} (ha : 0 < a) (ha' : a ≤ 2) (hb : 0 < b) (hb' : b ≤ 2) :
    ProperPoints defaultGeo Real.sqrt (rectFace o u v n (a : ℝ) (b : ℝ)).vertices2D :=
  (rect_gridCell ha ha' hb hb').proper

theorem lFace_proper (z n : ℝ) : ProperPoints defaultGeo Real.sqrt (lFace z n).vertices2D := by
  have hg : ∀ q ∈ (lFace z n).vertices2D, IsSmallGridPoint q := by
    intro q hq
    simp only [lFace, List.mem_cons, List.not_mem_nil, or_false] at hq
    rcases hq with rfl | rfl | rfl | rfl | rfl | rfl
    · exact ⟨0, 0, by norm_num, by norm_num, by simp⟩
    · exact ⟨2, 0, by norm_num, by norm_num, by simp⟩
    · exact ⟨2, 1, by norm_num, by norm_num, by simp⟩
    · exact ⟨1, 1, by norm_num, by norm_num, by simp⟩
    · exact ⟨1, 2, by norm_num, by norm_num, by simp⟩
    · exact ⟨0, 2, by norm_num, by norm_num, by simp⟩
  refine ⟨hullResolved_grid fun p hp => (hg p hp).grid, linesResolved_grid hg, fun q hq => (hg q hq).z, ?_, ?_⟩
  · norm_num [lFace]
  · refine ⟨⟨0, 0, 0⟩, by simp [lFace], ⟨2, 0, 0⟩, by simp [lFace], ⟨2, 1, 0⟩, by simp [lFace], ?_⟩
    norm_num [area2]

theorem lPrism_proper : ∀ f ∈ lPrism ℝ, ProperPoints defaultGeo Real.sqrt f.vertices2D := by
  intro f hf
  simp only [lPrism, List.mem_cons, List.not_mem_nil, or_false] at hf
  have h21 : ∀ o u v n : V3 ℝ, ProperPoints defaultGeo Real.sqrt (rectFace o u v n 2 1).vertices2D := fun o u v n => by
    simpa using rect_proper o u v n (a := 2) (b := 1) (by norm_num) (by norm_num) (by norm_num) (by norm_num)
  have h11 : ∀ o u v n : V3 ℝ, ProperPoints defaultGeo Real.sqrt (rectFace o u v n 1 1).vertices2D := fun o u v n => by
    simpa using rect_proper o u v n (a := 1) (b := 1) (by norm_num) (by norm_num) (by norm_num) (by norm_num)
  rcases hf with rfl | rfl | rfl | rfl | rfl | rfl | rfl | rfl
  · exact h21 _ _ _ _
  · exact h11 _ _ _ _
  · exact h11 _ _ _ _
  · exact h21 _ _ _ _
  · exact h11 _ _ _ _
  · exact h11 _ _ _ _
  · exact lFace_proper _ _
  · exact lFace_proper _ _

/-- The prism over an L with the point (1/2, 1/2, 1/2), which is inside of all planes, is rejected. -/
example {sort : (HullPt ℝ → HullPt ℝ → Bool) → List (HullPt ℝ) → List (HullPt ℝ)} (hsort : IsSort sort) :
    defaultGeo.polyhedronIsConvex Real.sqrt sort (lPrism ℝ) ⟨1 / 2, 1 / 2, 1 / 2⟩ = ok false := by
  refine c103_concave_partial isSqrt_real defaultGeo (by norm_num [defaultGeo]) (by norm_num [defaultGeo])
    (by rw [defaultGeo_tol1D]; norm_num) (by rw [defaultGeo_tolSq]; norm_num) hsort _ (lPrism ℝ) lPrism_proper
    lPrism_clear ?_ (Or.inr ⟨1, 2, _, _, by decide, rfl, rfl, ?_, ⟨2, 1, 0⟩, ?_, ⟨1, 1, 0⟩, rfl, ?_⟩)
  · intro f hf
    simp only [lPrism, List.mem_cons, List.not_mem_nil, or_false] at hf
    rcases hf with rfl | rfl | rfl | rfl | rfl | rfl | rfl | rfl <;> first
      | exact rect_inside _ _ _ _ _ _
      | exact lFace_inside _ _
  · intro o ho v hv
    obtain rfl : o = ⟨1, 1, 0⟩ := (Option.some.inj ho).symm
    simp only [rectFace, List.mem_cons, List.not_mem_nil, or_false] at hv
    rcases hv with rfl | rfl | rfl | rfl <;> norm_num [side, NormalFace.outer, rectFace, V3.add, V3.smul]
  · simp only [rectFace, List.mem_cons, List.not_mem_nil, or_false]
    right; left
    ext <;> norm_num [V3.add, V3.smul]
  · norm_num [side, NormalFace.outer, rectFace]

/-- The unit cube with normals to the outside. -/
noncomputable def outerCube : List (NormalFace ℝ) :=
  [rectFace ⟨0, 0, 0⟩ ⟨0, 1, 0⟩ ⟨0, 0, 1⟩ ⟨-1, 0, 0⟩ 1 1, rectFace ⟨0, 0, 0⟩ ⟨1, 0, 0⟩ ⟨0, 0, 1⟩ ⟨0, -1, 0⟩ 1 1,
    rectFace ⟨1, 0, 0⟩ ⟨0, 1, 0⟩ ⟨0, 0, 1⟩ ⟨1, 0, 0⟩ 1 1, rectFace ⟨0, 1, 0⟩ ⟨1, 0, 0⟩ ⟨0, 0, 1⟩ ⟨0, 1, 0⟩ 1 1,
    rectFace ⟨0, 0, 0⟩ ⟨1, 0, 0⟩ ⟨0, 1, 0⟩ ⟨0, 0, -1⟩ 1 1, rectFace ⟨0, 0, 1⟩ ⟨1, 0, 0⟩ ⟨0, 1, 0⟩ ⟨0, 0, 1⟩ 1 1]

set_option maxHeartbeats 4000000 in
theorem outerCube_clear (f1 f2 : Nat) (face other : NormalFace ℝ) (hne : f1 ≠ f2) (h1 : outerCube[f1]? = some face)
    (h2 : outerCube[f2]? = some other) : defaultGeo.PairClear Real.sqrt ⟨1 / 2, 1 / 2, 1 / 2⟩ face other := by
  have l1 : f1 < 6 := (List.getElem?_eq_some_iff.1 h1).1
  have l2 : f2 < 6 := (List.getElem?_eq_some_iff.1 h2).1
  have hw : ∀ x y : NormalFace ℝ, some x = some y → y = x := fun x y h => (Option.some.inj h).symm
  clear hne
  interval_cases f1 <;> obtain rfl := hw _ _ h1 <;> interval_cases f2 <;> obtain rfl := hw _ _ h2 <;>
    refine pairClear_of rfl ?_ ?_ ?_ ?_ ?_ <;>
    norm_num [along, rectFace, lFace, NormalFace.outer, side, V3.dot, V3.sub, V3.add, V3.smul, abs_le]

/-- The unit cube is accepted. -/
example {sort : (HullPt ℝ → HullPt ℝ → Bool) → List (HullPt ℝ) → List (HullPt ℝ)} (hsort : IsSort sort) :
    defaultGeo.polyhedronIsConvex Real.sqrt sort outerCube ⟨1 / 2, 1 / 2, 1 / 2⟩ = ok true := by
  have hshape : ∀ f ∈ outerCube, ∃ o u v n, f = rectFace o u v n 1 1 := by
    intro f hf
    simp only [outerCube, List.mem_cons, List.not_mem_nil, or_false] at hf
    rcases hf with rfl | rfl | rfl | rfl | rfl | rfl <;> exact ⟨_, _, _, _, rfl⟩
  have h11 : ∀ o u v n : V3 ℝ, ProperPoints defaultGeo Real.sqrt (rectFace o u v n 1 1).vertices2D := fun o u v n => by
    simpa using rect_proper o u v n (a := 1) (b := 1) (by norm_num) (by norm_num) (by norm_num) (by norm_num)
  refine c103_convex_partial isSqrt_real defaultGeo (by norm_num [defaultGeo]) (by norm_num [defaultGeo])
    (by rw [defaultGeo_tol1D]; norm_num) (by rw [defaultGeo_tolSq]; norm_num) hsort _ outerCube ?_ outerCube_clear
    ?_ ?_ ?_
  · intro f hf
    obtain ⟨o, u, v, n, rfl⟩ := hshape f hf
    exact h11 _ _ _ _
  · intro f hf
    obtain ⟨o, u, v, n, rfl⟩ := hshape f hf
    refine ⟨by simp [rectFace], ?_⟩
    intro i j k x y z hij hjk hx hy hz
    have hk : k < 4 := (List.getElem?_eq_some_iff.1 hz).1
    have hw : ∀ x y : V3 ℝ, some x = some y → y = x := fun x y h => (Option.some.inj h).symm
    interval_cases k <;> interval_cases j <;> interval_cases i <;>
      (obtain rfl := hw _ _ hx; obtain rfl := hw _ _ hy; obtain rfl := hw _ _ hz; norm_num [area2])
  · intro f hf
    obtain ⟨o, u, v, n, rfl⟩ := hshape f hf
    exact rect_inside _ _ _ _ _ _
  · intro f hf other ho v hv
    have hbox : 0 ≤ v.x ∧ v.x ≤ 1 ∧ 0 ≤ v.y ∧ v.y ≤ 1 ∧ 0 ≤ v.z ∧ v.z ≤ 1 := by
      simp only [outerCube, List.mem_cons, List.not_mem_nil, or_false] at hf
      rcases hf with rfl | rfl | rfl | rfl | rfl | rfl <;>
        (simp only [rectFace, List.mem_cons, List.not_mem_nil, or_false] at hv
         rcases hv with rfl | rfl | rfl | rfl <;> norm_num [V3.add, V3.smul])
    obtain ⟨b1, b2, b3, b4, b5, b6⟩ := hbox
    rintro ⟨o, e, hpos⟩
    simp only [outerCube, List.mem_cons, List.not_mem_nil, or_false] at ho
    rcases ho with rfl | rfl | rfl | rfl | rfl | rfl <;>
      (obtain rfl := Option.some.inj e
       norm_num [side, NormalFace.outer, rectFace] at hpos
       linarith)

theorem outerCube_faces (c : ℝ) (f : NormalFace ℝ) (hf : f ∈ outerCube) :
    ∃ o, f.vertices3D[0]? = some o ∧ along f.normal f.normal = 1 ∧
      (c = 1 / 2 → |side f.normal o ⟨1 / 2, 1 / 2, c⟩| = 1 / 2) := by
  simp only [outerCube, List.mem_cons, List.not_mem_nil, or_false] at hf
  rcases hf with rfl | rfl | rfl | rfl | rfl | rfl <;>
    exact ⟨_, rfl, by norm_num [along, rectFace],
      by rintro rfl; norm_num [side, rectFace, abs_of_pos, abs_of_neg]⟩

theorem outerCube_haveNormals :
    HaveNormals (outerCube.map NormalFace.vertices3D) (outerCube.map NormalFace.normal) := by
  intro f vs hf
  rw [List.getElem?_map, Option.map_eq_some_iff] at hf
  obtain ⟨face, hf, rfl⟩ := hf
  obtain ⟨o, ho, hu, -⟩ := outerCube_faces 0 face (List.mem_of_getElem? hf)
  exact ⟨o, face.normal, ho, by rw [List.getElem?_map, hf]; rfl, by rw [hu]; norm_num⟩

/-- The centre of the unit cube gives the directions of its faces. -/
example : ∃ ds, defaultGeo.normalDirections Real.sqrt (outerCube.map NormalFace.vertices3D) ⟨1 / 2, 1 / 2, 1 / 2⟩
    (outerCube.map NormalFace.normal) = ok ds ∧ ds.length = 6 := by
  obtain ⟨ds, e, l, -⟩ := c102_point isSqrt_real defaultGeo (by norm_num [defaultGeo])
    (outerCube.map NormalFace.vertices3D) (outerCube.map NormalFace.normal) ⟨1 / 2, 1 / 2, 1 / 2⟩
    outerCube_haveNormals (by
      intro f vs o n hf ho hn
      rw [List.getElem?_map, Option.map_eq_some_iff] at hf hn
      obtain ⟨face, hf, rfl⟩ := hf
      obtain ⟨face', hf', rfl⟩ := hn
      rw [hf] at hf'
      obtain rfl := Option.some.inj hf'
      obtain ⟨o', ho', hu, hd⟩ := outerCube_faces (1 / 2) face (List.mem_of_getElem? hf)
      rw [ho] at ho'
      obtain rfl := Option.some.inj ho'
      rw [hd rfl, norm_one isSqrt_real hu, defaultGeo_tol1D]
      norm_num)
  exact ⟨ds, e, l⟩

/-- The centre of the bottom of the unit cube aborts. -/
example : defaultGeo.normalDirections Real.sqrt (outerCube.map NormalFace.vertices3D) ⟨1 / 2, 1 / 2, 0⟩
    (outerCube.map NormalFace.normal) = abort := by
  refine c102_point_abort isSqrt_real defaultGeo (by norm_num [defaultGeo]) _ _ _ outerCube_haveNormals
    ⟨4, _, _, _, rfl, rfl, rfl, ?_⟩
  rw [norm_one isSqrt_real (by norm_num [along, rectFace]), defaultGeo_tol1D]
  norm_num [side, rectFace]

end Verif
