import Verif.PointBoxLemmas
import Verif.PointPosProps

/-
Properties C71 and C72: points and polyhedra, bounding boxes and sets of points.
-/
namespace Verif

open Res

variable {K : Type} [Field K] [LinearOrder K] [IsStrictOrderedRing K]

/-! ### C71 -/

/-- C71, tetrahedron: the answer depends only on the barycentric coordinates of the point. A point with
non-negative coordinates is inside; a point is outside if a coordinate is below minus the tolerance,
or their sum exceeds one by more than the tolerance, relative to the sum. -/
theorem c71_tetrahedron (sqrt : K → K) (hs : IsSqrt sqrt) (g : GeoCfg K) (h0 : 0 ≤ g.minTolerance)
    (v0 v1 v2 v3 : V3 K) (hV : vol6 v0 v1 v2 v3 ≠ 0) (p : V3 K) (l1 l2 l3 : K)
    (hp : p = ⟨v0.x + l1 * (v1.x - v0.x) + l2 * (v2.x - v0.x) + l3 * (v3.x - v0.x),
      v0.y + l1 * (v1.y - v0.y) + l2 * (v2.y - v0.y) + l3 * (v3.y - v0.y),
      v0.z + l1 * (v1.z - v0.z) + l2 * (v2.z - v0.z) + l3 * (v3.z - v0.z)⟩) :
    ∃ r, g.isPointInsideTetrahedron sqrt [v0, v1, v2, v3] p = ok r ∧
      (0 ≤ l1 → 0 ≤ l2 → 0 ≤ l3 → l1 + l2 + l3 ≤ 1 → r = true) ∧
      (l1 < -g.tol1D ∨ l2 < -g.tol1D ∨ l3 < -g.tol1D → r = false) ∧
      (1 + g.tol1D * max 1 |l1 + l2 + l3| < l1 + l2 + l3 → r = false) ∧
      (r = false → l1 < -g.tol1D ∨ l2 < -g.tol1D ∨ l3 < -g.tol1D ∨ 1 < l1 ∨ 1 < l2 ∨ 1 < l3 ∨
        1 < l1 + l2 + l3) := by
  have hT0 := g.tol1D_nonneg h0
  obtain ⟨m, hm, href, hinv, -⟩ := c30_tetrahedron sqrt hs g v0 v1 v2 v3 hV
  have hF : m.F ⟨l1, l2, l3⟩ = p := by
    simp only [refTetrahedron, List.map_cons, List.map_nil, List.cons.injEq, and_true] at href
    obtain ⟨r0, r1, r2, r3⟩ := href
    rw [← r0, ← r1, ← r2, ← r3] at hp
    rw [hp]
    simp only [AffMap.F, M3.mulVec, V3.add, V3.mk.injEq]
    refine ⟨?_, ?_, ?_⟩ <;> ring
  have hFI : m.FInv p = ⟨l1, l2, l3⟩ := by rw [← hF]; exact hinv.1 _
  unfold GeoCfg.isPointInsideTetrahedron
  rw [hm, ok_bind]
  simp only [hFI]
  refine ⟨_, rfl, ?_, ?_, ?_, ?_⟩
  · intro a1 a2 a3 a4
    simp only [Bool.and_eq_true, ge_1D g h0, le_1D g h0]
    have w := fun a b => window_nonneg hT0 a b
    refine ⟨⟨⟨⟨⟨⟨?_, ?_⟩, ?_⟩, ?_⟩, ?_⟩, ?_⟩, ?_⟩
    · linarith [w l1 0]
    · linarith [w l2 0]
    · linarith [w l3 0]
    · linarith [w l1 1]
    · linarith [w l2 1]
    · linarith [w l3 1]
    · linarith [w (l1 + l2 + l3) 1]
  · intro h
    rw [← Bool.not_eq_true]
    simp only [Bool.and_eq_true, ge_1D g h0, le_1D g h0, window_zero hT0]
    rintro ⟨⟨⟨⟨⟨⟨k1, k2⟩, k3⟩, -⟩, -⟩, -⟩, -⟩
    rcases h with h | h | h <;> linarith
  · intro h
    rw [← Bool.not_eq_true]
    simp only [Bool.and_eq_true, ge_1D g h0, le_1D g h0]
    rintro ⟨-, k⟩
    linarith [window_le hT0 (l1 + l2 + l3) 1]
  · intro h
    by_contra hc
    push Not at hc
    obtain ⟨c1, c2, c3, c4, c5, c6, c7⟩ := hc
    rw [← Bool.not_eq_true] at h
    apply h
    simp only [Bool.and_eq_true, ge_1D g h0, le_1D g h0, window_zero hT0]
    have w := fun a b => window_nonneg hT0 a b
    refine ⟨⟨⟨⟨⟨⟨?_, ?_⟩, ?_⟩, ?_⟩, ?_⟩, ?_⟩, ?_⟩
    · linarith
    · linarith
    · linarith
    · linarith [w l1 1]
    · linarith [w l2 1]
    · linarith [w l3 1]
    · linarith [w (l1 + l2 + l3) 1]

/-- The hypotheses of `c71_tetrahedron`: the reference tetrahedron and its barycentre. -/
example : vol6 (⟨0, 0, 0⟩ : V3 ℝ) ⟨1, 0, 0⟩ ⟨0, 1, 0⟩ ⟨0, 0, 1⟩ ≠ 0 ∧
    (⟨1 / 4, 1 / 4, 1 / 4⟩ : V3 ℝ) = ⟨0 + 1 / 4 * (1 - 0) + 1 / 4 * (0 - 0) + 1 / 4 * (0 - 0),
      0 + 1 / 4 * (0 - 0) + 1 / 4 * (1 - 0) + 1 / 4 * (0 - 0),
      0 + 1 / 4 * (0 - 0) + 1 / 4 * (0 - 0) + 1 / 4 * (1 - 0)⟩ := by
  norm_num [vol6]

/-- The product of the outgoing normal of a face with the vector from a vertex `o` of the face to
`p`. -/
def faceSide (f : PolyhedronFace K) (o p : V3 K) : K :=
  (if f.outgoing then 1 else -1) *
    (f.normal.x * (p.x - o.x) + f.normal.y * (p.y - o.y) + f.normal.z * (p.z - o.z))

/-- The faces have vertices and normals. -/
def ProperFaces (faces : List (PolyhedronFace K)) : Prop :=
  ∀ f ∈ faces, f.vertices3D ≠ [] ∧ 0 < f.normal.dot f.normal

theorem out_dot (f : PolyhedronFace K) (o p : V3 K) : f.out.dot (p.sub o) = faceSide f o p := by
  simp only [PolyhedronFace.out, faceSide, V3.smul, V3.dot, V3.sub]; ring

theorem out_dot_self (f : PolyhedronFace K) : f.out.dot f.out = f.normal.dot f.normal := by
  simp only [PolyhedronFace.out, V3.smul, V3.dot]
  cases f.outgoing <;> simp

theorem out_norm (sqrt : K → K) (f : PolyhedronFace K) : f.out.norm sqrt = f.normal.norm sqrt := by
  unfold V3.norm; rw [out_dot_self]

section polyhedron

variable (sqrt : K → K) (g : GeoCfg K) (faces : List (PolyhedronFace K)) (p : V3 K)

theorem faceStep_cases {sqrt : K → K} (hs : IsSqrt sqrt) {g : GeoCfg K} (h0 : 0 ≤ g.minTolerance)
    {f : PolyhedronFace K} {o p : V3 K} (ho : f.vertices3D.head? = some o)
    (hn : 0 < f.normal.dot f.normal) (i : Nat) (s : FaceStep) :
    g.faceStep sqrt p f i = ok s →
    (s = .negative ↔ faceSide f o p < -(g.tol1D * f.normal.norm sqrt)) ∧
    (s = .skip ↔ g.tol1D * f.normal.norm sqrt < faceSide f o p ∨
      |faceSide f o p| ≤ g.tol1D * f.normal.norm sqrt ∧
      g.pointPolygonPosition sqrt (rotateTo2D f.rotation f.translation p) f.vertices2D =
        ok .outside) ∧
    (∀ r, s = .stop r → |faceSide f o p| ≤ g.tol1D * f.normal.norm sqrt ∧
      ((r = .borderFace i ∧
        g.pointPolygonPosition sqrt (rotateTo2D f.rotation f.translation p) f.vertices2D =
          ok .inside) ∨
       (∃ (b : Nat) (e : Nat × Nat), f.border[b]? = some e ∧ r = .borderEdge e.2 ∧
        g.pointPolygonPosition sqrt (rotateTo2D f.rotation f.translation p) f.vertices2D =
          ok (.borderEdge b)) ∨
       (∃ (b : Nat) (e : Nat × Nat), f.border[b]? = some e ∧ r = .borderVertex e.1 ∧
        g.pointPolygonPosition sqrt (rotateTo2D f.rotation f.translation p) f.vertices2D =
          ok (.borderVertex b)))) := by
  intro h
  have hv : vget f.vertices3D 0 = ok o := by
    cases hl : f.vertices3D with
    | nil => rw [hl] at ho; cases ho
    | cons a l => rw [hl] at ho; cases ho; rfl
  have hN := norm_pos hs hn
  have hTN := mul_nonneg (g.tol1D_nonneg h0) hN.le
  obtain ⟨c1, c2, c3⟩ := pointPlane_iff hs g h0 p f.out o (by rw [out_dot_self]; exact hn)
  rw [out_dot, out_norm] at c1 c2 c3
  unfold GeoCfg.faceStep at h
  rw [hv, ok_bind] at h
  simp only at h
  by_cases h1 : g.pointPlane sqrt p f.out o = 1
  · rw [if_pos h1] at h
    cases h
    have := c1.1 h1
    refine ⟨⟨nofun, fun k => by linarith⟩, ⟨fun _ => Or.inl this, fun _ => rfl⟩, nofun⟩
  · rw [if_neg h1] at h
    by_cases h2 : g.pointPlane sqrt p f.out o = -1
    · rw [if_pos h2] at h
      cases h
      have := c2.1 h2
      refine ⟨⟨fun _ => this, fun _ => rfl⟩, ⟨nofun, ?_⟩, nofun⟩
      rintro (k | ⟨k, -⟩)
      · linarith
      · linarith [(abs_le.1 k).1]
    · rw [if_neg h2] at h
      have hz : g.pointPlane sqrt p f.out o = 0 := by
        rcases pointPlane_cases hs g h0 p f.out o (by rw [out_dot_self]; exact hn) with k | k | k
        · exact absurd k h1
        · exact absurd k h2
        · exact k
      have hab := c3.1 hz
      obtain ⟨q, hq, h⟩ := bind_eq_ok.1 h
      cases q with
      | outside =>
        cases h
        exact ⟨⟨nofun, fun k => by linarith [(abs_le.1 hab).1]⟩,
          ⟨fun _ => Or.inr ⟨hab, hq⟩, fun _ => rfl⟩, nofun⟩
      | inside =>
        cases h
        refine ⟨⟨nofun, fun k => by linarith [(abs_le.1 hab).1]⟩, ⟨nofun, ?_⟩, ?_⟩
        · rintro (k | ⟨-, k⟩)
          · linarith [(abs_le.1 hab).2]
          · rw [hq] at k; cases k
        · rintro r ⟨⟩
          exact ⟨hab, Or.inl ⟨rfl, hq⟩⟩
      | borderEdge b =>
        obtain ⟨e, he, h⟩ := bind_eq_ok.1 h
        cases h
        refine ⟨⟨nofun, fun k => by linarith [(abs_le.1 hab).1]⟩, ⟨nofun, ?_⟩, ?_⟩
        · rintro (k | ⟨-, k⟩)
          · linarith [(abs_le.1 hab).2]
          · rw [hq] at k; cases k
        · rintro r ⟨⟩
          exact ⟨hab, Or.inr (Or.inl ⟨b, e, (vget_eq_ok).1 he, rfl, hq⟩)⟩
      | borderVertex b =>
        obtain ⟨e, he, h⟩ := bind_eq_ok.1 h
        cases h
        refine ⟨⟨nofun, fun k => by linarith [(abs_le.1 hab).1]⟩, ⟨nofun, ?_⟩, ?_⟩
        · rintro (k | ⟨-, k⟩)
          · linarith [(abs_le.1 hab).2]
          · rw [hq] at k; cases k
        · rintro r ⟨⟩
          exact ⟨hab, Or.inr (Or.inr ⟨b, e, (vget_eq_ok).1 he, rfl, hq⟩)⟩

/-- C71, polyhedron: whenever the call returns, the point is reported
* inside only if it is behind all faces by more than the tolerance;
* outside only if it is before a face by more than the tolerance, or in the plane of a face up to the
  tolerance and outside its polygon;
* on a face, an edge or a vertex only if it is in the plane of a face that has this number, or that has
  this edge or vertex at the position where the point is found on its polygon. -/
theorem c71_polyhedron_partial (hs : IsSqrt sqrt) (h0 : 0 ≤ g.minTolerance) (hf : ProperFaces faces)
    (r : PointPolyhedronPos) (h : g.pointPolyhedronPosition sqrt p faces = ok r) :
    (r = .inside → ∀ f ∈ faces, ∀ o, f.vertices3D.head? = some o →
      faceSide f o p < -(g.tol1D * f.normal.norm sqrt)) ∧
    (r = .outside → ∃ f ∈ faces, ∃ o, f.vertices3D.head? = some o ∧
      (g.tol1D * f.normal.norm sqrt < faceSide f o p ∨
       |faceSide f o p| ≤ g.tol1D * f.normal.norm sqrt ∧
       g.pointPolygonPosition sqrt (rotateTo2D f.rotation f.translation p) f.vertices2D =
         ok .outside)) ∧
    (r ≠ .inside → r ≠ .outside → ∃ k f o, faces[k]? = some f ∧ f.vertices3D.head? = some o ∧
      |faceSide f o p| ≤ g.tol1D * f.normal.norm sqrt ∧
      ((r = .borderFace k ∧
        g.pointPolygonPosition sqrt (rotateTo2D f.rotation f.translation p) f.vertices2D =
          ok .inside) ∨
       (∃ (b : Nat) (e : Nat × Nat), f.border[b]? = some e ∧ r = .borderEdge e.2 ∧
        g.pointPolygonPosition sqrt (rotateTo2D f.rotation f.translation p) f.vertices2D =
          ok (.borderEdge b)) ∨
       (∃ (b : Nat) (e : Nat × Nat), f.border[b]? = some e ∧ r = .borderVertex e.1 ∧
        g.pointPolygonPosition sqrt (rotateTo2D f.rotation f.translation p) f.vertices2D =
          ok (.borderVertex b)))) := by
  have hhead : ∀ f ∈ faces, ∃ o, f.vertices3D.head? = some o := by
    intro f hf'
    cases hl : f.vertices3D with
    | nil => exact absurd hl (hf f hf').1
    | cons a l => exact ⟨a, rfl⟩
  rcases polyhedronPosition_cases g sqrt p faces r h with ⟨k, f, hk, hst⟩ | ⟨-, ⟨rfl, hall⟩ | ⟨rfl, k, f, hk, hst⟩⟩
  · have hm := List.mem_of_getElem? hk
    obtain ⟨o, ho⟩ := hhead f hm
    obtain ⟨i1, i2⟩ := (faceStep_cases hs h0 ho (hf f hm).2 k _ hst).2.2 r rfl
    refine ⟨?_, ?_, fun _ _ => ⟨k, f, o, hk, ho, i1, i2⟩⟩
    · rintro rfl
      rcases i2 with ⟨k, -⟩ | ⟨b, e, -, k, -⟩ | ⟨b, e, -, k, -⟩ <;> cases k
    · rintro rfl
      rcases i2 with ⟨k, -⟩ | ⟨b, e, -, k, -⟩ | ⟨b, e, -, k, -⟩ <;> cases k
  · refine ⟨fun _ f hm o ho => ?_, nofun, fun k => absurd rfl k⟩
    obtain ⟨k, hk, hk'⟩ := List.mem_iff_getElem.1 hm
    have := hall k f (by rw [List.getElem?_eq_getElem hk, hk'])
    exact (faceStep_cases hs h0 ho (hf f hm).2 k _ this).1.1 rfl
  · have hm := List.mem_of_getElem? hk
    obtain ⟨o, ho⟩ := hhead f hm
    exact ⟨nofun, fun _ => ⟨f, hm, o, ho, (faceStep_cases hs h0 ho (hf f hm).2 k _ hst).2.1.1 rfl⟩,
      fun _ k => absurd rfl k⟩

/-- C71, polyhedron: a point off the planes of all faces is reported inside if it is behind all of them
and outside if it is before one. -/
theorem c71_off_planes (hs : IsSqrt sqrt) (h0 : 0 ≤ g.minTolerance) (hf : ProperFaces faces)
    (hoff : ∀ f ∈ faces, ∀ o, f.vertices3D.head? = some o →
      g.tol1D * f.normal.norm sqrt < |faceSide f o p|) :
    (g.pointPolyhedronPosition sqrt p faces = ok .inside ∧
      ∀ f ∈ faces, ∀ o, f.vertices3D.head? = some o → faceSide f o p < 0) ∨
    (g.pointPolyhedronPosition sqrt p faces = ok .outside ∧
      ∃ f ∈ faces, ∃ o, f.vertices3D.head? = some o ∧ 0 < faceSide f o p) := by
  have hT0 := g.tol1D_nonneg h0
  have hloop : ∀ (l : List (PolyhedronFace K)) (i neg : Nat), (∀ f ∈ l, f ∈ faces) →
      ∃ m, g.pointPolyhedronLoop sqrt p l i neg = ok (.inl m) := by
    intro l
    induction l with
    | nil => intro i neg _; exact ⟨neg, rfl⟩
    | cons f l ih =>
      intro i neg hl
      have hm := hl f (by simp)
      obtain ⟨hne, hn⟩ := hf f hm
      obtain ⟨o, ho, hv⟩ : ∃ o, f.vertices3D.head? = some o ∧ vget f.vertices3D 0 = ok o := by
        cases hl : f.vertices3D with
        | nil => exact absurd hl hne
        | cons a l => exact ⟨a, rfl, rfl⟩
      obtain ⟨c1, c2, c3⟩ := pointPlane_iff hs g h0 p f.out o (by rw [out_dot_self]; exact hn)
      rw [out_dot, out_norm] at c1 c2 c3
      have hstep : ∃ s, g.faceStep sqrt p f i = ok s ∧ ∀ r, s ≠ .stop r := by
        unfold GeoCfg.faceStep
        rw [hv, ok_bind]
        simp only
        rcases pointPlane_cases hs g h0 p f.out o (by rw [out_dot_self]; exact hn) with k | k | k
        · rw [if_pos k]; exact ⟨_, rfl, nofun⟩
        · rw [k, if_neg (by decide), if_pos rfl]; exact ⟨_, rfl, nofun⟩
        · exact absurd (c3.1 k) (not_le.2 (hoff f hm o ho))
      obtain ⟨s, hst, hns⟩ := hstep
      rw [polyhedronLoop_cons, hst, ok_bind]
      cases s with
      | skip => exact ih _ _ (fun f hf => hl f (by simp [hf]))
      | negative => exact ih _ _ (fun f hf => hl f (by simp [hf]))
      | stop r => exact absurd rfl (hns r)
  obtain ⟨m, hm⟩ := hloop faces 0 0 (fun _ h => h)
  have hr : ∃ r, g.pointPolyhedronPosition sqrt p faces = ok r ∧ (r = .inside ∨ r = .outside) := by
    unfold GeoCfg.pointPolyhedronPosition
    rw [hm, ok_bind]
    simp only
    split
    · exact ⟨_, rfl, Or.inl rfl⟩
    · exact ⟨_, rfl, Or.inr rfl⟩
  obtain ⟨r, hr, hr'⟩ := hr
  obtain ⟨i1, i2, -⟩ := c71_polyhedron_partial sqrt g faces p hs h0 hf r hr
  rcases hr' with rfl | rfl
  · left
    refine ⟨hr, fun f hf' o ho => ?_⟩
    have := i1 rfl f hf' o ho
    linarith [mul_nonneg hT0 (norm_nonneg' hs f.normal)]
  · right
    obtain ⟨f, hf', o, ho, k | ⟨k, -⟩⟩ := i2 rfl
    · exact ⟨hr, f, hf', o, ho, by linarith [mul_nonneg hT0 (norm_nonneg' hs f.normal)]⟩
    · exact absurd k (not_le.2 (hoff f hf' o ho))

/-- An affine function at a convex combination. -/
theorem convexComb_affine {vs : List (V3 K)} {p : V3 K} {w : V3 K → K} (hsum : (vs.map w).sum = 1)
    (hx : p.x = (vs.map fun v => w v * v.x).sum) (hy : p.y = (vs.map fun v => w v * v.y).sum)
    (hz : p.z = (vs.map fun v => w v * v.z).sum) (A : V3 K → K) (a b c d : K)
    (hA : ∀ v, A v = a * v.x + b * v.y + c * v.z + d) :
    A p = (vs.map fun v => w v * A v).sum := by
  have e : ∀ l : List (V3 K), (l.map fun v => w v * A v).sum =
      a * (l.map fun v => w v * v.x).sum + b * (l.map fun v => w v * v.y).sum +
      c * (l.map fun v => w v * v.z).sum + d * (l.map w).sum := by
    intro l
    induction l with
    | nil => simp
    | cons v l ih =>
      simp only [List.map_cons, List.sum_cons]
      rw [ih, hA v]
      ring
  rw [e, hsum, hA, hx, hy, hz]; ring

theorem sum_nonpos' (l : List K) (h : ∀ x ∈ l, x ≤ 0) : l.sum ≤ 0 := by
  induction l with
  | nil => simp
  | cons a l ih =>
    rw [List.sum_cons]
    exact add_nonpos (h a (by simp)) (ih fun x hx => h x (by simp [hx]))

theorem sum_nonpos_zero (l : List (V3 K)) (f : V3 K → K) (hf : ∀ v ∈ l, f v ≤ 0)
    (h : (l.map f).sum = 0) : ∀ v ∈ l, f v = 0 := by
  induction l with
  | nil => simp
  | cons a l ih =>
    have h1 := hf a (by simp)
    have h2 : (l.map f).sum ≤ 0 := by
      apply sum_nonpos'
      intro x hx
      obtain ⟨v, hv, rfl⟩ := List.mem_map.1 hx
      exact hf v (by simp [hv])
    rw [List.map_cons, List.sum_cons] at h
    intro v hv
    rcases List.mem_cons.1 hv with rfl | hv
    · linarith
    · exact ih (fun v hv => hf v (by simp [hv])) (by linarith) v hv

/-- The polyhedron with the given vertices and faces is convex: all vertices are behind the planes of
all faces, those on the plane are the vertices of the face, the vertices in the plane are their images,
a convex polygon with as many edges in the description of the border. -/
def ConvexPolyhedron (vs : List (V3 K)) (faces : List (PolyhedronFace K)) : Prop :=
  ∀ f ∈ faces, f.vertices2D = f.vertices3D.map (rotateTo2D f.rotation f.translation) ∧
    ConvexPolygon f.vertices2D ∧ f.border.length = f.vertices2D.length ∧
    ∀ o, f.vertices3D.head? = some o → ∀ v ∈ vs, faceSide f o v ≤ 0 ∧
      (faceSide f o v = 0 → v ∈ f.vertices3D)

/-- C71, convex polyhedra: a convex combination of the vertices that is off the plane of a face by more
than the tolerance, or on it exactly, for each face, is never reported outside. -/
theorem c71_hull (hs : IsSqrt sqrt) (h0 : 0 ≤ g.minTolerance) (hT : g.tol1D < 1 / 2)
    (h1 : g.tolSq ≤ 1) (ht : 0 ≤ g.tolerance1D) (hf : ProperFaces faces)
    (vs : List (V3 K)) (hconv : ConvexPolyhedron vs faces) (hp : ConvexComb vs p)
    (hexact : ∀ f ∈ faces, ∀ o, f.vertices3D.head? = some o →
      faceSide f o p = 0 ∨ g.tol1D * f.normal.norm sqrt < |faceSide f o p|) :
    ∃ r, g.pointPolyhedronPosition sqrt p faces = ok r ∧ r ≠ .outside := by
  have hT0 := g.tol1D_nonneg h0
  obtain ⟨w, hw, hsum, hx, hy, hz⟩ := hp
  have hhead : ∀ f ∈ faces, ∃ o, f.vertices3D.head? = some o ∧ vget f.vertices3D 0 = ok o := by
    intro f hf'
    cases hl : f.vertices3D with
    | nil => exact absurd hl (hf f hf').1
    | cons a l => exact ⟨a, rfl, rfl⟩
  -- each face gives an answer, and does not say outside
  have hstep : ∀ f ∈ faces, ∀ i, ∃ s, g.faceStep sqrt p f i = ok s ∧ s ≠ .skip := by
    intro f hm i
    obtain ⟨o, ho, hv⟩ := hhead f hm
    obtain ⟨e2D, hpoly, hlen, hside⟩ := hconv f hm
    have hn := (hf f hm).2
    have hTN := mul_nonneg hT0 (norm_nonneg' hs f.normal)
    have hle : faceSide f o p ≤ 0 := by
      rw [convexComb_affine hsum hx hy hz (faceSide f o)
        ((if f.outgoing then 1 else -1) * f.normal.x) ((if f.outgoing then 1 else -1) * f.normal.y)
        ((if f.outgoing then 1 else -1) * f.normal.z)
        (-((if f.outgoing then 1 else -1) *
          (f.normal.x * o.x + f.normal.y * o.y + f.normal.z * o.z)))
        (fun v => by simp only [faceSide]; ring)]
      apply sum_nonpos'
      intro x hx'
      obtain ⟨v, hv', rfl⟩ := List.mem_map.1 hx'
      exact mul_nonpos_of_nonneg_of_nonpos (hw v hv') (hside o ho v hv').1
    have hnout : faceSide f o p = 0 →
        g.pointPolygonPosition sqrt (rotateTo2D f.rotation f.translation p) f.vertices2D ≠
          ok .outside := by
      intro hz0 hout
      obtain ⟨⟨u, a, b, he, hneg, -⟩, -⟩ := c69_outside sqrt g f.vertices2D _ hs h0 hT h1 ht
        hpoly.1 rfl hout
      have hzero : ∀ v ∈ vs, w v * faceSide f o v = 0 := by
        apply sum_nonpos_zero
        · intro v hv'
          exact mul_nonpos_of_nonneg_of_nonpos (hw v hv') (hside o ho v hv').1
        · rw [← convexComb_affine hsum hx hy hz (faceSide f o)
            ((if f.outgoing then 1 else -1) * f.normal.x)
            ((if f.outgoing then 1 else -1) * f.normal.y)
            ((if f.outgoing then 1 else -1) * f.normal.z)
            (-((if f.outgoing then 1 else -1) *
              (f.normal.x * o.x + f.normal.y * o.y + f.normal.z * o.z)))
            (fun v => by simp only [faceSide]; ring), hz0]
      have hA : area2 a b (rotateTo2D f.rotation f.translation p) =
          (vs.map fun v => w v * area2 a b (rotateTo2D f.rotation f.translation v)).sum :=
        convexComb_affine hsum hx hy hz
          (fun v => area2 a b (rotateTo2D f.rotation f.translation v))
          ((b.x - a.x) * f.rotation.col1.x - (b.y - a.y) * f.rotation.col0.x)
          ((b.x - a.x) * f.rotation.col1.y - (b.y - a.y) * f.rotation.col0.y)
          ((b.x - a.x) * f.rotation.col1.z - (b.y - a.y) * f.rotation.col0.z)
          ((b.x - a.x) * (-(f.rotation.col1.dot f.translation) - a.y) -
            (b.y - a.y) * (-(f.rotation.col0.dot f.translation) - a.x))
          (fun v => by simp only [area2, rotateTo2D, V3.dot, V3.sub]; ring)
      rw [hA] at hneg
      have hnn : 0 ≤ (vs.map fun v => w v * area2 a b (rotateTo2D f.rotation f.translation v)).sum := by
        apply List.sum_nonneg
        intro x hx'
        obtain ⟨v, hv', rfl⟩ := List.mem_map.1 hx'
        rcases mul_eq_zero.1 (hzero v hv') with k | k
        · change 0 ≤ w v * _
          rw [k, zero_mul]
        · refine mul_nonneg (hw v hv') (hpoly.2 u a b he _ ?_)
          rw [e2D]
          exact List.mem_map_of_mem ((hside o ho v hv').2 k)
      linarith
    have htot : ∃ s, g.faceStep sqrt p f i = ok s := by
      unfold GeoCfg.faceStep
      rw [hv, ok_bind]
      simp only
      split
      · exact ⟨_, rfl⟩
      · split
        · exact ⟨_, rfl⟩
        · have hidx : ∀ b, b < f.vertices2D.length → ∃ e, vget f.border b = ok e := fun b hb =>
            ⟨_, vget_of_lt (by rw [hlen]; exact hb)⟩
          rcases polygon_cases hs h0 hT h1 ht hpoly.1
            (p := rotateTo2D f.rotation f.translation p) rfl with ⟨k, -⟩ | ⟨u, a, b, s, r, he, -, k2, k⟩
          · rw [k]; exact ⟨_, rfl⟩
          · rw [k, ok_bind]
            cases r with
            | outside => exact ⟨_, rfl⟩
            | inside => exact ⟨_, rfl⟩
            | borderEdge c =>
              have hc : c < f.vertices2D.length := by
                cases s <;> simp [verdict] at k2
                subst k2; exact he.lt
              obtain ⟨e, he'⟩ := hidx c hc
              simp only [he', ok_bind]
              exact ⟨_, rfl⟩
            | borderVertex c =>
              have hc : c < f.vertices2D.length := by
                cases s <;> simp [verdict] at k2
                · subst k2; exact he.lt
                · subst k2; exact Nat.mod_lt _ (by have := he.lt; omega)
              obtain ⟨e, he'⟩ := hidx c hc
              simp only [he', ok_bind]
              exact ⟨_, rfl⟩
    obtain ⟨s, hst⟩ := htot
    refine ⟨s, hst, ?_⟩
    intro hsk
    rcases (faceStep_cases hs h0 ho hn i s hst).2.1.1 hsk with k | ⟨k, k'⟩
    · linarith
    · rcases hexact f hm o ho with k2 | k2
      · exact hnout k2 k'
      · linarith
  have hloop : ∀ (l : List (PolyhedronFace K)) (i neg : Nat), (∀ f ∈ l, f ∈ faces) →
      ∃ r, g.pointPolyhedronLoop sqrt p l i neg = ok r := by
    intro l
    induction l with
    | nil => intro i neg _; exact ⟨_, rfl⟩
    | cons f l ih =>
      intro i neg hl
      obtain ⟨s, hst, hns⟩ := hstep f (hl f (by simp)) i
      rw [polyhedronLoop_cons, hst, ok_bind]
      cases s with
      | skip => exact absurd rfl hns
      | negative => exact ih _ _ (fun f hf => hl f (by simp [hf]))
      | stop r => exact ⟨_, rfl⟩
  obtain ⟨m, hm⟩ := hloop faces 0 0 (fun _ h => h)
  have hr : ∃ r, g.pointPolyhedronPosition sqrt p faces = ok r := by
    unfold GeoCfg.pointPolyhedronPosition
    rw [hm, ok_bind]
    cases m <;> exact ⟨_, rfl⟩
  obtain ⟨r, hr⟩ := hr
  refine ⟨r, hr, ?_⟩
  rintro rfl
  rcases polyhedronPosition_cases g sqrt p faces _ hr with ⟨k, f, hk, hst⟩ | ⟨-, ⟨k, -⟩ | ⟨-, k, f, hk, hst⟩⟩
  · have hm := List.mem_of_getElem? hk
    obtain ⟨o, ho, -⟩ := hhead f hm
    obtain ⟨-, i2⟩ := (faceStep_cases hs h0 ho (hf f hm).2 k _ hst).2.2 _ rfl
    rcases i2 with ⟨k, -⟩ | ⟨b, e, -, k, -⟩ | ⟨b, e, -, k, -⟩ <;> cases k
  · cases k
  · obtain ⟨s, hs1, hs2⟩ := hstep f (List.mem_of_getElem? hk) k
    rw [hst] at hs1
    cases hs1
    exact hs2 rfl

end polyhedron

/-- A unit square with the origin `t`, the sides `a` and `b` and the normal `n` as a face. -/
noncomputable def squareFace (t a b n : V3 ℝ) (out : Bool) (border : List (Nat × Nat)) : PolyhedronFace ℝ where
  border := border
  vertices3D := [t, t.add a, (t.add a).add b, t.add b]
  vertices2D := [⟨0, 0, 0⟩, ⟨1, 0, 0⟩, ⟨1, 1, 0⟩, ⟨0, 1, 0⟩]
  normal := n
  outgoing := out
  translation := t
  rotation := ⟨a.x, b.x, n.x, a.y, b.y, n.y, a.z, b.z, n.z⟩

/-- The unit cube. -/
noncomputable def unitCubeFaces : List (PolyhedronFace ℝ) :=
  let e1 : V3 ℝ := ⟨1, 0, 0⟩
  let e2 : V3 ℝ := ⟨0, 1, 0⟩
  let e3 : V3 ℝ := ⟨0, 0, 1⟩
  let o : V3 ℝ := ⟨0, 0, 0⟩
  [squareFace o e1 e2 e3 false [(0, 0), (1, 1), (2, 2), (3, 3)],
   squareFace e3 e1 e2 e3 true [(4, 4), (5, 5), (6, 6), (7, 7)],
   squareFace o e2 e3 e1 false [(0, 3), (3, 11), (7, 7), (4, 8)],
   squareFace e1 e2 e3 e1 true [(1, 1), (2, 10), (6, 5), (5, 9)],
   squareFace o e3 e1 e2 false [(0, 8), (4, 4), (5, 9), (1, 0)],
   squareFace e2 e3 e1 e2 true [(3, 11), (7, 6), (6, 10), (2, 2)]]

def unitCubeVertices : List (V3 ℝ) :=
  [⟨0, 0, 0⟩, ⟨1, 0, 0⟩, ⟨1, 1, 0⟩, ⟨0, 1, 0⟩, ⟨0, 0, 1⟩, ⟨1, 0, 1⟩, ⟨1, 1, 1⟩, ⟨0, 1, 1⟩]

theorem unitSquare_convex :
    ConvexPolygon ([⟨0, 0, 0⟩, ⟨1, 0, 0⟩, ⟨1, 1, 0⟩, ⟨0, 1, 0⟩] : List (V3 ℝ)) := by
  refine ⟨⟨by simp, by simp⟩, ?_⟩
  intro v a b h c hc
  have hl := h.lt
  obtain ⟨h1, h2⟩ := h
  simp only [List.length_cons, List.length_nil] at hl h1 h2
  have : v = 0 ∨ v = 1 ∨ v = 2 ∨ v = 3 := by omega
  simp only [List.mem_cons, List.not_mem_nil, or_false] at hc
  rcases this with rfl | rfl | rfl | rfl <;>
    simp only [List.getElem?_cons_zero, List.getElem?_cons_succ, Option.some.injEq, Nat.zero_add,
      Nat.reduceAdd, Nat.reduceMod] at h1 h2 <;> subst h1 h2 <;>
    rcases hc with rfl | rfl | rfl | rfl <;> norm_num [area2]

/-- The hypotheses of the theorems on C71: the unit cube and its centre. -/
example : ProperFaces unitCubeFaces ∧ ConvexPolyhedron unitCubeVertices unitCubeFaces ∧
    ConvexComb unitCubeVertices ⟨1 / 2, 1 / 2, 1 / 2⟩ ∧
    ∀ f ∈ unitCubeFaces, ∀ o, f.vertices3D.head? = some o →
      defaultGeo.tol1D * f.normal.norm Real.sqrt < |faceSide f o ⟨1 / 2, 1 / 2, 1 / 2⟩| := by
  refine ⟨?_, ?_, ⟨fun _ => 1 / 8, ?_, ?_, ?_, ?_, ?_⟩, ?_⟩
  · intro f hf
    simp only [unitCubeFaces, List.mem_cons, List.not_mem_nil, or_false] at hf
    rcases hf with rfl | rfl | rfl | rfl | rfl | rfl <;>
      exact ⟨List.cons_ne_nil _ _, by norm_num [squareFace, V3.dot]⟩
  · intro f hf
    simp only [unitCubeFaces, List.mem_cons, List.not_mem_nil, or_false] at hf
    rcases hf with rfl | rfl | rfl | rfl | rfl | rfl <;>
    · refine ⟨?_, unitSquare_convex, rfl, ?_⟩
      · norm_num [squareFace, rotateTo2D, V3.add, V3.sub, V3.dot, M3.col0, M3.col1]
      · intro o ho v hv
        simp only [squareFace, List.head?_cons, Option.some.injEq] at ho
        subst ho
        simp only [unitCubeVertices, List.mem_cons, List.not_mem_nil, or_false] at hv
        rcases hv with rfl | rfl | rfl | rfl | rfl | rfl | rfl | rfl <;>
          norm_num [squareFace, faceSide, V3.add]
  · intros; norm_num
  all_goals try norm_num [unitCubeVertices]
  intro f hf o ho
  have hs1 : Real.sqrt 1 = 1 := Real.sqrt_one
  simp only [unitCubeFaces, List.mem_cons, List.not_mem_nil, or_false] at hf
  rcases hf with rfl | rfl | rfl | rfl | rfl | rfl <;>
  · simp only [squareFace, List.head?_cons, Option.some.injEq] at ho
    subst ho
    rw [defaultGeo_tol1D]
    norm_num [squareFace, faceSide, V3.norm, V3.dot]

/-! ### C72 -/

/-- C72, bounding box: it contains all points, and each side touches one. Without points the result is
undefined. -/
theorem c72_box (points : List (V3 K)) :
    (points = [] → pointsBoundingBox points = ub) ∧
    (points ≠ [] → ∃ lo hi, pointsBoundingBox points = ok (lo, hi) ∧
      (∀ q ∈ points, lo.x ≤ q.x ∧ q.x ≤ hi.x ∧ lo.y ≤ q.y ∧ q.y ≤ hi.y ∧ lo.z ≤ q.z ∧ q.z ≤ hi.z) ∧
      (∃ q ∈ points, lo.x = q.x) ∧ (∃ q ∈ points, hi.x = q.x) ∧ (∃ q ∈ points, lo.y = q.y) ∧
      (∃ q ∈ points, hi.y = q.y) ∧ (∃ q ∈ points, lo.z = q.z) ∧ (∃ q ∈ points, hi.z = q.z)) := by
  refine ⟨fun h => by rw [h]; rfl, fun h => ?_⟩
  cases points with
  | nil => exact absurd rfl h
  | cons p ps =>
    refine ⟨_, _, rfl, ?_⟩
    obtain ⟨a1, b1⟩ := foldl_min (fun v : V3 K => v.x)
      (fun m q => ⟨min m.x q.x, min m.y q.y, min m.z q.z⟩) (fun _ _ => rfl) p ps
    obtain ⟨a2, b2⟩ := foldl_min (fun v : V3 K => v.y)
      (fun m q => ⟨min m.x q.x, min m.y q.y, min m.z q.z⟩) (fun _ _ => rfl) p ps
    obtain ⟨a3, b3⟩ := foldl_min (fun v : V3 K => v.z)
      (fun m q => ⟨min m.x q.x, min m.y q.y, min m.z q.z⟩) (fun _ _ => rfl) p ps
    obtain ⟨c1, d1⟩ := foldl_max (fun v : V3 K => v.x)
      (fun m q => ⟨max m.x q.x, max m.y q.y, max m.z q.z⟩) (fun _ _ => rfl) p ps
    obtain ⟨c2, d2⟩ := foldl_max (fun v : V3 K => v.y)
      (fun m q => ⟨max m.x q.x, max m.y q.y, max m.z q.z⟩) (fun _ _ => rfl) p ps
    obtain ⟨c3, d3⟩ := foldl_max (fun v : V3 K => v.z)
      (fun m q => ⟨max m.x q.x, max m.y q.y, max m.z q.z⟩) (fun _ _ => rfl) p ps
    exact ⟨fun q hq => ⟨a1 q hq, c1 q hq, a2 q hq, c2 q hq, a3 q hq, c3 q hq⟩, b1, d1, b2, d2, b3, d3⟩

/-- `q` is in the box. -/
def InBox (lo hi q : V3 K) : Prop :=
  lo.x ≤ q.x ∧ q.x ≤ hi.x ∧ lo.y ≤ q.y ∧ q.y ≤ hi.y ∧ lo.z ≤ q.z ∧ q.z ≤ hi.z

/-- `d` is larger than `c` by more than the tolerance, relative to the values if they exceed one. -/
def ClearlyBelow (t c d : K) : Prop := c + t * max 1 (max |c| |d|) < d

theorem ClearlyBelow.window {t c d : K} (ht : 0 ≤ t) (h : ClearlyBelow t c d) :
    c + window t c d < d ∧ c + window t d c < d := by
  unfold ClearlyBelow at h
  have h1 := window_le ht c d
  have h2 := window_le ht d c
  have h3 := mul_le_mul_of_nonneg_left (max_le_max (le_refl (1 : K)) (le_max_left |c| |d|)) ht
  have h4 := mul_le_mul_of_nonneg_left (max_le_max (le_refl (1 : K)) (le_max_right |c| |d|)) ht
  constructor <;> linarith

/-- C72, point in box: points in the box are accepted, points clearly beside it are not. -/
theorem c72_point_in_box (g : GeoCfg K) (h0 : 0 ≤ g.minTolerance) (lo hi p : V3 K) :
    (InBox lo hi p → g.isPointInBoundingBox p (lo, hi) = true) ∧
    (ClearlyBelow g.tol1D p.x lo.x ∨ ClearlyBelow g.tol1D hi.x p.x ∨
     ClearlyBelow g.tol1D p.y lo.y ∨ ClearlyBelow g.tol1D hi.y p.y ∨
     ClearlyBelow g.tol1D p.z lo.z ∨ ClearlyBelow g.tol1D hi.z p.z →
      g.isPointInBoundingBox p (lo, hi) = false) := by
  have hT0 := g.tol1D_nonneg h0
  have w := fun a b => window_nonneg hT0 a b
  constructor
  · rintro ⟨k1, k2, k3, k4, k5, k6⟩
    rw [isPointInBoundingBox_iff g h0]
    exact ⟨⟨by linarith [w p.x lo.x], by linarith [w hi.x p.x]⟩,
      ⟨by linarith [w p.y lo.y], by linarith [w hi.y p.y]⟩,
      ⟨by linarith [w p.z lo.z], by linarith [w hi.z p.z]⟩⟩
  · intro h
    rw [← Bool.not_eq_true, isPointInBoundingBox_iff g h0]
    rintro ⟨⟨k1, k2⟩, ⟨k3, k4⟩, ⟨k5, k6⟩⟩
    rcases h with h | h | h | h | h | h <;> linarith [(h.window hT0).1]

/-- C72, two boxes: boxes with a common point intersect, boxes that are clearly apart in one coordinate
do not. -/
theorem c72_boxes (g : GeoCfg K) (h0 : 0 ≤ g.minTolerance) (lo hi lo' hi' : V3 K) :
    ((∃ q, InBox lo hi q ∧ InBox lo' hi' q) →
      g.boundingBoxesIntersects (lo, hi) (lo', hi') = true) ∧
    (ClearlyBelow g.tol1D hi'.x lo.x ∨ ClearlyBelow g.tol1D hi.x lo'.x ∨
     ClearlyBelow g.tol1D hi'.y lo.y ∨ ClearlyBelow g.tol1D hi.y lo'.y ∨
     ClearlyBelow g.tol1D hi'.z lo.z ∨ ClearlyBelow g.tol1D hi.z lo'.z →
      g.boundingBoxesIntersects (lo, hi) (lo', hi') = false) := by
  have hT0 := g.tol1D_nonneg h0
  have w := fun a b => window_nonneg hT0 a b
  constructor
  · rintro ⟨q, ⟨k1, k2, k3, k4, k5, k6⟩, ⟨j1, j2, j3, j4, j5, j6⟩⟩
    rw [boundingBoxesIntersects_iff g h0]
    exact ⟨⟨by linarith [w lo.x hi'.x], by linarith [w hi.x lo'.x]⟩,
      ⟨by linarith [w lo.y hi'.y], by linarith [w hi.y lo'.y]⟩,
      ⟨by linarith [w lo.z hi'.z], by linarith [w hi.z lo'.z]⟩⟩
  · intro h
    rw [← Bool.not_eq_true, boundingBoxesIntersects_iff g h0]
    rintro ⟨⟨k1, k2⟩, ⟨k3, k4⟩, ⟨k5, k6⟩⟩
    rcases h with h | h | h | h | h | h <;>
      linarith [(h.window hT0).1, (h.window hT0).2]

theorem convexComb_le {vs : List (V3 K)} {p : V3 K} (hp : ConvexComb vs p) (lo hi : V3 K)
    (h : ∀ q ∈ vs, InBox lo hi q) : InBox lo hi p := by
  obtain ⟨w, hw, hsum, hx, hy, hz⟩ := hp
  have key : ∀ (f : V3 K → K) (m : K), (∀ q ∈ vs, 0 ≤ f q) →
      0 ≤ (vs.map fun v => w v * f v).sum := by
    intro f m hf
    apply List.sum_nonneg
    intro x hx'
    obtain ⟨v, hv, rfl⟩ := List.mem_map.1 hx'
    exact mul_nonneg (hw v hv) (hf v hv)
  have e := fun (A : V3 K → K) a b c d hA => convexComb_affine hsum hx hy hz A a b c d hA
  refine ⟨?_, ?_, ?_, ?_, ?_, ?_⟩
  · have := key (fun v => v.x - lo.x) 0 (fun q hq => by linarith [(h q hq).1])
    rw [← e (fun v => v.x - lo.x) 1 0 0 (-lo.x) (fun v => by ring)] at this
    linarith
  · have := key (fun v => hi.x - v.x) 0 (fun q hq => by linarith [(h q hq).2.1])
    rw [← e (fun v => hi.x - v.x) (-1) 0 0 hi.x (fun v => by ring)] at this
    linarith
  · have := key (fun v => v.y - lo.y) 0 (fun q hq => by linarith [(h q hq).2.2.1])
    rw [← e (fun v => v.y - lo.y) 0 1 0 (-lo.y) (fun v => by ring)] at this
    linarith
  · have := key (fun v => hi.y - v.y) 0 (fun q hq => by linarith [(h q hq).2.2.2.1])
    rw [← e (fun v => hi.y - v.y) 0 (-1) 0 hi.y (fun v => by ring)] at this
    linarith
  · have := key (fun v => v.z - lo.z) 0 (fun q hq => by linarith [(h q hq).2.2.2.2.1])
    rw [← e (fun v => v.z - lo.z) 0 0 1 (-lo.z) (fun v => by ring)] at this
    linarith
  · have := key (fun v => hi.z - v.z) 0 (fun q hq => by linarith [(h q hq).2.2.2.2.2])
    rw [← e (fun v => hi.z - v.z) 0 0 (-1) hi.z (fun v => by ring)] at this
    linarith

/-- C72: the test with bounding boxes never misses. A convex combination of points is in their bounding
box, and if two sets of points have a common convex combination, their bounding boxes intersect. -/
theorem c72_no_miss (g : GeoCfg K) (h0 : 0 ≤ g.minTolerance) (ps qs : List (V3 K)) (x : V3 K)
    (h1 : ConvexComb ps x) (h2 : ConvexComb qs x) :
    ∃ b c, pointsBoundingBox ps = ok b ∧ pointsBoundingBox qs = ok c ∧
      g.isPointInBoundingBox x b = true ∧ g.boundingBoxesIntersects b c = true := by
  have hne : ∀ vs : List (V3 K), ConvexComb vs x → vs ≠ [] := by
    rintro vs ⟨w, -, hsum, -⟩ rfl
    simp at hsum
  obtain ⟨lo, hi, e1, i1, -⟩ := (c72_box ps).2 (hne ps h1)
  obtain ⟨lo', hi', e2, i2, -⟩ := (c72_box qs).2 (hne qs h2)
  have b1 := convexComb_le h1 lo hi i1
  have b2 := convexComb_le h2 lo' hi' i2
  exact ⟨_, _, e1, e2, (c72_point_in_box g h0 lo hi x).1 b1, (c72_boxes g h0 lo hi lo' hi').1 ⟨x, b1, b2⟩⟩

/-- C72, largest distance: the result is zero or the distance of two of the points, and no distance of
two of the points exceeds it by more than the tolerance, relative to the result if it exceeds one. -/
theorem c72_max_distance (sqrt : K → K) (hs : IsSqrt sqrt) (g : GeoCfg K) (h0 : 0 ≤ g.minTolerance)
    (points : List (V3 K)) :
    ∃ m, g.pointsMaxDistance sqrt points = ok m ∧ 0 ≤ m ∧
      (m = 0 ∨ ∃ a ∈ points, ∃ b ∈ points, m * m = dist2 a b) ∧
      ∀ a ∈ points, ∀ b ∈ points, ∀ d, 0 ≤ d → d * d = dist2 a b → d ≤ m + g.tol1D * max 1 m := by
  have hT0 := g.tol1D_nonneg h0
  obtain ⟨m, h1, h2, h3, h4⟩ := pointsMaxDistance_spec hs g h0 points
  refine ⟨m, h1, h2, ?_, ?_⟩
  · rcases h3 with h3 | ⟨a, ha, b, hb, h3⟩
    · exact Or.inl h3
    · right
      refine ⟨a, ha, b, hb, ?_⟩
      rw [h3, norm_sq hs, V3.sub_dot_pointAt]
  · intro a ha b hb d hd hdd
    obtain ⟨v, hv, rfl⟩ := List.mem_iff_getElem.1 ha
    obtain ⟨w, hw, rfl⟩ := List.mem_iff_getElem.1 hb
    have hn : ∀ x y : V3 K, d * d = dist2 x y → d = (y.sub x).norm sqrt := by
      intro x y h
      have e := norm_sq hs (y.sub x)
      rw [V3.sub_dot_pointAt, ← h] at e
      have hnn := norm_nonneg' hs (y.sub x)
      exact ((mul_self_inj hnn hd).1 e).symm
    rcases lt_trichotomy v w with k | k | k
    · rw [hn _ _ hdd]
      exact h4 v w _ _ k (List.getElem?_eq_getElem hv) (List.getElem?_eq_getElem hw)
    · subst k
      have : dist2 points[v] points[v] = 0 := by simp [dist2]
      rw [this] at hdd
      rw [mul_self_eq_zero.1 hdd]
      exact add_nonneg h2 (mul_nonneg hT0 (le_trans zero_le_one (le_max_left _ _)))
    · have hsymm : dist2 points[v] points[w] = dist2 points[w] points[v] := by
        simp only [dist2]; ring
      rw [hsymm] at hdd
      rw [hn _ _ hdd]
      exact h4 w v _ _ k (List.getElem?_eq_getElem hw) (List.getElem?_eq_getElem hv)

/-- C72, search: the result is the increasing list of the numbers of the points whose distance from
the given one is at most the tolerance. -/
theorem c72_find (sqrt : K → K) (hs : IsSqrt sqrt) (g : GeoCfg K) (h0 : 0 ≤ g.minTolerance)
    (points : List (V3 K)) (p : V3 K) :
    ∃ r, g.findPointInPoints sqrt points p = ok r ∧ r.Pairwise (· < ·) ∧
      ∀ i, i ∈ r ↔ ∃ a, points[i]? = some a ∧ dist2 p a ≤ g.tol1D * g.tol1D := by
  refine ⟨_, findPointInPoints_eq g sqrt points p, List.Pairwise.filter _ List.pairwise_lt_range, ?_⟩
  intro i
  rw [List.mem_filter, List.mem_range]
  have hT0 := g.tol1D_nonneg h0
  have key : ∀ a : V3 K, g.isValueZero ((a.sub p).norm sqrt) g.tol1D = true ↔
      dist2 p a ≤ g.tol1D * g.tol1D := by
    intro a
    rw [g.zero_1D h0, abs_of_nonneg (norm_nonneg' hs _), ← V3.sub_dot_pointAt, ← norm_sq hs]
    exact (mul_self_le_mul_self_iff (norm_nonneg' hs _) hT0)
  constructor
  · rintro ⟨hi, h⟩
    rw [List.getElem?_eq_getElem hi] at h
    exact ⟨_, List.getElem?_eq_getElem hi, (key _).1 h⟩
  · rintro ⟨a, ha, h⟩
    refine ⟨(List.getElem?_eq_some_iff.1 ha).1, ?_⟩
    rw [ha]
    exact (key a).2 h

/-- C72, points that are not aligned with their neighbours: for two points both, for more the
increasing list of the numbers of such points, cut after the desired number of them if it is not zero;
fewer than two points stop at an assertion. -/
theorem c72_unaligned (g : GeoCfg K) (sqrt : K → K) (points : List (V3 K)) (desired : Nat) :
    (points.length < 2 → g.unalignedPoints sqrt points desired = abort) ∧
    (points.length = 2 → g.unalignedPoints sqrt points desired = ok [0, 1]) ∧
    (2 < points.length → ∃ r all, g.unalignedPoints sqrt points desired = ok r ∧
      r = (if desired = 0 then all else all.take desired) ∧ all.Pairwise (· < ·) ∧
      ∀ i, i ∈ all ↔ ∃ a b c, points[(i + points.length - 1) % points.length]? = some a ∧
        points[i]? = some b ∧ points[(i + 1) % points.length]? = some c ∧
        g.pointIsAligned sqrt a b c = false) := by
  unfold GeoCfg.unalignedPoints
  refine ⟨?_, ?_, ?_⟩
  · intro h; rw [assert_false (by omega)]; rfl
  · intro h; rw [assert_true (by omega), ok_bind, if_pos h]
  · intro h
    rw [assert_true (by omega), ok_bind, if_neg (by omega), unalignedLoop_eq g sqrt points desired
      _ [] (fun p hp => List.mem_range.1 hp) (fun k => k)]
    refine ⟨_, _, rfl, rfl, ?_, ?_⟩
    · rw [List.nil_append]; exact List.Pairwise.filter _ List.pairwise_lt_range
    · intro i
      rw [List.nil_append, List.mem_filter, List.mem_range]
      have hprev : ∀ i < points.length, (i + points.length - 1) % points.length =
          if i = 0 then points.length - 1 else i - 1 := by
        intro i hi
        split
        · subst_vars; rw [Nat.zero_add]; exact Nat.mod_eq_of_lt (by omega)
        · rw [show i + points.length - 1 = (i - 1) + points.length by omega, Nat.add_mod_right,
            Nat.mod_eq_of_lt (by omega)]
      constructor
      · rintro ⟨hi, hal⟩
        have h1 : (if i = 0 then points.length - 1 else i - 1) < points.length := by split <;> omega
        have h2 : (i + 1) % points.length < points.length := Nat.mod_lt _ (by omega)
        unfold GeoCfg.alignedAt at hal
        rw [List.getElem?_eq_getElem h1, List.getElem?_eq_getElem hi, List.getElem?_eq_getElem h2] at hal
        refine ⟨_, _, _, by rw [hprev i hi]; exact List.getElem?_eq_getElem h1,
          List.getElem?_eq_getElem hi, List.getElem?_eq_getElem h2, by simpa using hal⟩
      · rintro ⟨a, b, c, h1, h2, h3, h4⟩
        have hi := (List.getElem?_eq_some_iff.1 h2).1
        refine ⟨hi, ?_⟩
        rw [hprev i hi] at h1
        unfold GeoCfg.alignedAt
        rw [h1, h2, h3]
        simpa using h4

/-- The hypotheses of the theorems on C72: two triangles with a common point. -/
example : ConvexComb [⟨0, 0, 0⟩, ⟨2, 0, 0⟩, ⟨0, 2, 0⟩] (⟨1, 1, 0⟩ : V3 ℝ) ∧
    ConvexComb [⟨1, 0, 0⟩, ⟨1, 2, 0⟩, ⟨3, 1, 0⟩] (⟨1, 1, 0⟩ : V3 ℝ) ∧
    ClearlyBelow defaultGeo.tol1D 1 2 := by
  refine ⟨⟨fun v => (v.x + v.y) / 4, ?_, ?_, ?_, ?_, ?_⟩,
    ⟨fun v => if v.x = 1 then 1 / 2 else 0, ?_, ?_, ?_, ?_, ?_⟩, ?_⟩ <;>
    try norm_num
  · unfold ClearlyBelow; rw [defaultGeo_tol1D]; norm_num

end Verif
