import Verif.VolumeModel
import Verif.VolumeSpec
import Verif.MomentLemmas
import Verif.MapLemmas
import Verif.SolidLemmas

/-
Lemmas on the integrals over polyhedra.
-/
namespace Verif

open Res

/-- A loop over positions that reads a list is a loop over the list. -/
theorem foldRes_positions {σ α : Type} {F : σ → Nat → Res σ} {G : σ → α → Res σ} (L : List α)
    (h : ∀ s i x, L[i]? = some x → F s i = G s x) (s : σ) :
    foldRes F s (List.range L.length) = foldRes G s L := by
  induction L generalizing s F with
  | nil => rfl
  | cons a L ih =>
    rw [List.length_cons, List.range_succ_eq_map, foldRes_cons, foldRes_cons, h s 0 a rfl]
    congr 1
    funext s'
    rw [foldRes_map]
    exact ih (fun s i x hx => h s (i + 1) x (by simpa using hx)) s'

section field
variable {K : Type} [Field K]

theorem sum_map_div {α : Type} (f : α → K) (c : K) (l : List α) : (l.map fun a => f a / c).sum = (l.map f).sum / c := by
  induction l with
  | nil => simp
  | cons a l ih => simp only [List.map_cons, List.sum_cons, ih]; ring

theorem sum_map_mulLeft {α : Type} (f : α → K) (c : K) (l : List α) :
    (l.map fun a => c * f a).sum = c * (l.map f).sum := by
  induction l with
  | nil => simp
  | cons a l ih => simp only [List.map_cons, List.sum_cons, ih]; ring

theorem sum_map_plus {α : Type} (f g : α → K) (l : List α) :
    (l.map fun a => f a + g a).sum = (l.map f).sum + (l.map g).sum := by
  induction l with
  | nil => simp
  | cons a l ih => simp only [List.map_cons, List.sum_cons, ih]; ring

variable [LinearOrder K] [IsStrictOrderedRing K]

/-- Over a closed surface the contributions of the sides cancel. -/
theorem closed_cancel {ts : List (V3 K × V3 K × V3 K)} (h : ClosedSurface ts) (E : V3 K → V3 K → K)
    (hE : ∀ a b, E b a = -E a b) :
    (ts.map fun t => E t.1 t.2.1 + E t.2.1 t.2.2 + E t.2.2 t.1).sum = 0 := by
  have e1 : ((ts.flatMap triangleSides).map fun s => E s.1 s.2).sum =
      (ts.map fun t => E t.1 t.2.1 + E t.2.1 t.2.2 + E t.2.2 t.1).sum := by
    rw [sum_flatMap]
    congr 1
    apply List.map_congr_left
    intro t _
    simp only [triangleSides, List.map_cons, List.map_nil, List.sum_cons, List.sum_nil]
    ring
  have e2 := (h.map fun s => E s.1 s.2).sum_eq
  rw [List.map_map] at e2
  have e3 : (List.map ((fun s : V3 K × V3 K => E s.1 s.2) ∘ Prod.swap) (ts.flatMap triangleSides)).sum =
      -((ts.flatMap triangleSides).map fun s => E s.1 s.2).sum := by
    generalize ts.flatMap triangleSides = l
    induction l with
    | nil => simp
    | cons s l ih =>
      simp only [List.map_cons, List.sum_cons, ih, Function.comp, Prod.fst_swap, Prod.snd_swap, hE s.1 s.2]
      ring
  rw [e3, e1] at e2
  linarith

/-- The volume of the cone over a closed surface does not depend on the apex. -/
theorem coneVolume_apex {ts : List (V3 K × V3 K × V3 K)} (h : ClosedSurface ts) (p q : V3 K) :
    coneVolume p ts = coneVolume q ts := by
  have key : ∀ r : V3 K, coneVolume r ts = coneVolume V3.zero ts := by
    intro r
    have := closed_cancel h (fun a b => -(r.x * (a.y * b.z - a.z * b.y) + r.y * (a.z * b.x - a.x * b.z) +
      r.z * (a.x * b.y - a.y * b.x)) / 6) (by intro a b; ring)
    unfold coneVolume
    rw [← add_zero (List.sum (List.map (fun t => vol6 V3.zero _ _ _ / 6) ts)), ← this, ← sum_map_plus]
    congr 1
    apply List.map_congr_left
    intro t _
    simp only [vol6, V3.zero]
    ring
  rw [key p, key q]

/-- Three coordinates in cyclic order. -/
def CyclicCoords (X Y Z : V3 K → K) : Prop :=
  (X = V3.x ∧ Y = V3.y ∧ Z = V3.z) ∨ (X = V3.y ∧ Y = V3.z ∧ Z = V3.x) ∨ (X = V3.z ∧ Y = V3.x ∧ Z = V3.y)

/-- The moment of the cone is an integral over the surface. -/
theorem coneMoment_flux {ts : List (V3 K × V3 K × V3 K)} (h : ClosedSurface ts) (p : V3 K) {X Y Z : V3 K → K}
    (hc : CyclicCoords X Y Z) :
    coneMoment X p ts = (ts.map fun t =>
      ((Y t.2.1 - Y t.1) * (Z t.2.2 - Z t.1) - (Z t.2.1 - Z t.1) * (Y t.2.2 - Y t.1)) *
        (X t.1 ^ 2 + X t.2.1 ^ 2 + X t.2.2 ^ 2 + X t.1 * X t.2.1 + X t.2.1 * X t.2.2 + X t.2.2 * X t.1) / 24).sum := by
  have := closed_cancel h (fun a b => ((Y a - Y p) * (Z b - Z p) - (Z a - Z p) * (Y b - Y p)) *
    ((X a - X p) ^ 2 + (X a - X p) * (X b - X p) + (X b - X p) ^ 2 + 4 * X p * ((X a - X p) + (X b - X p)) +
      6 * X p ^ 2) / 24) (by intro a b; ring)
  unfold coneMoment
  rw [← add_zero (List.sum (List.map _ ts)), ← this, ← sum_map_plus]
  congr 1
  apply List.map_congr_left
  intro t _
  rcases hc with ⟨rfl, rfl, rfl⟩ | ⟨rfl, rfl, rfl⟩ | ⟨rfl, rfl, rfl⟩ <;>
  · simp only [vol6]
    ring

/-- The third column of a rotation is the cross product of the first two. -/
theorem IsRotation.cross {Q : M3 K} (h : IsRotation Q) :
    Q.a10 * Q.a21 - Q.a20 * Q.a11 = Q.a02 ∧ Q.a20 * Q.a01 - Q.a00 * Q.a21 = Q.a12 ∧
    Q.a00 * Q.a11 - Q.a10 * Q.a01 = Q.a22 := by
  obtain ⟨u0, u1, u2, o01, -, -, hd⟩ := h
  simp only [M3.col0, M3.col1, M3.col2, V3.dot, M3.det] at u0 u1 u2 o01 hd
  have key : (Q.a10 * Q.a21 - Q.a20 * Q.a11 - Q.a02) ^ 2 + (Q.a20 * Q.a01 - Q.a00 * Q.a21 - Q.a12) ^ 2 +
      (Q.a00 * Q.a11 - Q.a10 * Q.a01 - Q.a22) ^ 2 = 0 := by
    linear_combination (Q.a01 * Q.a01 + Q.a11 * Q.a11 + Q.a21 * Q.a21) * u0 + u1 + u2 - 2 * hd -
      (Q.a00 * Q.a01 + Q.a10 * Q.a11 + Q.a20 * Q.a21) * o01
  have h1 := sq_nonneg (Q.a10 * Q.a21 - Q.a20 * Q.a11 - Q.a02)
  have h2 := sq_nonneg (Q.a20 * Q.a01 - Q.a00 * Q.a21 - Q.a12)
  have h3 := sq_nonneg (Q.a00 * Q.a11 - Q.a10 * Q.a01 - Q.a22)
  refine ⟨?_, ?_, ?_⟩ <;> rw [← sub_eq_zero] <;> apply pow_eq_zero_iff (two_ne_zero) |>.1 <;> linarith

/-- The cross product of two sides of a placed triangle is twice its area times the third column. -/
theorem place_cross {f : PlacedFace K} (h : IsRotation f.rotation) {a b c : V3 K} (hb : b.z = a.z) (hc : c.z = a.z) :
    ((f.place b).y - (f.place a).y) * ((f.place c).z - (f.place a).z) -
      ((f.place b).z - (f.place a).z) * ((f.place c).y - (f.place a).y) = area2 a b c * f.rotation.a02 ∧
    ((f.place b).z - (f.place a).z) * ((f.place c).x - (f.place a).x) -
      ((f.place b).x - (f.place a).x) * ((f.place c).z - (f.place a).z) = area2 a b c * f.rotation.a12 ∧
    ((f.place b).x - (f.place a).x) * ((f.place c).y - (f.place a).y) -
      ((f.place b).y - (f.place a).y) * ((f.place c).x - (f.place a).x) = area2 a b c * f.rotation.a22 := by
  obtain ⟨h1, h2, h3⟩ := h.cross
  simp only [PlacedFace.place, M3.mulVec, V3.add, area2, hb, hc]
  refine ⟨?_, ?_, ?_⟩
  · rw [← h1]; ring
  · rw [← h2]; ring
  · rw [← h3]; ring

theorem vol6_cross (p a b c : V3 K) :
    vol6 p a b c = (a.x - p.x) * ((b.y - a.y) * (c.z - a.z) - (b.z - a.z) * (c.y - a.y)) +
      (a.y - p.y) * ((b.z - a.z) * (c.x - a.x) - (b.x - a.x) * (c.z - a.z)) +
      (a.z - p.z) * ((b.x - a.x) * (c.y - a.y) - (b.y - a.y) * (c.x - a.x)) := by
  unfold vol6
  ring

theorem vol6_swap (p a b c : V3 K) : vol6 p a c b = -vol6 p a b c := by unfold vol6; ring

theorem framed_normal {f : PlacedFace K} (h : f.Framed) :
    f.normal = ⟨f.rotation.a02, f.rotation.a12, f.rotation.a22⟩ := by
  rw [← h.2]
  simp [M3.mulVec]

/-- The normal of a face, turned outwards. -/
def PlacedFace.out (f : PlacedFace K) : V3 K := if f.direction then f.normal else V3.smul (-1) f.normal

/-- Six times the volume of the cone over a triangle with apex at the origin. -/
theorem outer_vol {f : PlacedFace K} (h : f.Framed) {t : V3 K × V3 K × V3 K} (hb : t.2.1.z = t.1.z)
    (hc : t.2.2.z = t.1.z) :
    vol6 V3.zero (f.outer t).1 (f.outer t).2.1 (f.outer t).2.2 =
      |area2 t.1 t.2.1 t.2.2| * ((f.place t.1).x * f.out.x + (f.place t.1).y * f.out.y + (f.place t.1).z * f.out.z) := by
  obtain ⟨h1, h2, h3⟩ := place_cross h.1 hb hc
  have hv : vol6 V3.zero (f.place t.1) (f.place t.2.1) (f.place t.2.2) = area2 t.1 t.2.1 t.2.2 *
      ((f.place t.1).x * f.normal.x + (f.place t.1).y * f.normal.y + (f.place t.1).z * f.normal.z) := by
    rw [vol6_cross, h1, h2, h3, framed_normal h]
    simp only [V3.zero]
    ring
  have hv' := (vol6_swap V3.zero (f.place t.1) (f.place t.2.1) (f.place t.2.2)).trans (congrArg _ hv)
  unfold PlacedFace.outer PlacedFace.out
  by_cases hA : 0 ≤ area2 t.1 t.2.1 t.2.2 <;> cases hd : f.direction
  · simp only [hA, decide_true, Bool.false_eq_true, if_false, hv', abs_of_nonneg hA, V3.smul]
    ring
  · simp only [hA, decide_true, if_true, hv, abs_of_nonneg hA]
  · simp only [hA, decide_false, if_true, hv, abs_of_neg (not_le.1 hA), V3.smul, Bool.false_eq_true, if_false]
    ring
  · simp only [hA, decide_false, Bool.true_eq_false, if_false, hv', abs_of_neg (not_le.1 hA), if_true]
    ring

theorem mapTriangle_det (a b c : V3 K) : (mapTriangle a b c).det = area2 a b c := by
  simp only [mapTriangle, AffMap.build, bMatrix, M3.det, area2]
  ring

/-- The contribution of one triangle, for a rule with one point in the plane of the reference triangle. -/
theorem volumeOfTriangle_eq {f : PlacedFace K} (h : f.Framed) {t : V3 K × V3 K × V3 K} (hb : t.2.1.z = t.1.z)
    (hc : t.2.2.z = t.1.z) (q : V3 K) (hq : q.z = 0) (w : K) :
    volumeOfTriangle f.out f.rotation f.translation [q] [w] t =
      ok (w / 3 * vol6 V3.zero (f.outer t).1 (f.outer t).2.1 (f.outer t).2.2) := by
  have hu := h.1.unit2
  have h02 := h.1.orth02
  have h12 := h.1.orth12
  simp only [M3.col0, M3.col1, M3.col2, V3.dot] at hu h02 h12
  have hn := framed_normal h
  have key : ∀ s : K, ∀ o : V3 K, (o = f.normal ∨ o = V3.smul (-1) f.normal) →
      (((f.rotation.mul (mapTriangle t.1 t.2.1 t.2.2).mat).mulVec q).x +
        (f.rotation.mulVec (mapTriangle t.1 t.2.1 t.2.2).b).x + f.translation.x) * (s * o.x) +
      (((f.rotation.mul (mapTriangle t.1 t.2.1 t.2.2).mat).mulVec q).y +
        (f.rotation.mulVec (mapTriangle t.1 t.2.1 t.2.2).b).y + f.translation.y) * (s * o.y) +
      (((f.rotation.mul (mapTriangle t.1 t.2.1 t.2.2).mat).mulVec q).z +
        (f.rotation.mulVec (mapTriangle t.1 t.2.1 t.2.2).b).z + f.translation.z) * (s * o.z) =
      s * ((f.place t.1).x * o.x + (f.place t.1).y * o.y + (f.place t.1).z * o.z) := by
    intro s o ho
    have hcs : ∃ e : K, o = ⟨e * f.rotation.a02, e * f.rotation.a12, e * f.rotation.a22⟩ := by
      rcases ho with rfl | rfl
      · exact ⟨1, by rw [hn]; ext <;> simp⟩
      · exact ⟨-1, by rw [hn]; rfl⟩
    obtain ⟨e, rfl⟩ := hcs
    simp only [mapTriangle, AffMap.build, bMatrix, M3.mul, M3.mulVec, PlacedFace.place, V3.add, hq]
    linear_combination s * e * (((t.2.1.x - t.1.x) * q.x + (t.2.2.x - t.1.x) * q.y) * h02 +
      ((t.2.1.y - t.1.y) * q.x + (t.2.2.y - t.1.y) * q.y) * h12)
  have ho : f.out = f.normal ∨ f.out = V3.smul (-1) f.normal := by
    unfold PlacedFace.out
    split
    · exact .inl rfl
    · exact .inr rfl
  have := key (|area2 t.1 t.2.1 t.2.2| * w) f.out ho
  simp only [volumeOfTriangle, AffMap.detPerColumn, mulEntries, addColumn, rowTimesCol, List.replicate_one, List.map_cons,
    List.map_nil, List.length_cons, List.length_nil, if_true, ok_bind, List.zipWith_cons_cons, List.zipWith_nil_left,
    List.sum_cons, List.sum_nil, add_zero, V3.add, mapTriangle_det]
  congr 1
  rw [this, outer_vol h hb hc]
  ring

/-! ### The loops -/

theorem foldRes_addUp {α : Type} {F : K → α → Res K} {g : α → K} (l : List α) (h : ∀ s, ∀ x ∈ l, F s x = ok (s + g x))
    (s : K) : foldRes F s l = ok (s + (l.map g).sum) := by
  induction l generalizing s with
  | nil => simp
  | cons a l ih =>
    rw [foldRes_cons, h s a (by simp), ok_bind, ih fun s x hx => h s x (by simp [hx])]
    simp [add_assoc]

theorem foldRes_addUpV {α : Type} {F : V3 K → α → Res (V3 K)} {g : α → V3 K} (l : List α)
    (h : ∀ s, ∀ x ∈ l, F s x = ok (s.add (g x))) (s : V3 K) :
    foldRes F s l = ok (s.add ⟨(l.map fun a => (g a).x).sum, (l.map fun a => (g a).y).sum,
      (l.map fun a => (g a).z).sum⟩) := by
  induction l generalizing s with
  | nil => simp [V3.add]
  | cons a l ih =>
    rw [foldRes_cons, h s a (by simp), ok_bind, ih fun s x hx => h s x (by simp [hx])]
    simp [V3.add, add_assoc]

theorem faceNormalOut_eq {fs : List (PlacedFace K)} {i : Nat} {f : PlacedFace K} (h : fs[i]? = some f) :
    faceNormalOut (fs.map PlacedFace.normal) (fs.map PlacedFace.direction) i = ok f.out := by
  have h1 : vget (fs.map PlacedFace.direction) i = ok f.direction := by rw [vget_eq_ok]; simp [h]
  have h2 : vget (fs.map PlacedFace.normal) i = ok f.normal := by rw [vget_eq_ok]; simp [h]
  unfold faceNormalOut
  rw [h1, h2]
  rfl

/-- The loop over the faces reads one face after the other. -/
theorem volume_faces (fs : List (PlacedFace K)) (points : List (V3 K)) (weights : List K) :
    polyhedronVolumeByBoundaryIntegral (fs.map PlacedFace.triangles) (fs.map PlacedFace.normal)
      (fs.map PlacedFace.direction) (fs.map PlacedFace.translation) (fs.map PlacedFace.rotation) points weights =
    foldRes (fun s (f : PlacedFace K) => foldRes (fun v t => do
      let d ← volumeOfTriangle f.out f.rotation f.translation points weights t
      ok (v + d)) s f.triangles) 0 fs := by
  unfold polyhedronVolumeByBoundaryIntegral
  rw [List.length_map]
  apply foldRes_positions
  intro s i f hf
  have h1 : vget (fs.map PlacedFace.triangles) i = ok f.triangles := by rw [vget_eq_ok]; simp [hf]
  have h2 : vget (fs.map PlacedFace.rotation) i = ok f.rotation := by rw [vget_eq_ok]; simp [hf]
  have h3 : vget (fs.map PlacedFace.translation) i = ok f.translation := by rw [vget_eq_ok]; simp [hf]
  unfold volumeOfFace
  rw [h1, h2, h3, faceNormalOut_eq hf]
  rfl

theorem centroid_faces (g : GeoCfg K) (fs : List (PlacedFace K)) (V : K) :
    polyhedronCentroid g (fs.map PlacedFace.triangles) (fs.map PlacedFace.normal)
      (fs.map PlacedFace.direction) (fs.map PlacedFace.translation) (fs.map PlacedFace.rotation) V = (do
    let c ← foldRes (fun s (f : PlacedFace K) => foldRes (fun v t => do
      let d ← centroidOfTriangle g f.out f.rotation f.translation t
      ok (v.add d)) s f.triangles) V3.zero fs
    ok ⟨1 / 2 * c.x / V, 1 / 2 * c.y / V, 1 / 2 * c.z / V⟩) := by
  unfold polyhedronCentroid
  rw [List.length_map]
  congr 1
  apply foldRes_positions
  intro s i f hf
  have h1 : vget (fs.map PlacedFace.triangles) i = ok f.triangles := by rw [vget_eq_ok]; simp [hf]
  have h2 : vget (fs.map PlacedFace.rotation) i = ok f.rotation := by rw [vget_eq_ok]; simp [hf]
  have h3 : vget (fs.map PlacedFace.translation) i = ok f.translation := by rw [vget_eq_ok]; simp [hf]
  unfold centroidOfFace
  rw [h1, h2, h3, faceNormalOut_eq hf]
  rfl

theorem sum_surfaceOf (G : V3 K × V3 K × V3 K → K) (fs : List (PlacedFace K)) :
    ((surfaceOf fs).map G).sum = (fs.map fun f => (f.triangles.map fun t => G (f.outer t)).sum).sum := by
  unfold surfaceOf
  rw [sum_flatMap]
  simp only [List.map_map]
  rfl

/-- The sum over the triangles of all faces. -/
theorem volume_total {fs : List (PlacedFace K)} (hf : ∀ f ∈ fs, f.Framed ∧ f.Level) (q : V3 K) (hq : q.z = 0) (w : K) :
    polyhedronVolumeByBoundaryIntegral (fs.map PlacedFace.triangles) (fs.map PlacedFace.normal)
      (fs.map PlacedFace.direction) (fs.map PlacedFace.translation) (fs.map PlacedFace.rotation) [q] [w] =
    ok (2 * w * coneVolume V3.zero (surfaceOf fs)) := by
  rw [volume_faces, foldRes_addUp (g := fun f => (f.triangles.map fun t =>
    w / 3 * vol6 V3.zero (f.outer t).1 (f.outer t).2.1 (f.outer t).2.2).sum)]
  · congr 1
    unfold coneVolume
    rw [sum_map_div, sum_surfaceOf (fun t => vol6 V3.zero t.1 t.2.1 t.2.2)]
    simp only [sum_map_mulLeft]
    ring
  · intro s f hm
    apply foldRes_addUp
    intro s t ht
    rw [volumeOfTriangle_eq (hf f hm).1 ((hf f hm).2 t ht).1 ((hf f hm).2 t ht).2 q hq w]
    rfl

/-- The values of one triangle in the centroid. -/
def PlacedFace.momentOf (f : PlacedFace K) (t : V3 K × V3 K × V3 K) : V3 K :=
  ⟨(massPoints.map fun p => (f.place ((mapTriangle t.1 t.2.1 t.2.2).F p)).x * (f.out.x * oneSixth *
      area2 t.1 t.2.1 t.2.2) * (f.place ((mapTriangle t.1 t.2.1 t.2.2).F p)).x).sum,
   (massPoints.map fun p => (f.place ((mapTriangle t.1 t.2.1 t.2.2).F p)).y * (f.out.y * oneSixth *
      area2 t.1 t.2.1 t.2.2) * (f.place ((mapTriangle t.1 t.2.1 t.2.2).F p)).y).sum,
   (massPoints.map fun p => (f.place ((mapTriangle t.1 t.2.1 t.2.2).F p)).z * (f.out.z * oneSixth *
      area2 t.1 t.2.1 t.2.2) * (f.place ((mapTriangle t.1 t.2.1 t.2.2).F p)).z).sum⟩

theorem mapped_heights (t : V3 K × V3 K × V3 K) :
    ∀ p ∈ massPoints.map (mapTriangle t.1 t.2.1 t.2.2).F, p.z = t.1.z := by
  simp [massPoints, mapTriangle, AffMap.build, AffMap.F, bMatrix, M3.mulVec, V3.add]

theorem centroidOfTriangle_eq (g : GeoCfg K) (f : PlacedFace K) (t : V3 K × V3 K × V3 K) (hz : |t.1.z| ≤ g.tolerance1D) :
    centroidOfTriangle g f.out f.rotation f.translation t = ok (f.momentOf t) := by
  have hp : g.pointsAre2D (massPoints.map (mapTriangle t.1 t.2.1 t.2.2).F) = ok true :=
    pointsAre2D_flat g (by simp [massPoints]) fun p hp => by rw [mapped_heights t p hp]; exact hz
  have hd : (mapTriangle t.1 t.2.1 t.2.2).mat.det = area2 t.1 t.2.1 t.2.2 := mapTriangle_det _ _ _
  unfold centroidOfTriangle centroidPoints
  simp only [hp, hd, ok_bind, assert_true, List.map_map]
  rfl

theorem centroid_total (g : GeoCfg K) {fs : List (PlacedFace K)}
    (hz : ∀ f ∈ fs, ∀ t ∈ f.triangles, |t.1.z| ≤ g.tolerance1D) (V : K) :
    polyhedronCentroid g (fs.map PlacedFace.triangles) (fs.map PlacedFace.normal)
      (fs.map PlacedFace.direction) (fs.map PlacedFace.translation) (fs.map PlacedFace.rotation) V =
    ok ⟨1 / 2 * (fs.map fun f => (f.triangles.map fun t => (f.momentOf t).x).sum).sum / V,
        1 / 2 * (fs.map fun f => (f.triangles.map fun t => (f.momentOf t).y).sum).sum / V,
        1 / 2 * (fs.map fun f => (f.triangles.map fun t => (f.momentOf t).z).sum).sum / V⟩ := by
  rw [centroid_faces, foldRes_addUpV (g := fun f => ⟨(f.triangles.map fun t => (f.momentOf t).x).sum,
    (f.triangles.map fun t => (f.momentOf t).y).sum, (f.triangles.map fun t => (f.momentOf t).z).sum⟩), ok_bind]
  · simp [V3.add, V3.zero]
  · intro s f hm
    apply foldRes_addUpV
    intro s t ht
    rw [centroidOfTriangle_eq g f t (hz f hm t ht)]
    rfl

/-- A component of the moment of one triangle, against the integral over the triangle. -/
theorem momentOf_error {f : PlacedFace K} (h : f.Framed) {t : V3 K × V3 K × V3 K} (hb : t.2.1.z = t.1.z)
    (hc : t.2.2.z = t.1.z) (hA : 0 ≤ area2 t.1 t.2.1 t.2.2) {D : K} {X Y Z : V3 K → K} (hX : CyclicCoords X Y Z)
    (h0 : |X (f.place t.1)| ≤ D) (h1 : |X (f.place t.2.1)| ≤ D) (h2 : |X (f.place t.2.2)| ≤ D) :
    |1 / 2 * X (f.momentOf t) -
      ((Y (f.outer t).2.1 - Y (f.outer t).1) * (Z (f.outer t).2.2 - Z (f.outer t).1) -
        (Z (f.outer t).2.1 - Z (f.outer t).1) * (Y (f.outer t).2.2 - Y (f.outer t).1)) *
        (X (f.outer t).1 ^ 2 + X (f.outer t).2.1 ^ 2 + X (f.outer t).2.2 ^ 2 + X (f.outer t).1 * X (f.outer t).2.1 +
          X (f.outer t).2.1 * X (f.outer t).2.2 + X (f.outer t).2.2 * X (f.outer t).1) / 24| ≤
      1 / 10 ^ 16 * D ^ 2 * (|area2 t.1 t.2.1 t.2.2| / 2) := by
  have hlin : ∀ x y : K, X (f.place ((mapTriangle t.1 t.2.1 t.2.2).F ⟨x, y, 0⟩)) = X (f.place t.1) +
      x * (X (f.place t.2.1) - X (f.place t.1)) + y * (X (f.place t.2.2) - X (f.place t.1)) := by
    intro x y
    rcases hX with ⟨rfl, -, -⟩ | ⟨rfl, -, -⟩ | ⟨rfl, -, -⟩ <;>
    · simp only [PlacedFace.place, mapTriangle, AffMap.build, AffMap.F, bMatrix, M3.mulVec, V3.add, hb, hc]
      ring
  have hm : X (f.momentOf t) = (massPoints.map fun p => X (f.place ((mapTriangle t.1 t.2.1 t.2.2).F p)) *
      (X f.out * oneSixth * area2 t.1 t.2.1 t.2.2) * X (f.place ((mapTriangle t.1 t.2.1 t.2.2).F p))).sum := by
    rcases hX with ⟨rfl, -, -⟩ | ⟨rfl, -, -⟩ | ⟨rfl, -, -⟩ <;> rfl
  have hcross : (Y (f.place t.2.1) - Y (f.place t.1)) * (Z (f.place t.2.2) - Z (f.place t.1)) -
      (Z (f.place t.2.1) - Z (f.place t.1)) * (Y (f.place t.2.2) - Y (f.place t.1)) =
      area2 t.1 t.2.1 t.2.2 * X f.normal := by
    obtain ⟨k1, k2, k3⟩ := place_cross h.1 hb hc
    rw [framed_normal h]
    rcases hX with ⟨rfl, rfl, rfl⟩ | ⟨rfl, rfl, rfl⟩ | ⟨rfl, rfl, rfl⟩
    · exact k1
    · exact k2
    · exact k3
  have hn1 : |X f.out| ≤ 1 := by
    have hu := h.1.unit2
    have hn := framed_normal h
    simp only [M3.col2, V3.dot] at hu
    rw [← sq_le_one_iff_abs_le_one]
    have q0 := mul_self_nonneg f.rotation.a02
    have q1 := mul_self_nonneg f.rotation.a12
    have q2 := mul_self_nonneg f.rotation.a22
    unfold PlacedFace.out
    rw [hn]
    split <;> rcases hX with ⟨rfl, -, -⟩ | ⟨rfl, -, -⟩ | ⟨rfl, -, -⟩ <;> simp only [V3.smul] <;> nlinarith
  have hsign : ((Y (f.outer t).2.1 - Y (f.outer t).1) * (Z (f.outer t).2.2 - Z (f.outer t).1) -
        (Z (f.outer t).2.1 - Z (f.outer t).1) * (Y (f.outer t).2.2 - Y (f.outer t).1)) *
        (X (f.outer t).1 ^ 2 + X (f.outer t).2.1 ^ 2 + X (f.outer t).2.2 ^ 2 + X (f.outer t).1 * X (f.outer t).2.1 +
          X (f.outer t).2.1 * X (f.outer t).2.2 + X (f.outer t).2.2 * X (f.outer t).1) / 24 =
      area2 t.1 t.2.1 t.2.2 * X f.out * (((X (f.place t.1) + X (f.place t.2.1) + X (f.place t.2.2)) *
        (X (f.place t.1) + X (f.place t.2.1) + X (f.place t.2.2)) + X (f.place t.1) * X (f.place t.1) +
        X (f.place t.2.1) * X (f.place t.2.1) + X (f.place t.2.2) * X (f.place t.2.2)) / 24) / 2 := by
    have hsm : X (V3.smul (-1) f.normal) = -X f.normal := by
      rcases hX with ⟨rfl, -, -⟩ | ⟨rfl, -, -⟩ | ⟨rfl, -, -⟩ <;> simp [V3.smul]
    unfold PlacedFace.outer PlacedFace.out
    cases hd : f.direction
    · simp only [hA, decide_true, Bool.false_eq_true, if_false, hsm]
      linear_combination -(X (f.place t.1) ^ 2 + X (f.place t.2.1) ^ 2 + X (f.place t.2.2) ^ 2 +
        X (f.place t.1) * X (f.place t.2.1) + X (f.place t.2.1) * X (f.place t.2.2) +
        X (f.place t.2.2) * X (f.place t.1)) / 24 * hcross
    · simp only [hA, decide_true, if_true]
      linear_combination (X (f.place t.1) ^ 2 + X (f.place t.2.1) ^ 2 + X (f.place t.2.2) ^ 2 +
        X (f.place t.1) * X (f.place t.2.1) + X (f.place t.2.1) * X (f.place t.2.2) +
        X (f.place t.2.2) * X (f.place t.1)) / 24 * hcross
  rw [hsign, hm]
  simp only [massPoints, List.map_cons, List.map_nil, List.sum_cons, List.sum_nil, hlin]
  have key := mass_rule h0 h1 h2 h0 h1 h2
  have hD : 0 ≤ 1 / 10 ^ 16 * D ^ 2 := (abs_nonneg _).trans key
  have step := mul_le_mul key (mul_le_mul_of_nonneg_right hn1 (abs_nonneg (area2 t.1 t.2.1 t.2.2)))
    (by positivity) hD
  rw [one_mul, ← abs_mul, ← abs_mul] at step
  have half : ∀ E C : K, |2 * E| ≤ C * |area2 t.1 t.2.1 t.2.2| → |E| ≤ C * (|area2 t.1 t.2.1 t.2.2| / 2) := by
    intro E C hE
    rw [abs_mul, abs_two] at hE
    linarith
  apply half
  refine le_trans (le_of_eq ?_) step
  congr 1
  ring

end field

end Verif
