import Verif.PointPosLemmas
import Verif.MapProps

/-
Lemmas on planes, tetrahedra, polyhedra and bounding boxes.
-/
namespace Verif

open Res

variable {K : Type} [Field K] [LinearOrder K] [IsStrictOrderedRing K]

theorem ge_1D (g : GeoCfg K) (h0 : 0 ≤ g.minTolerance) (a b : K) :
    g.isValueGreaterOrEqual a b g.tol1D = true ↔ b ≤ a + window g.tol1D a b := by
  unfold GeoCfg.isValueGreaterOrEqual
  rw [g.compareValues_eq, g.max_tol1D h0]
  have hw := window_nonneg (g.tol1D_nonneg h0) a b
  split
  · rename_i h; simp; linarith [(abs_le.1 h).2]
  · rename_i h
    split
    · rename_i h2; simp; linarith
    · rename_i h2; simp
      rw [abs_of_nonneg (by linarith [not_lt.1 h2])] at h
      linarith

theorem le_1D (g : GeoCfg K) (h0 : 0 ≤ g.minTolerance) (a b : K) :
    g.isValueLowerOrEqual a b g.tol1D = true ↔ a ≤ b + window g.tol1D a b := by
  unfold GeoCfg.isValueLowerOrEqual
  rw [Bool.not_eq_true', ← Bool.not_eq_true, greater_1D g h0]
  have hw := window_nonneg (g.tol1D_nonneg h0) a b
  constructor
  · intro h
    by_contra hc
    apply h
    have : b < a := by linarith
    refine ⟨this, ?_⟩
    rw [abs_of_neg (by linarith)]
    linarith
  · rintro h ⟨h1, h2⟩
    rw [abs_of_neg (by linarith)] at h2
    linarith

theorem window_zero {t : K} (ht : 0 ≤ t) (a : K) : window t a 0 = t := by
  unfold window
  rw [if_neg, mul_one]
  rintro ⟨-, h⟩
  rw [abs_zero] at h
  linarith

/-- Cauchy and Schwarz. -/
theorem abs_dot_le {sqrt : K → K} (hs : IsSqrt sqrt) (a b : V3 K) :
    |a.dot b| ≤ a.norm sqrt * b.norm sqrt := by
  have h1 := norm_nonneg' hs a
  have h2 := norm_nonneg' hs b
  apply abs_le_of_sq_le_sq _ (mul_nonneg h1 h2)
  have e1 := norm_sq hs a
  have e2 := norm_sq hs b
  have hl := lagrange a b
  have hn := dot_self_nonneg (a.cross b)
  have : (a.norm sqrt * b.norm sqrt) ^ 2 = a.dot a * b.dot b := by
    rw [← e1, ← e2]; ring
  rw [this, sq]
  linarith

/-- The position with respect to a plane, by the product with the normal. -/
theorem pointPlane_iff {sqrt : K → K} (hs : IsSqrt sqrt) (g : GeoCfg K) (h0 : 0 ≤ g.minTolerance)
    (p n o : V3 K) (hn : 0 < n.dot n) :
    (g.pointPlane sqrt p n o = 1 ↔ g.tol1D * n.norm sqrt < n.dot (p.sub o)) ∧
    (g.pointPlane sqrt p n o = -1 ↔ n.dot (p.sub o) < -(g.tol1D * n.norm sqrt)) ∧
    (g.pointPlane sqrt p n o = 0 ↔ |n.dot (p.sub o)| ≤ g.tol1D * n.norm sqrt) := by
  have hN := norm_pos hs hn
  have hT0 := g.tol1D_nonneg h0
  unfold GeoCfg.pointPlane
  simp only
  by_cases hz : g.isValueZero ((p.sub o).norm sqrt) g.tol1D = true
  · rw [if_pos hz]
    have hz' := (g.zero_1D h0 _).1 hz
    rw [abs_of_nonneg (norm_nonneg' hs _)] at hz'
    have hle : |n.dot (p.sub o)| ≤ g.tol1D * n.norm sqrt := by
      refine (abs_dot_le hs _ _).trans ?_
      rw [mul_comm]
      exact mul_le_mul_of_nonneg_right hz' hN.le
    obtain ⟨c1, c2, c3⟩ := c29_plane_position g 0 h0
    have e0 : g.pointPlanePosition 0 = 0 := c1.2 (by rw [abs_zero]; exact hT0)
    rw [e0]
    obtain ⟨l1, l2⟩ := abs_le.1 hle
    refine ⟨?_, ?_, by simp [hle]⟩
    · simp [l2]
    · simp [l1]
  · rw [if_neg hz, if_neg hn.ne']
    obtain ⟨c1, c2, c3⟩ := c29_plane_position g (n.dot (p.sub o) / n.norm sqrt) h0
    rw [c1, c2, c3, lt_div_iff₀ hN, div_lt_iff₀ hN, abs_div, abs_of_pos hN, div_le_iff₀ hN, neg_mul]
    exact ⟨Iff.rfl, Iff.rfl, Iff.rfl⟩

theorem pointPlane_cases {sqrt : K → K} (hs : IsSqrt sqrt) (g : GeoCfg K) (h0 : 0 ≤ g.minTolerance)
    (p n o : V3 K) (hn : 0 < n.dot n) :
    g.pointPlane sqrt p n o = 1 ∨ g.pointPlane sqrt p n o = -1 ∨ g.pointPlane sqrt p n o = 0 := by
  obtain ⟨c1, c2, c3⟩ := pointPlane_iff hs g h0 p n o hn
  by_cases h1 : g.tol1D * n.norm sqrt < n.dot (p.sub o)
  · left; exact c1.2 h1
  · by_cases h2 : n.dot (p.sub o) < -(g.tol1D * n.norm sqrt)
    · right; left; exact c2.2 h2
    · right; right; exact c3.2 (abs_le.2 ⟨not_lt.1 h2, not_lt.1 h1⟩)

/-- What one face does to the result of the search. -/
inductive FaceStep where
  | skip
  | negative
  | stop (r : PointPolyhedronPos)

/-- The step of the loop over the faces. -/
def GeoCfg.faceStep (g : GeoCfg K) (sqrt : K → K) (point : V3 K) (f : PolyhedronFace K) (i : Nat) :
    Res FaceStep := do
  let o ← vget f.vertices3D 0
  let position := g.pointPlane sqrt point f.out o
  if position = 1 then ok .skip
  else if position = -1 then ok .negative
  else do
    match ← g.pointPolygonPosition sqrt (rotateTo2D f.rotation f.translation point) f.vertices2D with
    | .borderVertex b => do let e ← vget f.border b; ok (.stop (.borderVertex e.1))
    | .borderEdge b => do let e ← vget f.border b; ok (.stop (.borderEdge e.2))
    | .inside => ok (.stop (.borderFace i))
    | .outside => ok .skip

theorem polyhedronLoop_cons (g : GeoCfg K) (sqrt : K → K) (p : V3 K) (f : PolyhedronFace K)
    (rest : List (PolyhedronFace K)) (i neg : Nat) :
    g.pointPolyhedronLoop sqrt p (f :: rest) i neg = (do
      match ← g.faceStep sqrt p f i with
      | .skip => g.pointPolyhedronLoop sqrt p rest (i + 1) neg
      | .negative => g.pointPolyhedronLoop sqrt p rest (i + 1) (neg + 1)
      | .stop r => ok (.inr r)) := by
  rw [GeoCfg.pointPolyhedronLoop, GeoCfg.faceStep]
  cases hv : vget f.vertices3D 0 with
  | ok o =>
    simp only [ok_bind]
    by_cases h1 : g.pointPlane sqrt p f.out o = 1
    · rw [if_pos h1, if_pos h1]; rfl
    · rw [if_neg h1, if_neg h1]
      by_cases h2 : g.pointPlane sqrt p f.out o = -1
      · rw [if_pos h2, if_pos h2]; rfl
      · rw [if_neg h2, if_neg h2]
        cases g.pointPolygonPosition sqrt (rotateTo2D f.rotation f.translation p) f.vertices2D with
        | ok r =>
          simp only [ok_bind]
          cases r with
          | outside => rfl
          | inside => rfl
          | borderEdge b => simp only; cases vget f.border b <;> rfl
          | borderVertex b => simp only; cases vget f.border b <;> rfl
        | abort => rfl
        | «throw» => rfl
        | ub => rfl
        | loop => rfl
  | abort => rfl
  | «throw» => rfl
  | ub => rfl
  | loop => rfl

/-- The result of the loop: a face has stopped the search, or all have been passed and `neg` counts
the negative ones. -/
theorem polyhedronLoop_cases (g : GeoCfg K) (sqrt : K → K) (p : V3 K)
    (faces : List (PolyhedronFace K)) (i neg : Nat) (r : Sum Nat PointPolyhedronPos)
    (h : g.pointPolyhedronLoop sqrt p faces i neg = ok r) :
    (∃ k f r', faces[k]? = some f ∧ g.faceStep sqrt p f (i + k) = ok (.stop r') ∧ r = .inr r') ∨
    (∃ m, r = .inl (neg + m) ∧ m ≤ faces.length ∧
      (∀ (k : Nat) f, faces[k]? = some f → ∃ s, g.faceStep sqrt p f (i + k) = ok s ∧
        ∀ r', s ≠ .stop r') ∧
      (m = faces.length ↔ ∀ (k : Nat) f, faces[k]? = some f →
        g.faceStep sqrt p f (i + k) = ok .negative)) := by
  induction faces generalizing i neg with
  | nil =>
    right
    cases h
    exact ⟨0, rfl, le_rfl, by simp, by simp⟩
  | cons f rest ih =>
    rw [polyhedronLoop_cons] at h
    obtain ⟨s, hs, h⟩ := (bind_eq_ok).1 h
    have cons_all : ∀ (P : Nat → PolyhedronFace K → Prop), P i f →
        (∀ (k : Nat) f', rest[k]? = some f' → P (i + 1 + k) f') →
        ∀ (k : Nat) f', (f :: rest)[k]? = some f' → P (i + k) f' := by
      intro P h1 h2 k f' hk
      cases k with
      | zero => cases hk; exact h1
      | succ k =>
        have := h2 k f' hk
        rw [show i + 1 + k = i + (k + 1) by omega] at this
        exact this
    have cons_tail : ∀ (P : Nat → PolyhedronFace K → Prop),
        (∀ (k : Nat) f', (f :: rest)[k]? = some f' → P (i + k) f') →
        ∀ (k : Nat) f', rest[k]? = some f' → P (i + 1 + k) f' := by
      intro P h1 k f' hk
      have := h1 (k + 1) f' hk
      rw [show i + 1 + k = i + (k + 1) by omega]
      exact this
    cases s with
    | stop r' =>
      cases h
      exact Or.inl ⟨0, f, r', rfl, hs, rfl⟩
    | skip =>
      rcases ih (i + 1) neg h with ⟨k, f', r', a1, a2, a3⟩ | ⟨m, b1, b2, b3, b4⟩
      · left
        refine ⟨k + 1, f', r', a1, ?_, a3⟩
        rw [show i + (k + 1) = i + 1 + k by omega]; exact a2
      · right
        refine ⟨m, b1, by simp; omega, cons_all (fun j f' => ∃ s, g.faceStep sqrt p f' j = ok s ∧
          ∀ r', s ≠ .stop r') ⟨_, hs, by simp⟩ b3, ?_⟩
        constructor
        · intro k; simp at k; omega
        · intro k
          have := k 0 f rfl
          rw [Nat.add_zero, hs] at this
          cases this
    | negative =>
      rcases ih (i + 1) (neg + 1) h with ⟨k, f', r', a1, a2, a3⟩ | ⟨m, b1, b2, b3, b4⟩
      · left
        refine ⟨k + 1, f', r', a1, ?_, a3⟩
        rw [show i + (k + 1) = i + 1 + k by omega]; exact a2
      · right
        refine ⟨m + 1, by rw [b1]; congr 1; omega, by simp; omega,
          cons_all (fun j f' => ∃ s, g.faceStep sqrt p f' j = ok s ∧
          ∀ r', s ≠ .stop r') ⟨_, hs, by simp⟩ b3, ?_⟩
        constructor
        · intro k
          exact cons_all (fun j f' => g.faceStep sqrt p f' j = ok .negative) hs
            (b4.1 (by simp at k; omega))
        · intro k
          have := b4.2 (cons_tail (fun j f' => g.faceStep sqrt p f' j = ok .negative) k)
          simp; omega

theorem polyhedronPosition_cases (g : GeoCfg K) (sqrt : K → K) (p : V3 K)
    (faces : List (PolyhedronFace K)) (r : PointPolyhedronPos)
    (h : g.pointPolyhedronPosition sqrt p faces = ok r) :
    (∃ k f, faces[k]? = some f ∧ g.faceStep sqrt p f k = ok (.stop r)) ∨
    ((∀ (k : Nat) f, faces[k]? = some f → ∃ s, g.faceStep sqrt p f k = ok s ∧
        ∀ r', s ≠ .stop r') ∧
      ((r = .inside ∧ ∀ (k : Nat) f, faces[k]? = some f → g.faceStep sqrt p f k = ok .negative) ∨
       (r = .outside ∧ ∃ k : Nat, ∃ f, faces[k]? = some f ∧ g.faceStep sqrt p f k = ok .skip))) := by
  unfold GeoCfg.pointPolyhedronPosition at h
  obtain ⟨s, hs, h⟩ := (bind_eq_ok).1 h
  rcases polyhedronLoop_cases g sqrt p faces 0 0 s hs with ⟨k, f, r', a1, a2, a3⟩ | ⟨m, b1, b2, b3, b4⟩
  · left
    subst a3
    cases h
    rw [Nat.zero_add] at a2
    exact ⟨k, f, a1, a2⟩
  · right
    subst b1
    simp only [Nat.zero_add] at *
    refine ⟨b3, ?_⟩
    by_cases hm : m = faces.length
    · left
      rw [if_pos hm] at h
      cases h
      exact ⟨rfl, b4.1 hm⟩
    · right
      rw [if_neg hm] at h
      cases h
      refine ⟨rfl, ?_⟩
      have := mt b4.2 hm
      push Not at this
      obtain ⟨k, f, hk, hne⟩ := this
      obtain ⟨s, hs1, hs2⟩ := b3 k f hk
      refine ⟨k, f, hk, ?_⟩
      cases s with
      | skip => exact hs1
      | negative => exact absurd hs1 hne
      | stop r' => exact absurd rfl (hs2 r')

/-! ### Bounding boxes -/

theorem foldl_min (f : V3 K → K) (c : V3 K → V3 K → V3 K) (hc : ∀ m q, f (c m q) = min (f m) (f q))
    (p : V3 K) (ps : List (V3 K)) :
    (∀ q ∈ p :: ps, f (ps.foldl c p) ≤ f q) ∧ ∃ q ∈ p :: ps, f (ps.foldl c p) = f q := by
  induction ps generalizing p with
  | nil => simp
  | cons a ps ih =>
    obtain ⟨h1, q, h2, h3⟩ := ih (c p a)
    rw [List.foldl_cons]
    have hm := h1 (c p a) (by simp)
    rw [hc] at hm
    constructor
    · intro q hq
      rcases List.mem_cons.1 hq with rfl | hq
      · exact hm.trans (min_le_left _ _)
      · rcases List.mem_cons.1 hq with rfl | hq
        · exact hm.trans (min_le_right _ _)
        · exact h1 q (by simp [hq])
    · rcases List.mem_cons.1 h2 with rfl | h2
      · rw [h3, hc]
        rcases min_choice (f p) (f a) with k | k
        · exact ⟨p, by simp, k⟩
        · exact ⟨a, by simp, k⟩
      · exact ⟨q, by simp [h2], h3⟩

theorem foldl_max (f : V3 K → K) (c : V3 K → V3 K → V3 K) (hc : ∀ m q, f (c m q) = max (f m) (f q))
    (p : V3 K) (ps : List (V3 K)) :
    (∀ q ∈ p :: ps, f q ≤ f (ps.foldl c p)) ∧ ∃ q ∈ p :: ps, f (ps.foldl c p) = f q := by
  induction ps generalizing p with
  | nil => simp
  | cons a ps ih =>
    obtain ⟨h1, q, h2, h3⟩ := ih (c p a)
    rw [List.foldl_cons]
    have hm := h1 (c p a) (by simp)
    rw [hc] at hm
    constructor
    · intro q hq
      rcases List.mem_cons.1 hq with rfl | hq
      · exact (le_max_left _ _).trans hm
      · rcases List.mem_cons.1 hq with rfl | hq
        · exact (le_max_right _ _).trans hm
        · exact h1 q (by simp [hq])
    · rcases List.mem_cons.1 h2 with rfl | h2
      · rw [h3, hc]
        rcases max_choice (f p) (f a) with k | k
        · exact ⟨p, by simp, k⟩
        · exact ⟨a, by simp, k⟩
      · exact ⟨q, by simp [h2], h3⟩

theorem isPointInBoundingBox_iff (g : GeoCfg K) (h0 : 0 ≤ g.minTolerance) (p lo hi : V3 K) :
    g.isPointInBoundingBox p (lo, hi) = true ↔
      (lo.x ≤ p.x + window g.tol1D p.x lo.x ∧ p.x ≤ hi.x + window g.tol1D hi.x p.x) ∧
      (lo.y ≤ p.y + window g.tol1D p.y lo.y ∧ p.y ≤ hi.y + window g.tol1D hi.y p.y) ∧
      (lo.z ≤ p.z + window g.tol1D p.z lo.z ∧ p.z ≤ hi.z + window g.tol1D hi.z p.z) := by
  unfold GeoCfg.isPointInBoundingBox
  simp only [Bool.and_eq_true, ge_1D g h0]
  tauto

theorem boundingBoxesIntersects_iff (g : GeoCfg K) (h0 : 0 ≤ g.minTolerance) (lo hi lo' hi' : V3 K) :
    g.boundingBoxesIntersects (lo, hi) (lo', hi') = true ↔
      (lo.x ≤ hi'.x + window g.tol1D lo.x hi'.x ∧ lo'.x ≤ hi.x + window g.tol1D hi.x lo'.x) ∧
      (lo.y ≤ hi'.y + window g.tol1D lo.y hi'.y ∧ lo'.y ≤ hi.y + window g.tol1D hi.y lo'.y) ∧
      (lo.z ≤ hi'.z + window g.tol1D lo.z hi'.z ∧ lo'.z ≤ hi.z + window g.tol1D hi.z lo'.z) := by
  unfold GeoCfg.boundingBoxesIntersects
  simp only [Bool.and_eq_true, ge_1D g h0, le_1D g h0]
  tauto

/-! ### Sets of points -/

theorem foldRes_keep {σ β : Type} {f : σ → β → Res σ} (I : List β → σ → Prop) (xs : List β) (s : σ)
    (h0 : I [] s)
    (hstep : ∀ pre x t, (∃ post, xs = pre ++ x :: post) → I pre t →
      ∃ t', f t x = ok t' ∧ I (pre ++ [x]) t') :
    ∃ t, foldRes f s xs = ok t ∧ I xs t := by
  have gen : ∀ (ys pre : List β) (t : σ), xs = pre ++ ys → I pre t →
      ∃ t', foldRes f t ys = ok t' ∧ I xs t' := by
    intro ys
    induction ys with
    | nil => intro pre t e h; rw [List.append_nil] at e; subst e; exact ⟨t, rfl, h⟩
    | cons y ys ih =>
      intro pre t e h
      obtain ⟨t', h1, h2⟩ := hstep pre y t ⟨ys, e⟩ h
      obtain ⟨t'', h3, h4⟩ := ih (pre ++ [y]) t' (by rw [e]; simp) h2
      refine ⟨t'', ?_, h4⟩
      rw [foldRes_cons, h1, ok_bind]
      exact h3
  exact gen xs [] s rfl h0

/-- A distance that does not count as larger than `m`. -/
def NotLarger (t m d : K) : Prop := d ≤ m + t * max 1 m

theorem NotLarger.mono {t m m' d : K} (ht : 0 ≤ t) (hm : m ≤ m') (h : NotLarger t m d) :
    NotLarger t m' d := by
  unfold NotLarger at *
  have := mul_le_mul_of_nonneg_left (max_le_max (le_refl (1 : K)) hm) ht
  linarith

theorem maxStep (g : GeoCfg K) (h0 : 0 ≤ g.minTolerance) (m d : K) (hm : 0 ≤ m) :
    let m' := if g.compareValues m d g.tol1D = .firstBeforeSecond then d else m
    m ≤ m' ∧ NotLarger g.tol1D m' d ∧ (m' = m ∨ m' = d) := by
  intro m'
  have hT0 := g.tol1D_nonneg h0
  have hw := window_nonneg hT0 m d
  have hw' := window_le hT0 m d
  rw [abs_of_nonneg hm] at hw'
  simp only [m']
  rw [g.compareValues_eq, g.max_tol1D h0]
  by_cases h1 : |d - m| ≤ window g.tol1D m d
  · rw [if_pos h1, if_neg (by simp)]
    refine ⟨le_rfl, ?_, Or.inl rfl⟩
    unfold NotLarger
    linarith [(abs_le.1 h1).2]
  · rw [if_neg h1]
    by_cases h2 : d < m
    · rw [if_pos h2, if_neg (by simp)]
      refine ⟨le_rfl, ?_, Or.inl rfl⟩
      unfold NotLarger
      linarith
    · rw [if_neg h2, if_pos rfl]
      refine ⟨not_lt.1 h2, ?_, Or.inr rfl⟩
      unfold NotLarger
      have := mul_nonneg hT0 (le_trans zero_le_one (le_max_left (1 : K) d))
      linarith

theorem pointsMaxDistance_spec {sqrt : K → K} (hs : IsSqrt sqrt) (g : GeoCfg K)
    (h0 : 0 ≤ g.minTolerance) (points : List (V3 K)) :
    ∃ m, g.pointsMaxDistance sqrt points = ok m ∧ 0 ≤ m ∧
      (m = 0 ∨ ∃ a ∈ points, ∃ b ∈ points, m = (b.sub a).norm sqrt) ∧
      ∀ (v w : Nat) a b, v < w → points[v]? = some a → points[w]? = some b →
        NotLarger g.tol1D m ((b.sub a).norm sqrt) := by
  have hT0 := g.tol1D_nonneg h0
  let Good : K → Prop := fun m => 0 ≤ m ∧
    (m = 0 ∨ ∃ a ∈ points, ∃ b ∈ points, m = (b.sub a).norm sqrt)
  let Done : K → Nat → Nat → Prop := fun m v w => ∀ a b, points[v]? = some a → points[w]? = some b →
    NotLarger g.tol1D m ((b.sub a).norm sqrt)
  have hDone : ∀ m m' v w, m ≤ m' → Done m v w → Done m' v w := fun m m' v w hm h a b h1 h2 =>
    (h a b h1 h2).mono hT0 hm
  have hinner : ∀ v m, v < points.length → Good m →
      ∃ m', foldRes (fun (d : K) w => do
          let a ← vget points v
          let b ← vget points w
          let distance := (b.sub a).norm sqrt
          ok (if g.compareValues d distance g.tol1D = .firstBeforeSecond then distance else d))
        m ((List.range points.length).drop (v + 1)) = ok m' ∧ m ≤ m' ∧ Good m' ∧
        ∀ w ∈ (List.range points.length).drop (v + 1), Done m' v w := by
    intro v m hv hm
    obtain ⟨m', h1, h2, h3, h4⟩ := foldRes_keep (f := fun (d : K) w => do
          let a ← vget points v
          let b ← vget points w
          let distance := (b.sub a).norm sqrt
          ok (if g.compareValues d distance g.tol1D = .firstBeforeSecond then distance else d))
      (fun pre t => m ≤ t ∧ Good t ∧ ∀ w ∈ pre, Done t v w)
      ((List.range points.length).drop (v + 1)) m ⟨le_rfl, hm, by simp⟩ (by
        rintro pre w t ⟨post, hpost⟩ ⟨i1, ⟨i2, i3⟩, i4⟩
        have hw : w < points.length := by
          have : w ∈ (List.range points.length).drop (v + 1) := by rw [hpost]; simp
          exact List.mem_range.1 (List.mem_of_mem_drop this)
        obtain ⟨c1, c2, c3⟩ := maxStep g h0 t ((points[w].sub points[v]).norm sqrt) i2
        refine ⟨_, by rw [vget_of_lt hv, ok_bind, vget_of_lt hw, ok_bind], i1.trans c1,
          ⟨i2.trans c1, ?_⟩, ?_⟩
        · rcases c3 with c3 | c3
          · rw [c3]; exact i3
          · rw [c3]; exact Or.inr ⟨_, List.getElem_mem hv, _, List.getElem_mem hw, rfl⟩
        · intro u hu
          rcases List.mem_append.1 hu with hu | hu
          · exact hDone _ _ _ _ c1 (i4 u hu)
          · rw [List.mem_singleton.1 hu]
            intro a b ha hb
            rw [List.getElem?_eq_getElem hv] at ha
            rw [List.getElem?_eq_getElem hw] at hb
            cases ha; cases hb
            exact c2)
    exact ⟨m', h1, h2, h3, h4⟩
  obtain ⟨m, h1, h2, h3⟩ := foldRes_keep (f := fun (d : K) v => foldRes (fun (d : K) w => do
          let a ← vget points v
          let b ← vget points w
          let distance := (b.sub a).norm sqrt
          ok (if g.compareValues d distance g.tol1D = .firstBeforeSecond then distance else d))
        d ((List.range points.length).drop (v + 1)))
    (fun pre t => Good t ∧ ∀ v ∈ pre, ∀ w ∈ (List.range points.length).drop (v + 1), Done t v w)
    (List.range points.length) 0 ⟨⟨le_rfl, Or.inl rfl⟩, by simp⟩ (by
      rintro pre v t ⟨post, hpost⟩ ⟨i1, i2⟩
      have hv : v < points.length := by
        have : v ∈ List.range points.length := by rw [hpost]; simp
        exact List.mem_range.1 this
      obtain ⟨m', j1, j2, j3, j4⟩ := hinner v t hv i1
      refine ⟨m', j1, j3, ?_⟩
      intro u hu w hw
      rcases List.mem_append.1 hu with hu | hu
      · exact hDone _ _ _ _ j2 (i2 u hu w hw)
      · rw [List.mem_singleton.1 hu] at hw ⊢; exact j4 w hw)
  refine ⟨m, h1, h2.1, h2.2, ?_⟩
  intro v w a b hvw ha hb
  have hv : v < points.length := (List.getElem?_eq_some_iff.1 ha).1
  have hw : w < points.length := (List.getElem?_eq_some_iff.1 hb).1
  refine h3 v (List.mem_range.2 hv) w ?_ a b ha hb
  rw [List.mem_iff_getElem]
  refine ⟨w - (v + 1), by rw [List.length_drop, List.length_range]; omega, ?_⟩
  rw [List.getElem_drop, List.getElem_range]
  omega

theorem findPointInPoints_eq (g : GeoCfg K) (sqrt : K → K) (points : List (V3 K)) (p : V3 K) :
    g.findPointInPoints sqrt points p = ok ((List.range points.length).filter fun i =>
      match points[i]? with
      | some a => g.isValueZero ((a.sub p).norm sqrt) g.tol1D
      | none => false) := by
  unfold GeoCfg.findPointInPoints
  obtain ⟨t, h1, h2⟩ := foldRes_keep (f := fun (s : List Nat) i => do
      let a ← vget points i
      ok (if g.isValueZero ((a.sub p).norm sqrt) g.tol1D then s ++ [i] else s))
    (fun pre t => t = pre.filter fun i =>
      match points[i]? with
      | some a => g.isValueZero ((a.sub p).norm sqrt) g.tol1D
      | none => false) (List.range points.length) [] rfl (by
      rintro pre i t ⟨post, hpost⟩ rfl
      have hi : i < points.length := by
        have : i ∈ List.range points.length := by rw [hpost]; simp
        exact List.mem_range.1 this
      refine ⟨_, by rw [vget_of_lt hi, ok_bind], ?_⟩
      rw [List.filter_append, List.filter_cons, List.filter_nil, List.getElem?_eq_getElem hi]
      simp only
      split <;> simp)
  rw [h1, h2]

/-- The vertex `p` of a closed line of points is aligned with its neighbours. -/
def GeoCfg.alignedAt (g : GeoCfg K) (sqrt : K → K) (points : List (V3 K)) (p : Nat) : Bool :=
  match points[if p = 0 then points.length - 1 else p - 1]?, points[p]?,
    points[(p + 1) % points.length]? with
  | some a, some b, some c => g.pointIsAligned sqrt a b c
  | _, _, _ => false

theorem unalignedLoop_eq (g : GeoCfg K) (sqrt : K → K) (points : List (V3 K)) (desired : Nat)
    (l acc : List Nat) (hl : ∀ p ∈ l, p < points.length) (ha : 0 < desired → acc.length < desired) :
    g.unalignedLoop sqrt points desired l acc = ok (
      let r := acc ++ l.filter fun p => !g.alignedAt sqrt points p
      if desired = 0 then r else r.take desired) := by
  induction l generalizing acc with
  | nil =>
    rw [GeoCfg.unalignedLoop]
    simp only [List.filter_nil, List.append_nil]
    split
    · rfl
    · rw [List.take_of_length_le (ha (by omega)).le]
  | cons p l ih =>
    have hp := hl p (by simp)
    have h1 : (if p = 0 then points.length - 1 else p - 1) < points.length := by split <;> omega
    have h2 : (p + 1) % points.length < points.length := Nat.mod_lt _ (by omega)
    rw [GeoCfg.unalignedLoop, vget_of_lt h1, ok_bind, vget_of_lt hp, ok_bind, vget_of_lt h2, ok_bind]
    have hal : g.pointIsAligned sqrt points[if p = 0 then points.length - 1 else p - 1] points[p]
        points[(p + 1) % points.length] = g.alignedAt sqrt points p := by
      unfold GeoCfg.alignedAt
      rw [List.getElem?_eq_getElem h1, List.getElem?_eq_getElem hp, List.getElem?_eq_getElem h2]
    rw [hal]
    simp only
    cases hc : g.alignedAt sqrt points p with
    | true =>
      rw [if_pos rfl, if_neg (by rintro ⟨k1, k2⟩; have := ha k1; omega),
        ih acc (fun q hq => hl q (by simp [hq])) ha]
      simp [hc]
    | false =>
      rw [if_neg (c := false = true) (by simp)]
      have hf : (p :: l).filter (fun p => !g.alignedAt sqrt points p) =
          p :: l.filter (fun p => !g.alignedAt sqrt points p) := by simp [hc]
      rw [hf]
      by_cases hd : 0 < desired ∧ (acc ++ [p]).length = desired
      · rw [if_pos hd, if_neg (by omega)]
        rw [show acc ++ p :: l.filter (fun p => !g.alignedAt sqrt points p) =
          (acc ++ [p]) ++ l.filter (fun p => !g.alignedAt sqrt points p) by simp, ← hd.2,
          List.take_left]
      · rw [if_neg hd, ih (acc ++ [p]) (fun q hq => hl q (by simp [hq])) (fun k => by
          have := ha k
          rw [not_and] at hd
          have := hd k
          rw [List.length_append] at *
          simp at *
          omega)]
        simp

end Verif
