import Verif.DirectionLemmas
import Verif.BisectProps

/-
C117: which chord is chosen for the cut of a polygon by a direction.
-/
namespace Verif

open Res

variable {K : Type} [Field K] [LinearOrder K] [IsStrictOrderedRing K]

/-- There is always an answer for two sides of the polygon. -/
theorem c117_answers (g : GeoCfg K) (sqrt : K → K) (triangle unalignedTriangle : Bool) (vs : List (V3 K)) (k : DirCheck K)
    (h1 : k.hitOne.index < vs.length) (h2 : k.hitTwo.index < vs.length) :
    ∃ kind, g.splitKind sqrt triangle unalignedTriangle vs k = ok kind := by
  have hn : 0 < vs.length := by omega
  unfold GeoCfg.splitKind
  split
  · exact ⟨_, rfl⟩
  split
  · exact ⟨_, rfl⟩
  split
  · unfold GeoCfg.chooseVertices
    obtain ⟨a, ha, hae⟩ := nearEnd_ok (g := g) hn k.hitOne
    obtain ⟨b, hb, hbe⟩ := nearEnd_ok (g := g) hn k.hitTwo
    obtain ⟨r, hr, -⟩ := verticesAligned_ok (g := g) (sqrt := sqrt) (hae.isEnd.lt h1) (hbe.isEnd.lt h2)
    rw [ha, ok_bind, hb, ok_bind, hr, ok_bind]
    cases r with
    | false => exact ⟨_, rfl⟩
    | true =>
      obtain ⟨a', b', hf, ha', hb', -⟩ := flipped_ok hn k hae.isEnd hbe.isEnd
      obtain ⟨r', hr', -⟩ := verticesAligned_ok (g := g) (sqrt := sqrt) (ha'.lt h1) (hb'.lt h2)
      simp only [Bool.true_eq_false, if_false, hf, ok_bind, hr']
      split
      · split
        · exact ⟨_, rfl⟩
        split
        · exact ⟨_, rfl⟩
        · exact ⟨_, rfl⟩
      · exact ⟨_, rfl⟩
  split
  · exact ⟨_, rfl⟩
  split
  · exact ⟨_, rfl⟩
  split
  · exact ⟨_, rfl⟩
  · exact ⟨_, rfl⟩

/-- The vertices that are joined if no side is split are ends of the two sides: those nearer to the intersections, or, if
they give no cut, one of the two is replaced by the other end of its side; an intersection in a vertex is kept.

Missing for the full statement: the chord cuts the polygon, `¬ FlatChord g sqrt vs a b`. -/
theorem c117_vertices_partial (g : GeoCfg K) (sqrt : K → K) (triangle unalignedTriangle : Bool) (vs : List (V3 K))
    (k : DirCheck K) (h1 : k.hitOne.index < vs.length) (h2 : k.hitTwo.index < vs.length) (a b : Nat)
    (hk : g.splitKind sqrt triangle unalignedTriangle vs k = ok (.noNewVertices a b)) :
    triangle = false ∧ k.sideOne.isToSplit = false ∧ k.sideTwo.isToSplit = false ∧
    EndOfSide vs.length k.hitOne.index a ∧ EndOfSide vs.length k.hitTwo.index b ∧
    (k.sideOne.verdict = .notInside → IsNearEnd g vs.length k.hitOne a) ∧
    (k.sideTwo.verdict = .notInside → IsNearEnd g vs.length k.hitTwo b) ∧
    (IsNearEnd g vs.length k.hitOne a ∨ IsNearEnd g vs.length k.hitTwo b) ∧
    ∀ a0 b0, IsNearEnd g vs.length k.hitOne a0 → IsNearEnd g vs.length k.hitTwo b0 →
      (¬ FlatChord g sqrt vs a0 b0 → a = a0 ∧ b = b0) ∧
      (FlatChord g sqrt vs a0 b0 → k.sideTwo.verdict ≠ .notInside → b = if b0 = k.hitTwo.index then
        (k.hitTwo.index + 1) % vs.length else k.hitTwo.index) ∧
      (FlatChord g sqrt vs a b → FlatChord g sqrt vs a0 b0 ∧ unalignedTriangle = false) := by
  have hn : 0 < vs.length := by omega
  unfold GeoCfg.splitKind at hk
  split at hk
  · cases hk
  split at hk
  · cases hk
  split at hk
  · rename_i hcond
    refine ⟨hcond.1, hcond.2.1, hcond.2.2, ?_⟩
    unfold GeoCfg.chooseVertices at hk
    obtain ⟨x, hx, hxe⟩ := nearEnd_ok (g := g) hn k.hitOne
    obtain ⟨y, hy, hye⟩ := nearEnd_ok (g := g) hn k.hitTwo
    obtain ⟨r, hr, hri⟩ := verticesAligned_ok (g := g) (sqrt := sqrt) (hxe.isEnd.lt h1) (hye.isEnd.lt h2)
    have ux : ∀ a0, IsNearEnd g vs.length k.hitOne a0 → a0 = x := fun a0 h0 => h0.trans hxe.symm
    have uy : ∀ b0, IsNearEnd g vs.length k.hitTwo b0 → b0 = y := fun b0 h0 => h0.trans hye.symm
    rw [hx, ok_bind, hy, ok_bind, hr, ok_bind] at hk
    cases r with
    | false =>
      simp only [if_true] at hk
      cases hk
      have hno : ¬ FlatChord g sqrt vs a b := fun hf => by
        have := hri.2 hf
        simp at this
      refine ⟨hxe.isEnd, hye.isEnd, fun _ => hxe, fun _ => hye, Or.inl hxe, fun a0 b0 ha0 hb0 => ?_⟩
      rw [ux a0 ha0, uy b0 hb0]
      exact ⟨fun _ => ⟨rfl, rfl⟩, fun hf => absurd hf hno, fun hf => absurd hf hno⟩
    | true =>
      have hflat := hri.1 rfl
      obtain ⟨a', b', hf, ha', hb', f1, f2, f3, f4, -⟩ := flipped_ok hn k hxe.isEnd hye.isEnd
      obtain ⟨r', hr', hri'⟩ := verticesAligned_ok (g := g) (sqrt := sqrt) (ha'.lt h1) (hb'.lt h2)
      simp only [Bool.true_eq_false, if_false, hf, ok_bind, hr'] at hk
      split at hk
      · split at hk
        · cases hk
        split at hk
        · cases hk
        · cases hk
      · rename_i hcond'
        cases hk
        refine ⟨ha', hb', fun hv => by rw [f1 hv]; exact hxe, fun hv => by rw [f2 hv]; exact hye, ?_, ?_⟩
        · rcases f3 with f3 | f3
          · rw [f3]; exact Or.inl hxe
          · rw [f3]; exact Or.inr hye
        · intro a0 b0 ha0 hb0
          rw [ux a0 ha0, uy b0 hb0]
          refine ⟨fun hno => absurd hflat hno, fun _ hv => f4 hv, fun hf' => ⟨hflat, ?_⟩⟩
          rw [not_and] at hcond'
          exact Bool.not_eq_true _ ▸ hcond' (hri'.2 hf')
  · split at hk
    · cases hk
    split at hk
    · cases hk
    split at hk
    · cases hk
    · cases hk

/-- In polygons with more than three corners, a new vertex is put on exactly the sides that are to be split. -/
theorem c117_new_vertices (g : GeoCfg K) (sqrt : K → K) (vs : List (V3 K)) (k : DirCheck K) (kind : SplitKind)
    (hk : g.splitKind sqrt false false vs k = ok kind) :
    kind ≠ .unknown ∧ (kind.onOne ↔ k.sideOne.isToSplit = true) ∧ (kind.onTwo ↔ k.sideTwo.isToSplit = true) := by
  unfold GeoCfg.splitKind at hk
  cases h1 : k.sideOne.isToSplit <;> cases h2 : k.sideTwo.isToSplit <;> simp [h1, h2] at hk
  · unfold GeoCfg.chooseVertices at hk
    obtain ⟨a, -, hk⟩ := bind_eq_ok.1 hk
    obtain ⟨b, -, hk⟩ := bind_eq_ok.1 hk
    obtain ⟨r, -, hk⟩ := bind_eq_ok.1 hk
    split at hk
    · cases hk
      simp [SplitKind.onOne, SplitKind.onTwo]
    · obtain ⟨⟨a', b'⟩, -, hk⟩ := bind_eq_ok.1 hk
      obtain ⟨r', -, hk⟩ := bind_eq_ok.1 hk
      simp only [Bool.false_eq_true, and_false, if_false] at hk
      cases hk
      simp [SplitKind.onOne, SplitKind.onTwo]
  · subst hk
    simp [SplitKind.onOne, SplitKind.onTwo]
  · subst hk
    simp [SplitKind.onOne, SplitKind.onTwo]
  · subst hk
    simp [SplitKind.onOne, SplitKind.onTwo]

/-- A triangle is never cut along a chord between vertices. If the line meets exactly one side in its interior, or only one
of the sides is to be split, then the new vertex is on that side. -/
theorem c117_triangle (g : GeoCfg K) (sqrt : K → K) (u : Bool) (vs : List (V3 K)) (k : DirCheck K)
    (ho : k.sideOne.isToSplit = true → k.sideOne.verdict ≠ .notInside)
    (ht : k.sideTwo.isToSplit = true → k.sideTwo.verdict ≠ .notInside) :
    ∃ kind, g.splitKind sqrt true u vs k = ok kind ∧ (∀ a b, kind ≠ .noNewVertices a b) ∧
      (k.sideOne.verdict ≠ .notInside → k.sideTwo.verdict = .notInside → kind.onOne ∧ ¬ kind.onTwo) ∧
      (k.sideOne.verdict = .notInside → k.sideTwo.verdict ≠ .notInside → kind.onTwo ∧ ¬ kind.onOne) ∧
      (k.sideOne.isToSplit = true → k.sideTwo.isToSplit = false → kind.onOne ∧ ¬ kind.onTwo) ∧
      (k.sideOne.isToSplit = false → k.sideTwo.isToSplit = true → kind.onTwo ∧ ¬ kind.onOne) := by
  unfold GeoCfg.splitKind
  by_cases h1 : k.sideOne.verdict = .notInside <;> by_cases h2 : k.sideTwo.verdict = .notInside <;>
    cases h3 : k.sideOne.isToSplit <;> cases h4 : k.sideTwo.isToSplit <;>
    simp_all [SplitKind.onOne, SplitKind.onTwo]

/-! ### No cut although there is one -/

/-- The square with the side 4. -/
noncomputable def dirSquare : List (V3 ℝ) := [⟨0, 0, 0⟩, ⟨4, 0, 0⟩, ⟨4, 4, 0⟩, ⟨0, 4, 0⟩]

/-- A line through `(3, 0)` and `(4, 1)`; the square objects to the split of both sides. -/
noncomputable def cornerCheck : DirCheck ℝ where
  edgeOne := 0
  edgeTwo := 1
  hitOne := ⟨0, 3 / 4, true⟩
  hitTwo := ⟨1, 1 / 4, true⟩
  sideOne := { verdict := .bothQuality }
  sideTwo := { verdict := .bothQuality }

theorem cornerCheck_near : IsNearEnd defaultGeo 4 cornerCheck.hitOne 1 ∧ IsNearEnd defaultGeo 4 cornerCheck.hitTwo 1 := by
  have h1 : defaultGeo.isValueGreaterOrEqual (1 / 2) (3 / 4) defaultGeo.tol1D = false := by
    unfold GeoCfg.isValueGreaterOrEqual GeoCfg.compareValues
    rw [defaultGeo_tol1D]
    norm_num [defaultGeo, abs_of_pos]
    decide
  have h2 : defaultGeo.isValueGreaterOrEqual (1 / 2) (1 / 4) defaultGeo.tol1D = true := by
    unfold GeoCfg.isValueGreaterOrEqual GeoCfg.compareValues
    rw [defaultGeo_tol1D]
    norm_num [defaultGeo, abs_of_pos]
  constructor
  · unfold IsNearEnd
    rw [if_neg (by rw [show cornerCheck.hitOne.coordinate = 3 / 4 from rfl, h1]; simp)]
    rfl
  · unfold IsNearEnd
    rw [if_pos (by rw [show cornerCheck.hitTwo.coordinate = 1 / 4 from rfl, h2])]
    rfl

theorem flat_same {g : GeoCfg ℝ} (p x : V3 ℝ) : g.pointIsAligned Real.sqrt p p x = true := by
  unfold GeoCfg.pointIsAligned
  have h0 : p.sub p = ⟨0, 0, 0⟩ := by simp [V3.sub]
  have h1 : ((⟨0, 0, 0⟩ : V3 ℝ).normalized Real.sqrt) = ⟨0, 0, 0⟩ := by simp [V3.normalized, V3.dot]
  rw [h0]
  dsimp only
  rw [h1]
  have h2 : ∀ s : V3 ℝ, ((⟨0, 0, 0⟩ : V3 ℝ).cross s).norm Real.sqrt = 0 := by
    intro s
    simp [V3.cross, V3.norm, V3.dot]
  rw [h2, GeoCfg.isValueZero_iff]
  simp

/-- The property is violated: for a line across a corner of a square, whose sides are not to be split, the vertices of a side
are chosen, which give no cut; the other ends of the two sides would. -/
theorem c117_vertices_violated :
    ∃ a b, defaultGeo.splitKind Real.sqrt false false dirSquare cornerCheck = ok (.noNewVertices a b) ∧
      FlatChord defaultGeo Real.sqrt dirSquare a b ∧
      EndOfSide 4 cornerCheck.hitOne.index 0 ∧ EndOfSide 4 cornerCheck.hitTwo.index 2 ∧
      ¬ FlatChord defaultGeo Real.sqrt dirSquare 0 2 := by
  obtain ⟨hn1, hn2⟩ := cornerCheck_near
  have hflat0 : FlatChord defaultGeo Real.sqrt dirSquare 1 1 :=
    Or.inr (Or.inr ⟨_, _, _, rfl, rfl, Or.inl rfl, flat_same _ _⟩)
  obtain ⟨kind, hk⟩ := c117_answers defaultGeo Real.sqrt false false dirSquare cornerCheck (by decide) (by decide)
  have hnv := c117_new_vertices defaultGeo Real.sqrt dirSquare cornerCheck kind hk
  obtain ⟨a, b, rfl⟩ : ∃ a b, kind = .noNewVertices a b := by
    cases kind with
    | unknown => exact absurd rfl hnv.1
    | noNewVertices a b => exact ⟨a, b, rfl⟩
    | newVertexFrom => exact absurd (hnv.2.1.1 trivial) (by decide)
    | newVertexTo => exact absurd (hnv.2.2.1 trivial) (by decide)
    | newVertices => exact absurd (hnv.2.1.1 trivial) (by decide)
  refine ⟨a, b, hk, ?_, Or.inl rfl, Or.inr rfl, ?_⟩
  · obtain ⟨-, -, -, ha, hb, -, -, hor, hall⟩ := c117_vertices_partial defaultGeo Real.sqrt false false dirSquare cornerCheck
      (by decide) (by decide) a b hk
    obtain ⟨-, h2, -⟩ := hall 1 1 hn1 hn2
    have hb2 : b = 2 := h2 hflat0 (by decide)
    have ha1 : a = 1 := by
      rcases hor with h | h
      · exact h.trans hn1.symm
      · exact absurd (hb2.symm.trans (h.trans hn2.symm)) (by decide)
    subst ha1
    subst hb2
    exact Or.inl rfl
  · have g0 : IsSmallGridPoint ⟨0, 0, 0⟩ := ⟨0, 0, by norm_num, by norm_num, by norm_num⟩
    have g1 : IsSmallGridPoint ⟨4, 0, 0⟩ := ⟨4, 0, by norm_num, by norm_num, by norm_num⟩
    have g2 : IsSmallGridPoint ⟨4, 4, 0⟩ := ⟨4, 4, by norm_num, by norm_num, by norm_num⟩
    have g3 : IsSmallGridPoint ⟨0, 4, 0⟩ := ⟨0, 4, by norm_num, by norm_num, by norm_num⟩
    rintro (h | h | ⟨p, q, x, hp, hq, hx, hal⟩)
    · exact absurd h (by decide)
    · exact absurd h (by decide)
    · cases hp
      cases hq
      rcases hx with hx | hx
      · cases hx
        rw [aligned_grid g0 g2 g1 (by norm_num [area2])] at hal
        simp at hal
      · cases hx
        rw [aligned_grid g0 g2 g3 (by norm_num [area2])] at hal
        simp at hal

/-- The hypotheses of the theorems, for the line across the corner; the nearer ends give no cut. -/
example : cornerCheck.hitOne.index < dirSquare.length ∧ cornerCheck.hitTwo.index < dirSquare.length ∧
    IsNearEnd defaultGeo 4 cornerCheck.hitOne 1 ∧ IsNearEnd defaultGeo 4 cornerCheck.hitTwo 1 :=
  ⟨by decide, by decide, cornerCheck_near⟩

/-- A line through the middle of the square, with one side to be split. -/
example : defaultGeo.splitKind Real.sqrt false false dirSquare
    { cornerCheck with hitTwo := ⟨2, 1 / 4, true⟩, sideOne := { verdict := .toSplit, isToSplit := true } } =
      ok .newVertexFrom := by
  simp [GeoCfg.splitKind, cornerCheck]

/-- A triangle met in a vertex and in the opposite side. -/
example : (fun k : DirCheck ℝ => (k.sideOne.isToSplit = true → k.sideOne.verdict ≠ .notInside) ∧
    (k.sideTwo.isToSplit = true → k.sideTwo.verdict ≠ .notInside) ∧ k.sideOne.verdict ≠ .notInside ∧
    k.sideTwo.verdict = .notInside)
    { cornerCheck with sideOne := { verdict := .toSplit, isToSplit := true }, sideTwo := { verdict := .notInside } } := by
  simp

end Verif
