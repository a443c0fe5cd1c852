import Verif.SideCheckLemmas
import Verif.PassProps

/-
C116: which edges of a polygon may be split, and who is named if not.
-/
namespace Verif

open Res

variable {K : Type} [Field K] [LinearOrder K] [IsStrictOrderedRing K]

/-- An edge that is not met in its interior is not split. -/
theorem c116_not_inside (g : GeoCfg K) (m : Mesh K) (e c index : Nat) (lengths : List (List K)) (qw aw : K)
    (quality : List K) (aligned : List Nat) :
    g.isEdgeToSplit m e c false index lengths qw aw quality aligned = ok { index := index, verdict := .notInside } := rfl

/-- An edge half of which has no length is not split. -/
theorem c116_short (g : GeoCfg K) (m : Mesh K) (e c index : Nat) (lengths : List (List K)) (qw aw : K)
    (quality : List K) (aligned : List Nat) (ls : List K) (length : K) (hls : lengths[c]? = some ls)
    (hlen : ls[index]? = some length) (hz : g.isValueZero (1 / 2 * length) g.tol1D = true) :
    g.isEdgeToSplit m e c true index lengths qw aw quality aligned =
      ok { index := index, inside := true, verdict := .lengthNotEnough } := by
  unfold GeoCfg.isEdgeToSplit
  simp only [vget_eq_ok.2 hls, ok_bind, vget_eq_ok.2 hlen, hz, Bool.true_eq_false, if_false, Bool.not_true, if_true]

/-- The edge is long enough, and it is split exactly if none of its polygons objects, neither by its quality nor by its
aligned edges; the answers of the polygons are as reported; the verdict names the test that failed, and the neighbours or
not.

Missing for the full statement, `Blames` in all cases: if only the polygon `c` itself objects, the verdict is "both" and
not "only local". -/
theorem c116_verdict_partial (g : GeoCfg K) (m : Mesh K) (h : m.WF) (e c index : Nat) (lengths : List (List K)) (qw aw : K)
    (quality : List K) (aligned : List Nat) (r : List Nat) (hr : m.row .nb12 e = ok r)
    (hD : DataThere m r lengths quality aligned) (line : Nat) (hline : aligned[e]? = some line)
    (ls : List K) (length : K) (hls : lengths[c]? = some ls) (hlen : ls[index]? = some length)
    (hz : g.isValueZero (1 / 2 * length) g.tol1D = false) :
    ∃ res, g.isEdgeToSplit m e c true index lengths qw aw quality aligned = ok res ∧
      res.index = index ∧ res.inside = true ∧ res.lengthEnough = true ∧
      SideAnswers (m.num .d2) r c (TooShort g length qw quality) res.localQuality res.quality res.neighQuality ∧
      (res.quality = false → res.isToSplit = false ∧ res.neighAligned = [] ∧
        ((¬ ∃ d ∈ r, d < m.num .d2 ∧ d ≠ c ∧ TooShort g length qw quality d) → res.verdict = .bothQuality) ∧
        ((∃ d ∈ r, d < m.num .d2 ∧ d ≠ c ∧ TooShort g length qw quality d) →
          Blames (m.num .d2) r c (TooShort g length qw quality) .onlyLocalQuality .onlyNeighQuality .bothQuality
            res.verdict)) ∧
      (res.quality = true →
        SideAnswers (m.num .d2) r c (Unbalanced g m length aw lengths aligned line) res.localAligned res.aligned
          res.neighAligned ∧
        (res.aligned = false → res.isToSplit = false ∧
          ((¬ ∃ d ∈ r, d < m.num .d2 ∧ d ≠ c ∧ Unbalanced g m length aw lengths aligned line d) →
            res.verdict = .bothAligned) ∧
          ((∃ d ∈ r, d < m.num .d2 ∧ d ≠ c ∧ Unbalanced g m length aw lengths aligned line d) →
            Blames (m.num .d2) r c (Unbalanced g m length aw lengths aligned line) .onlyLocalAligned .onlyNeighAligned
              .bothAligned res.verdict)) ∧
        (res.aligned = true → res.isToSplit = true ∧ res.verdict = .toSplit)) := by
  classical
  have blame : ∀ (P : Nat → Prop) (oL oN b v : SideVerdict), oL ≠ oN → oL ≠ b → oN ≠ b →
      (c ∈ r ∧ c < m.num .d2 ∧ P c → v = b) → (¬ (c ∈ r ∧ c < m.num .d2 ∧ P c) → v = oN) →
      (∃ d ∈ r, d < m.num .d2 ∧ d ≠ c ∧ P d) → Blames (m.num .d2) r c P oL oN b v := by
    intro P oL oN b v h1 h2 h3 hb hn hex
    by_cases hc : c ∈ r ∧ c < m.num .d2 ∧ P c
    · rw [hb hc]
      exact ⟨⟨fun he => absurd he.symm h2, fun he => absurd hex he.2⟩, ⟨fun he => absurd he.symm h3, fun he => absurd hc he.1⟩,
        ⟨fun _ => ⟨hc, hex⟩, fun _ => rfl⟩⟩
    · rw [hn hc]
      exact ⟨⟨fun he => absurd he.symm h1, fun he => absurd he.1 hc⟩, ⟨fun _ => ⟨hc, hex⟩, fun _ => rfl⟩,
        ⟨fun he => absurd he h3, fun he => absurd he.1 hc⟩⟩
  have only : ∀ (P : Nat → Prop) (here all : Bool) (ns : List Bool), SideAnswers (m.num .d2) r c P here all ns → all = false →
      (¬ ∃ d ∈ r, d < m.num .d2 ∧ d ≠ c ∧ P d) → c ∈ r ∧ c < m.num .d2 ∧ P c := by
    intro P here all ns ha hf hex
    obtain ⟨d, hd, hlt, hP⟩ := ha.all_iff.1 hf
    by_cases hdc : d = c
    · subst hdc
      exact ⟨hd, hlt, hP⟩
    · exact absurd ⟨d, hd, hlt, hdc, hP⟩ hex
  obtain ⟨s, hs, hok⟩ := qualityLoop (g := g) h (c := c) hr (length := length) (weight := qw) hD.quality .unknown
  have ha := hok.answers (num := m.num .d2) (objects := TooShort g length qw quality) fun d _ => by simp
  obtain ⟨v1, v2⟩ := hok.verdict_cases ha
  unfold GeoCfg.isEdgeToSplit
  simp only [vget_eq_ok.2 hls, ok_bind, vget_eq_ok.2 hlen, hz, Bool.true_eq_false, if_false, Bool.not_false,
    rowSize_of_row h hr, hs]
  cases hall : s.all with
  | false =>
    rw [hall] at ha v1 v2
    obtain ⟨v3, v4⟩ := v2 rfl
    simp only [if_true]
    exact ⟨_, rfl, rfl, rfl, rfl, ha, fun _ => ⟨rfl, rfl, fun hex => v3 (only _ _ _ _ ha rfl hex),
      blame _ _ _ _ _ (by decide) (by decide) (by decide) v3 v4⟩, fun he => absurd he (by simp)⟩
  | true =>
    rw [hall] at ha v1 v2
    simp only [Bool.true_eq_false, if_false]
    obtain ⟨t, ht, hokt⟩ := alignLoop (g := g) h (c := c) hr (length := length) (weight := aw) (line := line) hD s.verdict
    have hat := hokt.answers (num := m.num .d2) (objects := Unbalanced g m length aw lengths aligned line)
      fun d _ => by simp
    obtain ⟨w1, w2⟩ := hokt.verdict_cases hat
    unfold GeoCfg.checkAligned
    simp only [vat_of_getElem? hline, ok_bind, rowSize_of_row h hr, ht]
    cases hallt : t.all with
    | false =>
      rw [hallt] at hat w1 w2
      obtain ⟨w3, w4⟩ := w2 rfl
      simp only [if_true]
      exact ⟨_, rfl, rfl, rfl, rfl, ha, fun he => absurd he (by simp), fun _ => ⟨hat,
        fun _ => ⟨rfl, fun hex => w3 (only _ _ _ _ hat rfl hex), blame _ _ _ _ _ (by decide) (by decide) (by decide) w3 w4⟩,
        fun he => absurd he (by simp)⟩⟩
    | true =>
      rw [hallt] at hat
      simp only [Bool.true_eq_false, if_false]
      exact ⟨_, rfl, rfl, rfl, rfl, ha, fun he => absurd he (by simp), fun _ => ⟨hat,
        fun he => absurd he (by simp), fun _ => ⟨rfl, rfl⟩⟩⟩

/-- So an edge is split exactly if it is met in its interior, is long enough and no polygon of it objects. -/
theorem c116_split_iff (g : GeoCfg K) (m : Mesh K) (h : m.WF) (e c index : Nat) (inside : Bool) (lengths : List (List K))
    (qw aw : K) (quality : List K) (aligned : List Nat) (r : List Nat) (hr : m.row .nb12 e = ok r)
    (hD : DataThere m r lengths quality aligned) (line : Nat) (hline : aligned[e]? = some line)
    (ls : List K) (length : K) (hls : lengths[c]? = some ls) (hlen : ls[index]? = some length) :
    ∃ res, g.isEdgeToSplit m e c inside index lengths qw aw quality aligned = ok res ∧
      (res.isToSplit = true ↔ inside = true ∧ g.isValueZero (1 / 2 * length) g.tol1D = false ∧
        ∀ d ∈ r, d < m.num .d2 → ¬ TooShort g length qw quality d ∧
          ¬ Unbalanced g m length aw lengths aligned line d) ∧
      (res.verdict = .toSplit ↔ res.isToSplit = true) := by
  cases inside with
  | false => exact ⟨_, c116_not_inside .., by simp, by simp⟩
  | true =>
    cases hz : g.isValueZero (1 / 2 * length) g.tol1D with
    | true => exact ⟨_, c116_short g m e c index lengths qw aw quality aligned ls length hls hlen hz, by simp, by simp⟩
    | false =>
      obtain ⟨res, h0, _, _, _, hq, h1, h2⟩ := c116_verdict_partial g m h e c index lengths qw aw quality aligned r hr hD
        line hline ls length hls hlen hz
      refine ⟨res, h0, ?_⟩
      cases hql : res.quality with
      | false =>
        rw [hql] at h1 hq
        obtain ⟨h3, -, h4, h5⟩ := h1 rfl
        obtain ⟨d, hd, hlt, hP⟩ := hq.all_iff.1 rfl
        refine ⟨⟨fun he => by rw [h3] at he; simp at he, fun he => absurd hP (he.2.2 d hd hlt).1⟩,
          ⟨fun he => ?_, fun he => by rw [h3] at he; simp at he⟩⟩
        exfalso
        by_cases hex : ∃ d ∈ r, d < m.num .d2 ∧ d ≠ c ∧ TooShort g length qw quality d
        · have hB := h5 hex
          by_cases hc : c ∈ r ∧ c < m.num .d2 ∧ TooShort g length qw quality c
          · rw [hB.both.2 ⟨hc, hex⟩] at he
            simp at he
          · rw [hB.onlyNeigh.2 ⟨hc, hex⟩] at he
            simp at he
        · rw [h4 hex] at he
          simp at he
      | true =>
        obtain ⟨h3, h4, h5⟩ := h2 hql
        rw [hql] at hq
        have hno : ∀ d ∈ r, d < m.num .d2 → ¬ TooShort g length qw quality d := fun d hd hlt hP => by
          have := hq.all_iff.2 ⟨d, hd, hlt, hP⟩
          simp at this
        cases hal : res.aligned with
        | false =>
          rw [hal] at h3 h4
          obtain ⟨h6, h7, h8⟩ := h4 rfl
          obtain ⟨d, hd, hlt, hP⟩ := h3.all_iff.1 rfl
          refine ⟨⟨fun he => by rw [h6] at he; simp at he, fun he => absurd hP (he.2.2 d hd hlt).2⟩,
            ⟨fun he => ?_, fun he => by rw [h6] at he; simp at he⟩⟩
          exfalso
          by_cases hex : ∃ d ∈ r, d < m.num .d2 ∧ d ≠ c ∧ Unbalanced g m length aw lengths aligned line d
          · have hB := h8 hex
            by_cases hc : c ∈ r ∧ c < m.num .d2 ∧ Unbalanced g m length aw lengths aligned line c
            · rw [hB.both.2 ⟨hc, hex⟩] at he
              simp at he
            · rw [hB.onlyNeigh.2 ⟨hc, hex⟩] at he
              simp at he
          · rw [h7 hex] at he
            simp at he
        | true =>
          rw [hal] at h3
          obtain ⟨h6, h7⟩ := h5 hal
          refine ⟨⟨fun _ => ⟨rfl, rfl, fun d hd hlt => ⟨hno d hd hlt, fun hP => ?_⟩⟩, fun _ => h6⟩, by rw [h6, h7]; simp⟩
          have := h3.all_iff.2 ⟨d, hd, hlt, hP⟩
          simp at this

/-! ### The polygon alone is never named -/

def sideGeo : GeoCfg ℚ := ⟨1 / 1000000, 1 / 1000000⟩

/-- A polygon 0 with the vertices `(0, 0)`, `(4, 0)`, `(6, 0)`, `(3, 4)`, so with two aligned edges 0 and 1, and a triangle 1
below the edge 1, with the third vertex `(4, -3/2)`. -/
def sideMeshOps : List (Op ℚ) :=
  [.append .d0 5, .insertCoord 1 4 0 0, .insertCoord 2 6 0 0, .insertCoord 3 3 4 0, .insertCoord 4 4 (-3 / 2) 0,
   .append .d1 6, .insertExt 0 0 1, .insertExt 1 1 2, .insertExt 2 2 3, .insertExt 3 3 0, .insertExt 4 1 4,
   .insertExt 5 4 2, .append .d2 2,
   .addRow .vert2 0 [0, 1, 2, 3], .addRow .edge2 0 [0, 1, 2, 3], .addRow .vert2 1 [2, 1, 4],
   .addRow .edge2 1 [1, 4, 5], .resizeRow .nb12 1 2, .insertEntry .nb12 1 0 1, .insertEntry .nb12 1 1 0]

def sideBase : Mesh ℚ :=
  match Mesh.empty.run sideMeshOps with
  | ok m => m
  | _ => Mesh.empty

theorem sideBase_run : (Mesh.empty : Mesh ℚ).run sideMeshOps = ok sideBase := by
  have h : (match (Mesh.empty : Mesh ℚ).run sideMeshOps with | ok _ => true | _ => false) = true := by
    decide +kernel
  unfold sideBase
  revert h
  cases (Mesh.empty : Mesh ℚ).run sideMeshOps <;> simp

theorem sideBase_wf : sideBase.WF := by
  refine Mesh.run_wf_of_ok (ops := sideMeshOps) Mesh.empty_wf (Mesh.along_of_forall ?_ _) sideBase_run
  intro o ho m
  simp only [sideMeshOps, List.mem_cons, List.not_mem_nil, or_false] at ho
  repeat (rcases ho with rfl | ho; · trivial)

/-- The lengths of the edges of the two polygons. -/
def sideLengths : List (List ℚ) := [[4, 2, 5, 5], [2, 3 / 2, 5 / 2]]

/-- The lines of the edges. -/
def sideLines : List Nat := [0, 0, 1, 2, 3, 4]

theorem sideBase_data (quality : List ℚ) (hq : 2 ≤ quality.length) :
    DataThere sideBase [1, 0] sideLengths quality sideLines where
  quality d hd _ := by
    simp only [List.mem_cons, List.not_mem_nil, or_false] at hd
    omega
  lines d hd _ es he := by
    simp only [List.mem_cons, List.not_mem_nil, or_false] at hd
    rcases hd with rfl | rfl
    · rw [show sideBase.row .edge2 1 = ok [1, 4, 5] from by decide +kernel] at he
      cases he
      decide
    · rw [show sideBase.row .edge2 0 = ok [0, 1, 2, 3] from by decide +kernel] at he
      cases he
      decide
  lengths d hd _ := by
    simp only [List.mem_cons, List.not_mem_nil, or_false] at hd
    rcases hd with rfl | rfl
    · exact ⟨[1, 4, 5], [2, 3 / 2, 5 / 2], by decide +kernel, rfl, rfl⟩
    · exact ⟨[0, 1, 2, 3], [4, 2, 5, 5], by decide +kernel, rfl, rfl⟩

/-- The other hypotheses of `c116_verdict_partial` and `c116_split_iff` for the edge 1 of the polygon 0. -/
example : sideBase.row .nb12 1 = ok [1, 0] ∧ sideLines[1]? = some 0 ∧ sideLengths[0]? = some [4, 2, 5, 5] ∧
    sideGeo.isValueZero (1 / 2 * 2 : ℚ) sideGeo.tol1D = false := by
  refine ⟨by decide +kernel, rfl, rfl, by decide +kernel⟩

/-- No one objects. -/
example : sideGeo.isEdgeToSplit sideBase 1 0 true 1 sideLengths 1 (1 / 3) [1 / 2, 1 / 2] sideLines =
    ok ⟨true, true, true, true, [true, true], true, true, [true, true], true, 1, .toSplit⟩ := by
  decide +kernel

/-- The triangle objects by its quality. -/
example : sideGeo.isEdgeToSplit sideBase 1 0 true 1 sideLengths 1 (1 / 3) [1 / 2, 3] sideLines =
    ok ⟨true, true, true, false, [false, true], false, false, [], false, 1, .onlyNeighQuality⟩ := by
  decide +kernel

/-- Both object by their aligned edges. -/
example : sideGeo.isEdgeToSplit sideBase 1 0 true 1 sideLengths 1 3 [1 / 2, 1 / 2] sideLines =
    ok ⟨true, true, true, true, [true, true], false, false, [false, false], false, 1, .bothAligned⟩ := by
  decide +kernel

/-- The edge has no length. -/
example : sideGeo.isValueZero (1 / 2 * (1 / 2000000) : ℚ) sideGeo.tol1D = true := by decide +kernel

/-- The property is violated: only the polygon itself objects, by its quality, but the verdict is that both do. -/
theorem c116_quality_violated :
    ∃ res, sideGeo.isEdgeToSplit sideBase 1 0 true 1 sideLengths 1 (1 / 3) [3, 1 / 2] sideLines = ok res ∧
      TooShort sideGeo 2 1 [3, 1 / 2] 0 ∧ ¬ TooShort sideGeo 2 1 [3, 1 / 2] 1 ∧ res.verdict = .bothQuality ∧
      ¬ Blames (sideBase.num .d2) [1, 0] 0 (TooShort sideGeo 2 1 [3, 1 / 2]) .onlyLocalQuality .onlyNeighQuality
        .bothQuality res.verdict := by
  have h1 : ¬ TooShort sideGeo 2 1 [3, 1 / 2] 1 := by
    rintro ⟨q, hq, hf⟩
    cases hq
    revert hf
    decide +kernel
  refine ⟨⟨true, true, false, false, [true, false], false, false, [], false, 1, .bothQuality⟩, by decide +kernel,
    ⟨3, rfl, by decide +kernel⟩, h1, rfl, fun hB => ?_⟩
  obtain ⟨-, d, hd, -, hne, hP⟩ := hB.both.1 rfl
  simp only [List.mem_cons, List.not_mem_nil, or_false] at hd
  rcases hd with rfl | rfl
  · exact h1 hP
  · exact hne rfl

/-- The same by its aligned edges: the half of the edge has length 1, the mean length for the polygon is 2, for the triangle
it is 1. -/
theorem c116_aligned_violated :
    ∃ res, sideGeo.isEdgeToSplit sideBase 1 0 true 1 sideLengths 1 1 [1 / 2, 1 / 2] sideLines = ok res ∧
      Unbalanced sideGeo sideBase 2 1 sideLengths sideLines 0 0 ∧
      ¬ Unbalanced sideGeo sideBase 2 1 sideLengths sideLines 0 1 ∧ res.verdict = .bothAligned ∧
      ¬ Blames (sideBase.num .d2) [1, 0] 0 (Unbalanced sideGeo sideBase 2 1 sideLengths sideLines 0) .onlyLocalAligned
        .onlyNeighAligned .bothAligned res.verdict := by
  have h1 : ¬ Unbalanced sideGeo sideBase 2 1 sideLengths sideLines 0 1 := by
    rintro ⟨es, ls, he, hl, hf⟩
    rw [show sideBase.row .edge2 1 = ok [1, 4, 5] from by decide +kernel] at he
    cases he
    cases hl
    revert hf
    decide +kernel
  refine ⟨⟨true, true, true, true, [true, true], false, false, [true, false], false, 1, .bothAligned⟩, by decide +kernel,
    ⟨[0, 1, 2, 3], [4, 2, 5, 5], by decide +kernel, rfl, by decide +kernel⟩, h1, rfl, fun hB => ?_⟩
  obtain ⟨-, d, hd, -, hne, hP⟩ := hB.both.1 rfl
  simp only [List.mem_cons, List.not_mem_nil, or_false] at hd
  rcases hd with rfl | rfl
  · exact h1 hP
  · exact hne rfl

end Verif
