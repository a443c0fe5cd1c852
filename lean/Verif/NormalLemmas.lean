import Verif.NormalSpec
import Verif.IntersectProps
import Verif.PointPosProps
import Verif.CheckConvexLemmas
import Verif.VolumeLemmas

/-!
# Lemmas on rays and convexity
-/

namespace Verif
open Res

variable {K : Type} [Field K] [LinearOrder K] [IsStrictOrderedRing K]

theorem areValuesEqual_iff (g : GeoCfg K) (h0 : 0 ≤ g.minTolerance) (a b : K) :
    g.areValuesEqual a b g.tol1D = true ↔ ¬ g.Apart a b := by
  have hT0 := g.tol1D_nonneg h0
  have hm : max |g.tol1D| g.minTolerance = g.tol1D := by
    rw [abs_of_nonneg hT0]; exact max_eq_left (le_max_left _ _)
  unfold GeoCfg.areValuesEqual GeoCfg.Apart
  rw [decide_eq_true_iff, g.compareValues_eq, hm, not_lt]
  split
  · next h => simp [h]
  · next h => split <;> simp [h]

theorem along_eq (a b : V3 K) : a.dot b = along a b := rfl

theorem norm_one {sqrt : K → K} (hs : IsSqrt sqrt) {n : V3 K} (h : along n n = 1) : n.norm sqrt = 1 := by
  have h1 := norm_nonneg' hs n
  have h2 := norm_sq hs n
  rw [along_eq, h] at h2
  have : (n.norm sqrt - 1) * (n.norm sqrt + 1) = 0 := by linear_combination h2
  rcases mul_eq_zero.1 this with h | h
  · linarith
  · linarith

theorem compare_one (g : GeoCfg K) (h0 : 0 ≤ g.minTolerance) : g.compareValues 1 1 g.tol1D = .coincident := by
  have : g.areValuesEqual 1 1 g.tol1D = true := by
    rw [areValuesEqual_iff g h0]
    unfold GeoCfg.Apart
    rw [sub_self, abs_zero, not_lt]
    exact window_nonneg (g.tol1D_nonneg h0) _ _
  exact of_decide_eq_true this

theorem inPlane_eq (f : NormalFace K) (q : V3 K) : rotateTo2D f.rotation f.translation q = f.inPlane q := by
  simp only [rotateTo2D, NormalFace.inPlane, V3.dot, V3.sub]

theorem onRay_eq (f : NormalFace K) (s : K) : f.point.add (V3.smul s f.normal) = f.onRay s := by
  simp only [V3.add, V3.smul, NormalFace.onRay]

/-- What the loop does with a face whose border is clear of the ray. -/
theorem rayFace_clear {sqrt : K → K} (hs : IsSqrt sqrt) (g : GeoCfg K) (h0 : 0 ≤ g.minTolerance)
    (hT : g.tol1D < 1 / 2) (ht : 0 ≤ g.tolerance1D) {f other : NormalFace K} (hf : along f.normal f.normal = 1)
    (ho : along other.normal other.normal = 1) (hc : g.RayClear f other) (st : RayMarks K)
    (hap : ∀ s, Crosses f other s → ∀ c ∈ st.coords, g.Apart c s) :
    ((¬ ∃ s, Crosses f other s) ∧ g.rayFace sqrt f other st = ok st) ∨
    ∃ s, Crosses f other s ∧ g.rayFace sqrt f other st = ok { st with coords := st.coords ++ [s] } := by
  obtain ⟨o, hv, hlen, hc⟩ := hc
  have hT0 := g.tol1D_nonneg h0
  have hn1 := norm_one hs hf
  have hsub : (f.point.add f.normal).sub f.point = f.normal := by
    simp only [V3.add, V3.sub]; ext <;> simp
  have hcmp : g.compareValues (other.normal.norm sqrt) 1 g.tol1D = .coincident := by
    rw [norm_one hs ho]; exact compare_one g h0
  have hlen1 : g.tol1D < ((f.point.add f.normal).sub f.point).norm sqrt := by
    rw [hsub, hn1]; linarith
  obtain ⟨k1, k2⟩ := (c66_cases sqrt hs g h0 hT f.point (f.point.add f.normal) other.normal o).2 hcmp hlen1
  have hside : side other.normal f.point (f.point.add f.normal) = along f.normal other.normal := by
    simp only [side, along, V3.add]; ring
  rw [hside, hsub, hn1, mul_one] at k1 k2
  have hget : vget other.vertices3D 0 = ok o := vget_eq_ok.2 hv
  by_cases hpar : along f.normal other.normal = 0
  · left
    refine ⟨fun ⟨s, h, _⟩ => h hpar, ?_⟩
    have k2' := k2 (by rw [hpar, abs_zero]; exact g.tolSq_nonneg)
    unfold GeoCfg.rayFace
    rw [hget, ok_bind]
    rcases le_or_gt |side other.normal f.point o| (window g.tolSq (other.normal.dot f.point) (other.normal.dot o)) with
      h | h
    · rw [k2'.1 h, ok_bind]
    · rw [k2'.2 h, ok_bind]
  · obtain ⟨hbig, hpos⟩ := hc.resolve_left hpar
    obtain ⟨q, hq⟩ := k1 hbig
    obtain ⟨s, u1, u2, -, u4, u5, u6, -⟩ := c66_single sqrt hs g h0 hT _ _ _ _ q hq
    have hpt : ∀ s', pointAt f.point (f.point.add f.normal) s' = f.onRay s' := by
      intro s'; simp only [pointAt, V3.add, NormalFace.onRay]; ext <;> ring
    simp only [hpt] at u1
    have hs0 : side other.normal o (f.onRay s) = 0 := (u1 s).2 rfl
    have huniq : ∀ s', Crosses f other s' → s' = s := by
      rintro s' ⟨-, -, ⟨o', ho', e⟩, -⟩
      rw [hv] at ho'
      obtain rfl := Option.some.inj ho'
      exact (u1 s').1 e
    obtain ⟨c1, c2, c3, c4, c5, -⟩ := c29_position g s h0 hT
    rw [u2] at c1 c2 c3 c4 c5
    simp only [ok.injEq] at c1 c2 c3 c4 c5
    rcases hpos s hs0 with hle | ⟨hgt, hone, hclear⟩
    · left
      refine ⟨?_, ?_⟩
      · rintro ⟨s', h'⟩
        rw [huniq s' h'] at h'
        exact absurd h'.2.1 (not_lt.2 hle)
      · unfold GeoCfg.rayFace
        rw [hget, ok_bind, hq, ok_bind]
        simp only
        rcases lt_or_ge s (-g.tol1D) with h | h
        · rw [c1.2 h]
        · rw [c2.2 (abs_le.2 ⟨h, by linarith⟩)]
    · have hco : q.coord = s := by
        rcases hone with h1 | h1
        · rw [u5 (c4.2 (by rw [h1, sub_self, abs_zero]; exact hT0)), h1]
        · refine u6 (fun k => ?_) (fun k => ?_)
          · have := c2.1 k; rw [abs_le] at this; linarith
          · exact absurd (c4.1 k) (not_le.2 h1)
      have hbody : g.rayFace sqrt f other st = g.rayHit f other s st := by
        unfold GeoCfg.rayFace
        rw [hget, ok_bind, hq, ok_bind]
        simp only
        rw [hco]
        rcases lt_or_ge (1 + g.tol1D) s with h | h
        · rw [c5.2 h]
        · rcases lt_or_ge s (1 - g.tol1D) with h' | h'
          · rw [c3.2 ⟨hgt, h'⟩]
          · rw [c4.2 (abs_le.2 ⟨by linarith, by linarith⟩)]
      rw [hbody]
      have hcast := c70_even_odd g h0 hT ht other.vertices2D hlen (other.inPlane (f.onRay s)) rfl hclear
      by_cases hin : InsideEvenOdd other.vertices2D (other.inPlane (f.onRay s))
      · right
        have hcr : Crosses f other s := ⟨hpar, lt_of_le_of_lt hT0 hgt, ⟨o, hv, hs0⟩, hin⟩
        refine ⟨s, hcr, ?_⟩
        unfold GeoCfg.rayHit
        rw [if_neg]
        · simp only [onRay_eq, inPlane_eq]
          rw [hcast, ok_bind, if_pos hin]
        intro hany
        obtain ⟨c, hc, he⟩ := List.any_eq_true.1 hany
        exact (areValuesEqual_iff g h0 c s).1 he (hap s hcr c hc)
      · left
        refine ⟨?_, ?_⟩
        · rintro ⟨s', h'⟩
          rw [huniq s' h'] at h'
          exact hin h'.2.2.2
        · unfold GeoCfg.rayHit
          split
          · rfl
          · simp only [onRay_eq, inPlane_eq]
            rw [hcast, ok_bind, if_neg hin]

/-- The coordinates that the loop collects. -/
theorem rayLoop_clear' {sqrt : K → K} (hs : IsSqrt sqrt) (g : GeoCfg K) (h0 : 0 ≤ g.minTolerance)
    (hT : g.tol1D < 1 / 2) (ht : 0 ≤ g.tolerance1D) {faces : List (NormalFace K)} {f1 : Nat} {face : NormalFace K}
    (h1 : faces[f1]? = some face) (hunit : ∀ f ∈ faces, along f.normal f.normal = 1)
    (hclear : ∀ (f2 : Nat) other, f2 ≠ f1 → faces[f2]? = some other → g.RayClear face other)
    (hap : ∀ (f2 f3 : Nat) a b s t, f2 ≠ f1 → f3 ≠ f1 → f2 ≠ f3 → faces[f2]? = some a → faces[f3]? = some b → Crosses face a s →
      Crosses face b t → g.Apart s t)
    (l : List Nat) (hl : ∀ i ∈ l, i < faces.length) (hnd : l.Nodup) (st : RayMarks K)
    (hst : ∀ c ∈ st.coords, ∃ f2 a, f2 ∉ l ∧ f2 ≠ f1 ∧ faces[f2]? = some a ∧ Crosses face a c) :
    ∃ cs : List K, (open Classical in cs.length = (l.filter fun f2 => f2 ≠ f1 ∧ ∃ a b s, faces[f1]? = some a ∧
        faces[f2]? = some b ∧ Crosses a b s).length) ∧
      foldRes (fun st f2 => if f2 = f1 then ok st else do
        let other ← vget faces f2
        g.rayFace sqrt face other st) st l = ok { st with coords := st.coords ++ cs } := by
  classical
  induction l generalizing st with
  | nil => exact ⟨[], rfl, by simp⟩
  | cons i l ih =>
    obtain ⟨hni, hnd'⟩ := List.nodup_cons.1 hnd
    have hi := hl i List.mem_cons_self
    have hl' : ∀ j ∈ l, j < faces.length := fun j hj => hl j (List.mem_cons_of_mem _ hj)
    have hst' : ∀ c ∈ st.coords, ∃ f2 a, f2 ∉ l ∧ f2 ≠ f1 ∧ faces[f2]? = some a ∧ Crosses face a c := by
      intro c hc
      obtain ⟨f2, a, h, h'⟩ := hst c hc
      exact ⟨f2, a, fun k => h (List.mem_cons_of_mem _ k), h'⟩
    by_cases he : i = f1
    · obtain ⟨cs, e1, e2⟩ := ih hl' hnd' st hst'
      refine ⟨cs, ?_, ?_⟩
      · rw [e1, List.filter_cons_of_neg (by simp [he])]
      · rw [foldRes_cons, if_pos he, ok_bind, e2]
    · have hoth := List.getElem?_eq_getElem hi
      have happ : ∀ s, Crosses face faces[i] s → ∀ c ∈ st.coords, g.Apart c s := by
        intro s hcr c hc
        obtain ⟨f2, a, hnot, hn1, ha, hcr'⟩ := hst c hc
        exact hap f2 i a _ c s hn1 he (fun k => hnot (k ▸ List.mem_cons_self)) ha hoth hcr' hcr
      rcases rayFace_clear hs g h0 hT ht (hunit face (List.mem_of_getElem? h1))
        (hunit _ (List.getElem_mem hi)) (hclear i _ he hoth) st happ with ⟨hno, e⟩ | ⟨s, hcr, e⟩
      · obtain ⟨cs, e1, e2⟩ := ih hl' hnd' st hst'
        refine ⟨cs, ?_, ?_⟩
        · rw [e1, List.filter_cons_of_neg]
          intro h
          have h := (of_decide_eq_true h : i ≠ f1 ∧ _)
          obtain ⟨-, a, b, s, ha, hb, hc⟩ := h
          rw [h1] at ha; rw [hoth] at hb
          obtain rfl := Option.some.inj ha
          obtain rfl := Option.some.inj hb
          exact hno ⟨s, hc⟩
        · rw [foldRes_cons, if_neg he, vget_of_lt hi, ok_bind, e, ok_bind, e2]
      · obtain ⟨cs, e1, e2⟩ := ih hl' hnd' { st with coords := st.coords ++ [s] } (by
          intro c hc
          rcases List.mem_append.1 hc with h | h
          · exact hst' c h
          · rw [List.mem_singleton] at h
            subst h
            exact ⟨i, _, hni, he, hoth, hcr⟩)
        refine ⟨s :: cs, ?_, ?_⟩
        · rw [List.length_cons, e1, List.filter_cons_of_pos, List.length_cons]
          exact decide_eq_true ⟨he, face, _, s, h1, hoth, hcr⟩
        · rw [foldRes_cons, if_neg he, vget_of_lt hi, ok_bind, e, ok_bind, e2]
          simp

theorem outer_eq (f : NormalFace K) : f.out = f.outer := by
  unfold NormalFace.out NormalFace.outer
  cases f.outgoing <;> simp [V3.smul]

theorem along_outer (f : NormalFace K) : along f.outer f.outer = along f.normal f.normal := by
  unfold NormalFace.outer along
  cases f.outgoing <;> simp

/-- The verdict on a pair of faces. -/
theorem convexPair_clear {sqrt : K → K} (hs : IsSqrt sqrt) (g : GeoCfg K) (h0 : 0 ≤ g.minTolerance)
    (hT : g.tol1D < 1 / 2) {p : V3 K} {f other : NormalFace K} (h : g.PairClear sqrt p f other) :
    ∃ b, g.convexPair sqrt p f other = ok b ∧ (b = true ↔ ¬ other.Beyond f.point) := by
  obtain ⟨o, hv, hu, hlen, hd, hw, hres⟩ := h
  have hT0 := g.tol1D_nonneg h0
  have hget : vget other.vertices3D 0 = ok o := vget_eq_ok.2 hv
  have hbey : other.Beyond f.point ↔ 0 < side other.outer o f.point := by
    constructor
    · rintro ⟨o', ho', h⟩
      rw [hv] at ho'
      obtain rfl := Option.some.inj ho'
      exact h
    · exact fun h => ⟨o, hv, h⟩
  have hcmp : g.compareValues (other.outer.norm sqrt) 1 g.tol1D = .coincident := by
    rw [norm_one hs (by rw [along_outer, hu])]; exact compare_one g h0
  obtain ⟨k1, k2⟩ := (c66_cases sqrt hs g h0 hT p f.point other.outer o).2 hcmp hlen
  have e1 : side other.outer p f.point = side other.outer o f.point - side other.outer o p := by
    simp only [side]; ring
  have e2 : |side other.outer p o| = |side other.outer o p| := by
    rw [← abs_neg]; congr 1; simp only [side]; ring
  have hL : 0 ≤ g.tolSq * (f.point.sub p).norm sqrt := mul_nonneg g.tolSq_nonneg (norm_nonneg' hs _)
  have hneg : side other.outer o p < 0 := by linarith
  rw [hbey]
  unfold GeoCfg.convexPair
  rw [hget, ok_bind, outer_eq]
  rcases le_or_gt |side other.outer p f.point| (g.tolSq * (f.point.sub p).norm sqrt) with hpar | hpar
  · rw [(k2 hpar).2 (by rw [e2, abs_of_neg hneg]; exact hw), ok_bind]
    refine ⟨true, rfl, fun _ => ?_, fun _ => rfl⟩
    intro hpos
    rw [e1, abs_of_pos (by linarith)] at hpar
    linarith
  · obtain ⟨q, hq⟩ := k1 hpar
    obtain ⟨s, u1, u2, -⟩ := c66_single sqrt hs g h0 hT _ _ _ _ q hq
    have hs0 : side other.outer o (pointAt p f.point s) = 0 := (u1 s).2 rfl
    have hs1 : side other.outer o p + s * (side other.outer o f.point - side other.outer o p) = 0 := by
      rw [← hs0]; simp only [side, pointAt]; ring
    generalize side other.outer o p = D at *
    generalize side other.outer o f.point = E at *
    obtain ⟨c1, c2, c3, c4, c5, -⟩ := c29_position g s h0 hT
    rw [u2] at c1 c2 c3 c4 c5
    simp only [ok.injEq] at c1 c2 c3 c4 c5
    rw [hq, ok_bind]
    simp only
    rcases le_or_gt E 0 with hE | hE
    · refine ⟨true, ?_, fun _ => not_lt.2 hE, fun _ => rfl⟩
      have hcase : s ≤ 0 ∨ 1 ≤ s := by
        rcases le_or_gt s 0 with h | h
        · exact Or.inl h
        · refine Or.inr ?_
          by_contra h'
          push Not at h'
          nlinarith
      rcases hcase with h | h
      · rcases lt_or_ge s (-g.tol1D) with h' | h'
        · rw [c1.2 h']
        · rw [c2.2 (abs_le.2 ⟨h', by linarith⟩)]
      · rcases lt_or_ge (1 + g.tol1D) s with h' | h'
        · rw [c5.2 h']
        · rw [c4.2 (abs_le.2 ⟨by linarith, by linarith⟩)]
    · refine ⟨false, ?_, fun h => absurd h (by simp), fun h => absurd hE h⟩
      obtain ⟨r1, r2⟩ := hres.resolve_left (not_le.2 hE)
      rw [c3.2 ⟨?_, ?_⟩]
      · by_contra h; push Not at h; nlinarith
      · by_contra h; push Not at h; nlinarith

theorem convexPairs_clear {sqrt : K → K} (hs : IsSqrt sqrt) (g : GeoCfg K) (h0 : 0 ≤ g.minTolerance)
    (hT : g.tol1D < 1 / 2) {p : V3 K} {faces : List (NormalFace K)} {f1 : Nat} {face : NormalFace K}
    (hclear : ∀ (f2 : Nat) other, f2 ≠ f1 → faces[f2]? = some other → g.PairClear sqrt p face other)
    (l : List Nat) (hl : ∀ i ∈ l, i < faces.length) :
    ∃ b, g.convexPairs sqrt p faces f1 face l = ok b ∧
      (b = true ↔ ∀ f2 ∈ l, f2 ≠ f1 → ∀ other, faces[f2]? = some other → ¬ other.Beyond face.point) := by
  induction l with
  | nil => exact ⟨true, rfl, by simp⟩
  | cons i l ih =>
    obtain ⟨b, e, hb⟩ := ih fun j hj => hl j (List.mem_cons_of_mem _ hj)
    have hi := hl i List.mem_cons_self
    rw [GeoCfg.convexPairs]
    by_cases he : i = f1
    · rw [if_pos he, e]
      refine ⟨b, rfl, hb.trans ⟨fun h f2 hf2 hne => ?_, fun h f2 hf2 => h f2 (List.mem_cons_of_mem _ hf2)⟩⟩
      rcases List.mem_cons.1 hf2 with k | k
      · exact absurd (k.trans he) hne
      · exact h f2 k hne
    · rw [if_neg he, vget_of_lt hi, ok_bind]
      have hoth := List.getElem?_eq_getElem hi
      obtain ⟨c, ec, hc⟩ := convexPair_clear hs g h0 hT (hclear i _ he hoth)
      rw [ec, ok_bind]
      cases c
      · refine ⟨false, by simp, fun h => absurd h (by simp), fun h => ?_⟩
        have := h i List.mem_cons_self he _ hoth
        exact absurd (hc.2 this) (by simp)
      · refine ⟨b, by simpa using e, hb.trans ⟨fun h f2 hf2 hne other ho => ?_,
          fun h f2 hf2 => h f2 (List.mem_cons_of_mem _ hf2)⟩⟩
        rcases List.mem_cons.1 hf2 with k | k
        · subst k
          rw [hoth] at ho
          obtain rfl := Option.some.inj ho
          exact hc.1 rfl
        · exact h f2 k hne other ho

theorem faceIsConvex_proper {sqrt : K → K} (hs : IsSqrt sqrt) (g : GeoCfg K) (h0 : 0 ≤ g.minTolerance)
    (h1D : 0 ≤ g.tolerance1D) (hT : g.tol1D < 1 / 2) (h1 : g.tolSq ≤ 1)
    {sort : (HullPt K → HullPt K → Bool) → List (HullPt K) → List (HullPt K)} (hsort : IsSort sort)
    {us : List (V3 K)} (P : ProperPoints g sqrt us) :
    ∃ b, g.faceIsConvex sqrt sort us = ok b ∧ (b = true ↔ ∀ q ∈ us, ¬ StrictlyInside us q) := by
  obtain ⟨ids, hull, b, e1, e2, e3, hb⟩ := hull_verdict h0 h1D hT h1 hs hsort P
  refine ⟨b, ?_, hb⟩
  unfold GeoCfg.faceIsConvex
  rw [e1, ok_bind, e2, ok_bind, e3]

theorem convexFaces_clear {sqrt : K → K} (hs : IsSqrt sqrt) (g : GeoCfg K) (h0 : 0 ≤ g.minTolerance)
    (h1D : 0 ≤ g.tolerance1D) (hT : g.tol1D < 1 / 2) (h1 : g.tolSq ≤ 1)
    {sort : (HullPt K → HullPt K → Bool) → List (HullPt K) → List (HullPt K)} (hsort : IsSort sort) {p : V3 K}
    {faces : List (NormalFace K)} (hP : ∀ f ∈ faces, ProperPoints g sqrt f.vertices2D)
    (hclear : ∀ (f1 f2 : Nat) face other, f1 ≠ f2 → faces[f1]? = some face → faces[f2]? = some other →
      g.PairClear sqrt p face other)
    (l : List Nat) (hl : ∀ i ∈ l, i < faces.length) :
    ∃ b, g.convexFaces sqrt sort p faces l = ok b ∧
      (b = true ↔ ∀ f1 ∈ l, ∀ face, faces[f1]? = some face →
        (∀ q ∈ face.vertices2D, ¬ StrictlyInside face.vertices2D q) ∧
        ∀ (f2 : Nat) other, f2 ≠ f1 → faces[f2]? = some other → ¬ other.Beyond face.point) := by
  induction l with
  | nil => exact ⟨true, rfl, by simp⟩
  | cons i l ih =>
    obtain ⟨b, e, hb⟩ := ih fun j hj => hl j (List.mem_cons_of_mem _ hj)
    have hi := hl i List.mem_cons_self
    have hoth := List.getElem?_eq_getElem hi
    obtain ⟨c, ec, hc⟩ := faceIsConvex_proper hs g h0 h1D hT h1 hsort (hP _ (List.getElem_mem hi))
    obtain ⟨d, ed, hd⟩ := convexPairs_clear hs g h0 hT (p := p) (faces := faces) (f1 := i) (face := faces[i])
      (fun f2 other hne ho => hclear i f2 _ other (Ne.symm hne) hoth ho) (List.range faces.length)
      (fun j hj => List.mem_range.1 hj)
    rw [GeoCfg.convexFaces, vget_of_lt hi, ok_bind, ec, ok_bind]
    cases c
    · refine ⟨false, by simp, fun h => absurd h (by simp), fun h => ?_⟩
      exact absurd (hc.2 (h i List.mem_cons_self _ hoth).1) (by simp)
    · simp only [if_true]
      rw [ed, ok_bind]
      cases d
      · refine ⟨false, by simp, fun h => absurd h (by simp), fun h => ?_⟩
        have := hd.2 fun f2 _ hne other ho => (h i List.mem_cons_self _ hoth).2 f2 other hne ho
        exact absurd this (by simp)
      · refine ⟨b, by simpa using e, hb.trans ⟨fun h f1 hf1 face hf => ?_,
          fun h f1 hf1 => h f1 (List.mem_cons_of_mem _ hf1)⟩⟩
        rcases List.mem_cons.1 hf1 with k | k
        · subst k
          rw [hoth] at hf
          obtain rfl := Option.some.inj hf
          exact ⟨hc.1 rfl, fun f2 other hne ho =>
            hd.1 rfl f2 (List.mem_range.2 (List.getElem?_eq_some_iff.1 ho).1) hne other ho⟩
        · exact h f1 k face hf

/-- The side of a mean of points. -/
theorem side_mean (n o q : V3 K) (l : List (V3 K)) (w : V3 K → K) (h1 : (l.map w).sum = 1)
    (hx : q.x = (l.map fun v => w v * v.x).sum) (hy : q.y = (l.map fun v => w v * v.y).sum)
    (hz : q.z = (l.map fun v => w v * v.z).sum) : side n o q = (l.map fun v => w v * side n o v).sum := by
  have key : ∀ l : List (V3 K), (l.map fun v => w v * side n o v).sum =
      n.x * (l.map fun v => w v * v.x).sum + n.y * (l.map fun v => w v * v.y).sum +
        n.z * (l.map fun v => w v * v.z).sum - (n.x * o.x + n.y * o.y + n.z * o.z) * (l.map w).sum := by
    intro l
    induction l with
    | nil => simp
    | cons v l ih =>
      rw [List.map_cons, List.sum_cons, ih]
      simp only [List.map_cons, List.sum_cons]
      unfold side
      ring
  rw [key, h1, ← hx, ← hy, ← hz]
  simp only [side]; ring

end Verif
