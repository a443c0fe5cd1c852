import Verif.CheckRunLemmas
import Verif.OrientProps

/-
Lemmas about the check of the convexity.
-/
namespace Verif

open Res

variable {K : Type} [Field K] [LinearOrder K] [IsStrictOrderedRing K]
variable {g : GeoCfg K} {sqrt : K → K} {m : Mesh K}

theorem selection_mem {pts vs : List (V3 K)} {ids : List Nat} (hsel : IsSelection pts ids vs) {q : V3 K}
    (hq : q ∈ vs) : q ∈ pts := by
  have : some q ∈ ids.map (fun i => pts[i]?) := by rw [hsel]; exact List.mem_map_of_mem hq
  obtain ⟨i, -, e⟩ := List.mem_map.1 this
  exact List.mem_of_getElem? e

/-- A vertex on a line that has all points on its left is not in the interior. -/
theorem not_inside_of_line {pts : List (V3 K)} {q b : V3 K} (hab : q.x ≠ b.x ∨ q.y ≠ b.y)
    (h : ∀ r ∈ pts, 0 ≤ area2 q b r) : ¬ StrictlyInside pts q := by
  intro hi
  have := hi q b hab h
  rw [show area2 q b q = 0 by unfold area2; ring] at this
  exact lt_irrefl _ this

/-- The vertices of a convex polygon are not in the interior of its hull. -/
theorem convex_not_inside {pts : List (V3 K)} (hz : ∀ q ∈ pts, q.z = 0) (hnd : pts.Nodup) (hl : 1 < pts.length)
    (hc : WeaklyConvex pts) : ∀ q ∈ pts, ¬ StrictlyInside pts q := by
  intro q hq
  obtain ⟨v, hv, ev⟩ := List.getElem_of_mem hq
  obtain ⟨a, b, he⟩ := isEdge_of_lt pts v hv
  have ha : a = q := by
    have := he.1
    rw [List.getElem?_eq_getElem hv, ev] at this
    exact (Option.some.inj this).symm
  subst ha
  have hab : a ≠ b := by
    intro h
    obtain ⟨hw, ew⟩ := List.getElem?_eq_some_iff.1 he.2
    have := (List.Nodup.getElem_inj_iff hnd).1 (ev.trans (h.trans ew.symm))
    rcases Nat.lt_or_ge (v + 1) pts.length with h' | h'
    · rw [Nat.mod_eq_of_lt h'] at this; omega
    · have h4 : v + 1 = pts.length := by omega
      rw [h4, Nat.mod_self] at this; omega
  refine not_inside_of_line (xy_ne (hz _ hq) (hz _ (List.mem_of_getElem? he.2)) hab) (fun r hr' => ?_)
  obtain ⟨i, hi', ei⟩ := List.getElem_of_mem hr'
  have hri : pts[i]? = some r := by rw [List.getElem?_eq_getElem hi', ei]
  have T : ∀ (i j k : Nat) x y z, i < j → j < k → pts[i]? = some x → pts[j]? = some y → pts[k]? = some z →
    0 ≤ area2 x y z := hc
  obtain ⟨ha', hb'⟩ := he
  by_cases i1 : i = v
  · subst i1
    rw [hri] at ha'
    obtain rfl := Option.some.inj ha'
    exact le_of_eq (by unfold area2; ring)
  · by_cases i2 : i = (v + 1) % pts.length
    · rw [← i2, hri] at hb'
      obtain rfl := Option.some.inj hb'
      exact le_of_eq (by unfold area2; ring)
    · rcases Nat.lt_or_ge (v + 1) pts.length with hv1 | hv1
      · rw [Nat.mod_eq_of_lt hv1] at hb' i2
        rcases Nat.lt_or_ge i v with hiv | hiv
        · have := T i v (v + 1) r a b hiv (by omega) hri ha' hb'
          rwa [area2_rot]
        · exact T v (v + 1) i a b r (by omega) (by omega) ha' hb' hri
      · have e : v + 1 = pts.length := by omega
        rw [e, Nat.mod_self] at hb' i2
        have := T 0 i v b r a (by omega) (by omega) hb' hri ha'
        rwa [area2_rot] at this

/-- The verdict on the vertices that are not aligned. -/
theorem hull_verdict (h0 : 0 ≤ g.minTolerance) (h1D : 0 ≤ g.tolerance1D) (hT : g.tol1D < 1 / 2) (h1 : g.tolSq ≤ 1)
    (hs : IsSqrt sqrt) {sort : (HullPt K → HullPt K → Bool) → List (HullPt K) → List (HullPt K)}
    (hsort : IsSort sort) {us : List (V3 K)} (P : ProperPoints g sqrt us) :
    ∃ ids hull b, g.convexHull sqrt sort us true = ok ids ∧ extractPoints us ids = ok hull ∧
      g.polygonIsConvex sqrt us hull = ok b ∧ (b = true ↔ ∀ q ∈ us, ¬ StrictlyInside us q) := by
  obtain ⟨ids, vs, e, hi, hsel, -, hlen, -, hedge, hins⟩ :=
    c82_hull_collinear_partial g h0 h1D hsort P.resolved P.flat P.nodup P.notAligned
  have hsub : ∀ q ∈ vs, q ∈ us := fun q hq => selection_mem hsel hq
  have hvn := selection_nodup P.nodup hi hsel
  have hpl : 2 < us.length := lt_of_lt_of_le hlen (List.Subperm.length_le (hvn.subperm hsub))
  have hf : FlatPolygon vs := ⟨hlen, fun q hq => P.flat q (hsub q hq)⟩
  have hne : us ≠ [] := by rintro rfl; simp at hpl
  have hx : extractPoints us ids = ok vs := extractPoints_eq _ _ _ hsel
  by_cases hall : ∀ q ∈ us, ¬ StrictlyInside us q
  · refine ⟨ids, vs, true, e, hx, ?_, fun _ => hall, fun _ => rfl⟩
    have hmem : ∀ q ∈ us, q ∈ vs := fun q hq => (hins q hq).resolve_right (hall q hq)
    unfold GeoCfg.polygonIsConvex
    rw [convexHull_flat (sqrt := sqrt) (sort := sort) g h1D P.flat hne, ok_bind, assert_true ⟨rfl, hpl⟩, ok_bind]
    exact isConvexLoop_true fun q hq => vertex_border hs h0 hT h1 h1D hf hvn (hmem q hq) (hedge q hq)
  · refine ⟨ids, vs, false, e, hx, ?_, fun h => absurd h (by simp), fun h => absurd h hall⟩
    push Not at hall
    obtain ⟨q, hq, hin⟩ := hall
    refine c84_concave g h0 h1D hT h1 hs P.flat hpl hf ⟨q, hq, fun v a b he => ?_⟩
    have ha := hsub a (List.mem_of_getElem? he.1)
    have hb := hsub b (List.mem_of_getElem? he.2)
    have hab : a ≠ b := by
      intro h
      obtain ⟨hv, ev⟩ := List.getElem?_eq_some_iff.1 he.1
      obtain ⟨hw, ew⟩ := List.getElem?_eq_some_iff.1 he.2
      have := (List.Nodup.getElem_inj_iff hvn).1 (ev.trans (h.trans ew.symm))
      rcases Nat.lt_or_ge (v + 1) vs.length with h' | h'
      · rw [Nat.mod_eq_of_lt h'] at this; omega
      · have h4 : v + 1 = vs.length := by omega
        rw [h4, Nat.mod_self] at this; omega
    have hpos := hin a b (xy_ne (P.flat a ha) (P.flat b hb) hab) (fun r hr => hedge r hr v a b he)
    exact (P.lines a ha b hb q hq).resolve_left hpos.ne'

theorem cornersAre_unique {p : Nat} {ps ps' : List (V3 K)} (h : CornersAre m p ps) (h' : CornersAre m p ps') :
    ps = ps' := ok.inj ((cellPoints_ok.2 h).symm.trans (cellPoints_ok.2 h'))

theorem isUnaligned_unique {ps us us' : List (V3 K)} (h2 : 2 < ps.length) (h : IsUnaligned g sqrt ps us)
    (h' : IsUnaligned g sqrt ps us') : us = us' := by
  obtain ⟨i, e1, e2⟩ := unaligned_ok h2 h
  obtain ⟨i', e1', e2'⟩ := unaligned_ok h2 h'
  obtain rfl := ok.inj (e1.symm.trans e1')
  exact ok.inj (e2.symm.trans e2')

theorem checkConvexity_ok (h0 : 0 ≤ g.minTolerance) (h1D : 0 ≤ g.tolerance1D) (hT : g.tol1D < 1 / 2)
    (h1 : g.tolSq ≤ 1) (hs : IsSqrt sqrt)
    {sort : (HullPt K → HullPt K → Bool) → List (HullPt K) → List (HullPt K)} (hsort : IsSort sort)
    (hp : CellsProper g sqrt m) : g.checkConvexity sqrt sort m = ok () ↔ NoVertexInside g sqrt m := by
  have key : ∀ p, p < m.num .d2 → ∃ ps us b, CornersAre m p ps ∧ 2 < ps.length ∧ IsUnaligned g sqrt ps us ∧
      (b = true ↔ ∀ q ∈ us, ¬ StrictlyInside us q) ∧
      (do
        let ps ← m.cellPoints p
        let filter ← g.unalignedPoints sqrt ps 0
        let us ← extractPoints ps filter
        let hull ← g.convexHull sqrt sort us true
        let hs ← extractPoints us hull
        let convex ← g.polygonIsConvex sqrt us hs
        assert (convex = true)) = (assert (b = true) : Res PUnit) := by
    intro p hlt
    obtain ⟨ps, us, hc, h2, hu, P⟩ := hp p hlt
    obtain ⟨ids, e1, e2⟩ := unaligned_ok h2 hu
    obtain ⟨hi, hull, b, e3, e4, e5, hb⟩ := hull_verdict h0 h1D hT h1 hs hsort P
    refine ⟨ps, us, b, hc, h2, hu, hb, ?_⟩
    rw [cellPoints_ok.2 hc, ok_bind, e1, ok_bind, e2, ok_bind, e3, ok_bind, e4, ok_bind, e5, ok_bind]
  unfold GeoCfg.checkConvexity
  rw [forEach0_ok]
  constructor
  · intro H p ps us hc hu
    have hlt : p < m.num .d2 := by obtain ⟨vs, hvs, -⟩ := hc; exact row_lt hvs
    obtain ⟨ps', us', b, hc', h2, hu', hb, e⟩ := key p hlt
    obtain rfl := cornersAre_unique hc hc'
    obtain rfl := isUnaligned_unique h2 hu hu'
    exact hb.1 (assert_eq_ok.1 (e.symm.trans (H p hlt)))
  · intro H p hlt
    obtain ⟨ps, us, b, hc, h2, hu, hb, e⟩ := key p hlt
    exact e.trans (assert_eq_ok.2 (hb.2 (H p ps us hc hu)))

end Verif
