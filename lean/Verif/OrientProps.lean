import Verif.OrientModel
import Verif.HullProps
import Verif.PointPosProps
import Mathlib.Tactic.IntervalCases

/-
Properties C83 and C84: the orientation of a polygon and the check of its convexity.
-/
namespace Verif

open Res

variable {K : Type} [Field K] [LinearOrder K] [IsStrictOrderedRing K]

/-! ### C83: the orientation -/

/-- What `PolygonOrientation` compares: the two indices after the smallest one. -/
theorem orientation_eq {l : List Nat} (hl : 2 < l.length) {v m a b : Nat} (hnd : l.Nodup) (hm : l[v]? = some m)
    (hmin : ∀ x ∈ l, m ≤ x) (ha : l[(v + 1) % l.length]? = some a)
    (hb : l[((v + 1) % l.length + 1) % l.length]? = some b) :
    polygonOrientation l = ok (if a < b then .counterClockwise else .clockwise) := by
  unfold polygonOrientation
  rw [assert_true hl, ok_bind]
  have e : l.min? = some m := List.min?_eq_some_iff.2 ⟨List.mem_of_getElem? hm, hmin⟩
  rw [e]
  dsimp only
  obtain ⟨hv, e1⟩ := List.getElem?_eq_some_iff.1 hm
  have e2 : l.idxOf m = v := by rw [← e1]; exact hnd.idxOf_getElem v hv
  rw [e2, vget_eq_ok.2 ha, ok_bind, vget_eq_ok.2 hb, ok_bind]

/-- The positions of the elements in a rotated list. -/
theorem rotate_positions {α : Type} (s : List α) (k : Nat) :
    (∀ j, j < s.length → ((s.rotate k)[(j + (s.length - k % s.length)) % s.length]? = s[j]?)) ∧
    ∀ j, ((j + (s.length - k % s.length)) % s.length + 1) % (s.rotate k).length =
      (j + 1 + (s.length - k % s.length)) % s.length := by
  constructor
  · intro j hj
    have hpos : 0 < s.length := by omega
    have hk := Nat.mod_lt k hpos
    have h1 : (j + (s.length - k % s.length)) % s.length < (s.rotate k).length := by
      rw [List.length_rotate]; exact Nat.mod_lt _ hpos
    rw [List.getElem?_eq_getElem h1, List.getElem_rotate, ← List.getElem?_eq_getElem]
    congr 1
    rw [Nat.mod_add_mod, ← Nat.add_mod_mod]
    have e : j + (s.length - k % s.length) + k % s.length = j + s.length := by omega
    rw [e, Nat.add_mod_right, Nat.mod_eq_of_lt hj]
  · intro j
    rw [List.length_rotate, Nat.mod_add_mod]
    congr 1
    omega

/-- C83 for indices in increasing order up to a rotation: counter clockwise. -/
theorem c83_increasing {l s : List Nat} (hr : s.IsRotated l) (hs : s.Pairwise (· < ·)) (hl : 2 < l.length) :
    polygonOrientation l = ok .counterClockwise := by
  obtain ⟨k, rfl⟩ := hr
  rw [List.length_rotate] at hl
  have hnd : (s.rotate k).Nodup := List.nodup_rotate.2 (hs.imp fun h => h.ne)
  have hlt := List.pairwise_iff_getElem.1 hs
  obtain ⟨hget, step⟩ := rotate_positions s k
  have g0 := hget 0 (by omega)
  have g1 := hget 1 (by omega)
  have g2 := hget 2 (by omega)
  have g0 := g0.trans (List.getElem?_eq_getElem (by omega))
  have g1 := g1.trans (List.getElem?_eq_getElem (by omega))
  have g2 := g2.trans (List.getElem?_eq_getElem (by omega))
  have := orientation_eq (l := s.rotate k) (by rw [List.length_rotate]; exact hl) hnd g0 (fun x hx => ?_)
    (a := s[1]) (b := s[2]) (by rw [step 0]; exact g1) (by rw [step 0, step 1]; exact g2)
  · rw [this, if_pos (hlt 1 2 (by omega) (by omega) (by omega))]
  · obtain ⟨i, hi, rfl⟩ := List.getElem_of_mem (List.mem_rotate.1 hx)
    rcases Nat.eq_zero_or_pos i with rfl | hi0
    · exact le_rfl
    · exact (hlt 0 i (by omega) hi hi0).le

/-- C83 for indices in decreasing order up to a rotation: clockwise. -/
theorem c83_decreasing {l s : List Nat} (hr : s.IsRotated l) (hs : s.Pairwise (· > ·)) (hl : 2 < l.length) :
    polygonOrientation l = ok .clockwise := by
  obtain ⟨k, rfl⟩ := hr
  rw [List.length_rotate] at hl
  have hnd : (s.rotate k).Nodup := List.nodup_rotate.2 (hs.imp fun h => h.ne')
  have hlt := List.pairwise_iff_getElem.1 hs
  obtain ⟨hget, step⟩ := rotate_positions s k
  have g0 := hget (s.length - 1) (by omega)
  have g1 := hget 0 (by omega)
  have g2 := hget 1 (by omega)
  have g0 := g0.trans (List.getElem?_eq_getElem (by omega))
  have g1 := g1.trans (List.getElem?_eq_getElem (by omega))
  have g2 := g2.trans (List.getElem?_eq_getElem (by omega))
  have e1 : (s.length - 1 + 1 + (s.length - k % s.length)) % s.length =
      (0 + (s.length - k % s.length)) % s.length := by
    have : s.length - 1 + 1 + (s.length - k % s.length) = 0 + (s.length - k % s.length) + s.length := by omega
    rw [this, Nat.add_mod_right]
  have := orientation_eq (l := s.rotate k) (by rw [List.length_rotate]; exact hl) hnd g0 (fun x hx => ?_)
    (a := s[0]) (b := s[1]) (by rw [step, e1]; exact g1) (by rw [step, e1, step 0]; exact g2)
  · rw [this, if_neg (not_lt.2 (hlt 0 1 (by omega) (by omega) (by omega)).le)]
  · obtain ⟨i, hi, rfl⟩ := List.getElem_of_mem (List.mem_rotate.1 hx)
    rcases Nat.lt_or_ge i (s.length - 1) with hi0 | hi0
    · exact (hlt i (s.length - 1) hi (by omega) hi0).le
    · have : i = s.length - 1 := by omega
      subst this
      exact le_rfl

/-- The sign of the first three vertices of the hull after the smallest index. -/
theorem orientation_hull {pts vs : List (V3 K)} {ids : List Nat} (hi : ids.Nodup)
    (hsel : IsSelection pts ids vs) (hc : StrictlyConvex vs) : ∃ (i j k : Nat) (a b c : V3 K), i < j ∧ i < k ∧ j ≠ k ∧
      pts[i]? = some a ∧ pts[j]? = some b ∧ pts[k]? = some c ∧ 0 < area2 a b c ∧
      polygonOrientation ids = ok (if j < k then .counterClockwise else .clockwise) := by
  have hlen : ids.length = vs.length := by
    have := congrArg List.length hsel
    simpa using this
  have hl : 2 < ids.length := by rw [hlen]; exact hc.1
  have hne : ids ≠ [] := by rintro rfl; simp at hl
  obtain ⟨m, hm⟩ : ∃ m, ids.min? = some m := by
    cases h : ids.min? with
    | none => exact absurd (List.min?_eq_none_iff.1 h) hne
    | some m => exact ⟨m, rfl⟩
  obtain ⟨hmem, hmin⟩ := List.min?_eq_some_iff.1 hm
  obtain ⟨v, hv, ev⟩ := List.getElem_of_mem hmem
  have hget : ∀ p, (hp : p < ids.length) → ∃ q, vs[p]? = some q ∧ pts[ids[p]]? = some q := by
    intro p hp
    have h1 := congrArg (fun l => l[p]?) hsel
    simp only [List.getElem?_map] at h1
    rw [List.getElem?_eq_getElem hp, List.getElem?_eq_getElem (by omega : p < vs.length)] at h1
    simp only [Option.map_some, Option.some.injEq] at h1
    exact ⟨_, List.getElem?_eq_getElem (by omega), h1⟩
  have h1 : (v + 1) % ids.length < ids.length := Nat.mod_lt _ (by omega)
  have h2 : ((v + 1) % ids.length + 1) % ids.length < ids.length := Nat.mod_lt _ (by omega)
  have cyc : (v + 1) % ids.length ≠ v ∧ ((v + 1) % ids.length + 1) % ids.length ≠ v ∧
      ((v + 1) % ids.length + 1) % ids.length ≠ (v + 1) % ids.length := by
    rcases Nat.lt_or_ge (v + 1) ids.length with h | h
    · rw [Nat.mod_eq_of_lt h]
      rcases Nat.lt_or_ge (v + 1 + 1) ids.length with h' | h'
      · rw [Nat.mod_eq_of_lt h']; omega
      · have : v + 1 + 1 = ids.length := by omega
        rw [this, Nat.mod_self]; omega
    · have : v + 1 = ids.length := by omega
      rw [this, Nat.mod_self, Nat.mod_eq_of_lt (by omega)]
      omega
  obtain ⟨c1, c2, c3⟩ := cyc
  obtain ⟨a, va, pa⟩ := hget v hv
  obtain ⟨b, vb, pb⟩ := hget _ h1
  obtain ⟨c, vc, pc⟩ := hget _ h2
  have hi1 : m ≠ ids[(v + 1) % ids.length] := by
    rw [← ev]; intro e; exact c1 ((List.Nodup.getElem_inj_iff hi).1 e).symm
  have hi2 : m ≠ ids[((v + 1) % ids.length + 1) % ids.length] := by
    rw [← ev]; intro e; exact c2 ((List.Nodup.getElem_inj_iff hi).1 e).symm
  have hi3 : ids[(v + 1) % ids.length] ≠ ids[((v + 1) % ids.length + 1) % ids.length] := by
    intro e; exact c3 ((List.Nodup.getElem_inj_iff hi).1 e).symm
  refine ⟨m, ids[(v + 1) % ids.length], ids[((v + 1) % ids.length + 1) % ids.length], a, b, c,
    lt_of_le_of_ne (hmin _ (List.getElem_mem h1)) hi1, lt_of_le_of_ne (hmin _ (List.getElem_mem h2)) hi2, hi3,
    by rw [← ev]; exact pa, pb, pc, ?_, ?_⟩
  · refine hc.2 v a b ⟨va, by rw [← hlen]; exact vb⟩ _ c vc c2 ?_
    rw [← hlen]; exact c3
  · refine orientation_eq hl hi (by rw [List.getElem?_eq_getElem hv, ev]) hmin
      (List.getElem?_eq_getElem h1) (List.getElem?_eq_getElem h2)

/-- C83 for convex polygons: if any three vertices, in their order, turn left or are aligned, the orientation found
from the convex hull is counter clockwise; if they turn right or are aligned, it is clockwise.
Partial: for polygons that are not convex the same holds if the vertices of the hull are, in the order of the
polygon, increasing or decreasing up to a rotation (`c83_increasing`, `c83_decreasing`); that this is so for all
polygons without self-intersections is not proved. -/
theorem c83_convex_partial (g : GeoCfg K) (h0 : 0 ≤ g.minTolerance) (h1D : 0 ≤ g.tolerance1D) {sqrt : K → K}
    {sort : (HullPt K → HullPt K → Bool) → List (HullPt K) → List (HullPt K)} (hsort : IsSort sort)
    {pts : List (V3 K)} (hr : HullResolved g sqrt pts) (hz : ∀ q ∈ pts, q.z = 0) (hnd : pts.Nodup)
    (hna : NotAligned pts) :
    (WeaklyConvex pts →
      (do let hull ← g.convexHull sqrt sort pts false; polygonOrientation hull) = ok .counterClockwise) ∧
    (WeaklyConvex pts.reverse →
      (do let hull ← g.convexHull sqrt sort pts false; polygonOrientation hull) = ok .clockwise) := by
  have hn : 1 < pts.length := by
    obtain ⟨a, ha, b, hb, c, hc, hne⟩ := hna
    by_contra hlen
    have : ∀ p ∈ pts, ∀ q ∈ pts, p = q := by
      match pts, hlen with
      | [], _ => simp
      | [x], _ => simp
      | _ :: _ :: _, h => simp at h
    rw [this a ha c hc, this b hb c hc] at hne
    exact hne (by unfold area2; ring)
  obtain ⟨ids, vs, h1, h2, h3, -, h5⟩ := c82_hull_partial g h0 h1D hsort hr hz hnd hn
  obtain ⟨i, j, k, a, b, c, hij, hik, hjk, pa, pb, pc, hpos, ho⟩ := orientation_hull h2 h3 (h5 hna)
  rw [h1, ok_bind, ho]
  constructor
  · intro hc
    rw [if_pos]
    by_contra hlt
    have := hc i k j a c b hik (by omega) pa pc pb
    have e : area2 a c b = -area2 a b c := by unfold area2; ring
    linarith
  · intro hc
    rw [if_neg]
    intro hlt
    have hk := (List.getElem?_eq_some_iff.1 pc).1
    have rev : ∀ t q, t < pts.length → pts[t]? = some q → pts.reverse[pts.length - 1 - t]? = some q := by
      intro t q ht hq
      rw [List.getElem?_reverse (by omega)]
      have : pts.length - 1 - (pts.length - 1 - t) = t := by omega
      rw [this, hq]
    have := hc (pts.length - 1 - k) (pts.length - 1 - j) (pts.length - 1 - i) c b a (by omega) (by omega)
      (rev k c hk pc) (rev j b (by omega) pb) (rev i a (by omega) pa)
    have e : area2 c b a = -area2 a b c := by unfold area2; ring
    linarith

/-! ### C84: the check of the convexity -/

theorem isConvexLoop_true {g : GeoCfg K} {sqrt : K → K} {hull : List (V3 K)} {l : List (V3 K)}
    (h : ∀ q ∈ l, ∃ r, g.pointPolygonPosition sqrt q hull = ok r ∧ r.isBorder = true) :
    g.polygonIsConvexLoop sqrt hull l = ok true := by
  induction l with
  | nil => rfl
  | cons q l ih =>
    obtain ⟨r, e, hb⟩ := h q (by simp)
    rw [GeoCfg.polygonIsConvexLoop, e, ok_bind, if_pos hb]
    exact ih fun q hq => h q (by simp [hq])

theorem isConvexLoop_false {g : GeoCfg K} {sqrt : K → K} {hull : List (V3 K)} {l : List (V3 K)}
    (h : ∀ q ∈ l, ∃ r, g.pointPolygonPosition sqrt q hull = ok r)
    (hex : ∃ q ∈ l, ∃ r, g.pointPolygonPosition sqrt q hull = ok r ∧ r.isBorder = false) :
    g.polygonIsConvexLoop sqrt hull l = ok false := by
  induction l with
  | nil => simp at hex
  | cons q l ih =>
    obtain ⟨r, e⟩ := h q (by simp)
    rw [GeoCfg.polygonIsConvexLoop, e, ok_bind]
    by_cases hb : r.isBorder = true
    · rw [if_pos hb]
      refine ih (fun q hq => h q (by simp [hq])) ?_
      obtain ⟨q', hq', r', e', hb'⟩ := hex
      rcases List.mem_cons.1 hq' with rfl | hq'
      · rw [e] at e'
        obtain rfl := ok.inj e'
        rw [hb] at hb'
        cases hb'
      · exact ⟨q', hq', r', e', hb'⟩
    · rw [if_neg hb]

/-- A vertex of a convex polygon is on its border. -/
theorem vertex_border {sqrt : K → K} (hs : IsSqrt sqrt) {g : GeoCfg K} (h0 : 0 ≤ g.minTolerance)
    (hT : g.tol1D < 1 / 2) (h1 : g.tolSq ≤ 1) (ht : 0 ≤ g.tolerance1D) {vs : List (V3 K)} (hf : FlatPolygon vs)
    (hnd : vs.Nodup) {q : V3 K} (hq : q ∈ vs) (hin : ∀ v a b, IsEdge vs v a b → 0 ≤ area2 a b q) :
    ∃ r, g.pointPolygonPosition sqrt q vs = ok r ∧ r.isBorder = true := by
  have hqz := hf.2 q hq
  obtain ⟨r, e, hr⟩ := c69_not_outside sqrt g vs q hs h0 hT h1 ht hf hqz hin
  refine ⟨r, e, ?_⟩
  cases r with
  | outside => exact absurd rfl hr
  | borderEdge i => rfl
  | borderVertex i => rfl
  | inside =>
    exfalso
    obtain ⟨v, hv, ev⟩ := List.getElem_of_mem hq
    obtain ⟨a, b, he⟩ := isEdge_of_lt vs v hv
    have ha : a = q := by
      have := he.1
      rw [List.getElem?_eq_getElem hv, ev] at this
      exact (Option.some.inj this).symm
    subst ha
    have hab : a ≠ b := by
      intro h
      have h2 := he.2
      obtain ⟨hw, ew⟩ := List.getElem?_eq_some_iff.1 h2
      have := (List.Nodup.getElem_inj_iff hnd).1 (ev.trans (h.trans ew.symm))
      have hl := hf.1
      rcases Nat.lt_or_ge (v + 1) vs.length with h' | h'
      · rw [Nat.mod_eq_of_lt h'] at this; omega
      · have h4 : v + 1 = vs.length := by omega
        rw [h4, Nat.mod_self] at this; omega
    rcases polygon_cases hs h0 hT h1 ht hf hqz with ⟨-, i2⟩ | ⟨w, c, d, s, r, hw, i1, i2, i3⟩
    · obtain ⟨s, j1, j2⟩ := i2 v a b he
      have hon : g.OnLine a b a := by
        left; rw [dist2_self]; exact g.tolSq_nonneg
      have hd : dist2 a b ≠ 0 := by
        intro h
        have h3 := hf.edge he
        rcases xy_ne h3.1 h3.2 hab with h' | h'
        · have : 0 < (a.x - b.x) * (a.x - b.x) := mul_self_pos.2 (sub_ne_zero.2 h')
          unfold dist2 at h
          nlinarith [mul_self_nonneg (a.y - b.y), mul_self_nonneg (a.z - b.z)]
        · have : 0 < (a.y - b.y) * (a.y - b.y) := mul_self_pos.2 (sub_ne_zero.2 h')
          unfold dist2 at h
          nlinarith [mul_self_nonneg (a.x - b.x), mul_self_nonneg (a.z - b.z)]
      have := ((c68_on_line sqrt hs g h0 hT a a b hon).2 hd).2.1.2 (by
        have : coordOn a b a = 0 := by simp [coordOn, dot4]
        rw [this, abs_zero]; exact g.tol1D_nonneg h0)
      rw [this] at j1
      cases j1
      simp [verdict] at j2
    · rw [e] at i3
      obtain rfl := ok.inj i3
      cases s <;> simp [verdict] at i2

/-- C84, convex polygons: if any three vertices, in their order, turn left or are aligned, `PolygonIsConvex` with
the convex hull, in which aligned points are kept, is true.
Partial: in exact arithmetic, for points that the tolerances tell apart; and the converse needs a polygon without
self-intersections, see `c84_order_violated`. -/
theorem c84_convex_partial (g : GeoCfg K) (h0 : 0 ≤ g.minTolerance) (h1D : 0 ≤ g.tolerance1D)
    (hT : g.tol1D < 1 / 2) (h1 : g.tolSq ≤ 1) {sqrt : K → K} (hs : IsSqrt sqrt)
    {sort : (HullPt K → HullPt K → Bool) → List (HullPt K) → List (HullPt K)} (hsort : IsSort sort)
    {pts : List (V3 K)} (hr : HullResolved g sqrt pts) (hz : ∀ q ∈ pts, q.z = 0) (hnd : pts.Nodup)
    (hna : NotAligned pts) (hc : WeaklyConvex pts) :
    ∃ ids vs, g.convexHull sqrt sort pts true = ok ids ∧ IsSelection pts ids vs ∧
      g.polygonIsConvex sqrt pts vs = ok true := by
  obtain ⟨ids, vs, e, hi, hsel, -, hlen, -, hedge, hins⟩ :=
    c82_hull_collinear_partial g h0 h1D hsort hr hz hnd hna
  refine ⟨ids, vs, e, hsel, ?_⟩
  have hsub : ∀ q ∈ vs, q ∈ pts := by
    intro q hq
    have : some q ∈ ids.map (fun i => pts[i]?) := by rw [hsel]; exact List.mem_map_of_mem hq
    obtain ⟨i, -, e⟩ := List.mem_map.1 this
    exact List.mem_of_getElem? e
  have hvn := selection_nodup hnd hi hsel
  have hpl : 2 < pts.length := lt_of_lt_of_le hlen (List.Subperm.length_le (hvn.subperm hsub))
  have hf : FlatPolygon vs := ⟨hlen, fun q hq => hz q (hsub q hq)⟩
  have hne : pts ≠ [] := by rintro rfl; simp at hpl
  have hmem : ∀ q ∈ pts, q ∈ vs := by
    intro q hq
    rcases hins q hq with h | h
    · exact h
    · exfalso
      -- the line through `q` and the next vertex
      obtain ⟨v, hv, ev⟩ := List.getElem_of_mem hq
      obtain ⟨a, b, he⟩ := isEdge_of_lt pts v hv
      have ha : a = q := by
        have := he.1
        rw [List.getElem?_eq_getElem hv, ev] at this
        exact (Option.some.inj this).symm
      subst ha
      have hab : a ≠ b := by
        intro h
        obtain ⟨hw, ew⟩ := List.getElem?_eq_some_iff.1 he.2
        have := (List.Nodup.getElem_inj_iff hnd).1 (ev.trans (h.trans ew.symm))
        rcases Nat.lt_or_ge (v + 1) pts.length with h' | h'
        · rw [Nat.mod_eq_of_lt h'] at this; omega
        · have h4 : v + 1 = pts.length := by omega
          rw [h4, Nat.mod_self] at this; omega
      have := h a b (xy_ne (hz _ hq) (hz _ (List.mem_of_getElem? he.2)) hab) (fun r hr' => by
        obtain ⟨i, hi', ei⟩ := List.getElem_of_mem hr'
        have hri : pts[i]? = some r := by rw [List.getElem?_eq_getElem hi', ei]
        have T : ∀ (i j k : Nat) x y z, i < j → j < k → pts[i]? = some x → pts[j]? = some y → pts[k]? = some z →
          0 ≤ area2 x y z := hc
        obtain ⟨ha', hb'⟩ := he
        by_cases i1 : i = v
        · subst i1
          rw [hri] at ha'
          obtain rfl := Option.some.inj ha'
          exact le_of_eq (by unfold area2; ring)
        · by_cases i2 : i = (v + 1) % pts.length
          · rw [← i2, hri] at hb'
            obtain rfl := Option.some.inj hb'
            exact le_of_eq (by unfold area2; ring)
          · rcases Nat.lt_or_ge (v + 1) pts.length with hv1 | hv1
            · rw [Nat.mod_eq_of_lt hv1] at hb' i2
              rcases Nat.lt_or_ge i v with hiv | hiv
              · have := T i v (v + 1) r a b hiv (by omega) hri ha' hb'
                rwa [area2_rot]
              · exact T v (v + 1) i a b r (by omega) (by omega) ha' hb' hri
            · have e : v + 1 = pts.length := by omega
              rw [e, Nat.mod_self] at hb' i2
              have := T 0 i v b r a (by omega) (by omega) hb' hri ha'
              rwa [area2_rot] at this)
      have e0 : area2 a b a = 0 := by unfold area2; ring
      rw [e0] at this
      exact lt_irrefl _ this
  unfold GeoCfg.polygonIsConvex
  rw [convexHull_flat (sqrt := sqrt) (sort := sort) g h1D hz hne, ok_bind, assert_true ⟨rfl, hpl⟩, ok_bind]
  exact isConvexLoop_true fun q hq => vertex_border hs h0 hT h1 h1D hf hvn (hmem q hq) (hedge q hq)

/-- C84, other polygons: if a vertex is away from the lines of all edges of the hull, `PolygonIsConvex` is false.
-/
theorem c84_concave (g : GeoCfg K) (h0 : 0 ≤ g.minTolerance) (h1D : 0 ≤ g.tolerance1D) (hT : g.tol1D < 1 / 2)
    (h1 : g.tolSq ≤ 1) {sqrt : K → K} (hs : IsSqrt sqrt) {pts vs : List (V3 K)} (hz : ∀ q ∈ pts, q.z = 0)
    (hp : 2 < pts.length) (hf : FlatPolygon vs)
    (hex : ∃ q ∈ pts, ∀ v a b, IsEdge vs v a b → ¬ g.OnLine a b q) :
    g.polygonIsConvex sqrt pts vs = ok false := by
  have hne : pts ≠ [] := by rintro rfl; simp at hp
  unfold GeoCfg.polygonIsConvex
  rw [convexHull_flat (sqrt := sqrt) (sort := fun _ l => l) g h1D hz hne, ok_bind, assert_true ⟨rfl, hp⟩, ok_bind]
  refine isConvexLoop_false (fun q hq => ?_) ?_
  · rcases polygon_cases hs h0 hT h1 h1D hf (hz q hq) with ⟨i1, -⟩ | ⟨v, a, b, s, r, -, -, -, i3⟩
    · exact ⟨_, i1⟩
    · exact ⟨_, i3⟩
  · obtain ⟨q, hq, hoff⟩ := hex
    rcases c69_off_lines sqrt g vs q hs h0 hT h1 h1D hf (hz q hq) hoff with ⟨e, -⟩ | ⟨e, -⟩
    · exact ⟨q, hq, _, e, rfl⟩
    · exact ⟨q, hq, _, e, rfl⟩

/-- C84 does not hold for polygons with self-intersections: the vertices of a convex polygon in any order are
accepted. -/
theorem c84_order_violated (g : GeoCfg K) (h0 : 0 ≤ g.minTolerance) (h1D : 0 ≤ g.tolerance1D)
    (hT : g.tol1D < 1 / 2) (h1 : g.tolSq ≤ 1) {sqrt : K → K} (hs : IsSqrt sqrt) {pts vs : List (V3 K)}
    (hvs : ConvexPolygon vs) (hnd : vs.Nodup) (hp : pts.Perm vs) : g.polygonIsConvex sqrt pts vs = ok true := by
  have hz : ∀ q ∈ pts, q.z = 0 := fun q hq => hvs.1.2 q (hp.mem_iff.1 hq)
  have hl : 2 < pts.length := by rw [hp.length_eq]; exact hvs.1.1
  have hne : pts ≠ [] := by rintro rfl; simp at hl
  unfold GeoCfg.polygonIsConvex
  rw [convexHull_flat (sqrt := sqrt) (sort := fun _ l => l) g h1D hz hne, ok_bind, assert_true ⟨rfl, hl⟩, ok_bind]
  exact isConvexLoop_true fun q hq => vertex_border hs h0 hT h1 h1D hvs.1 hnd (hp.mem_iff.1 hq)
    fun v a b he => hvs.2 v a b he q (hp.mem_iff.1 hq)

/-- C83: a hull of fewer than three points has no orientation and stops at an assertion. -/
theorem c83_small {l : List Nat} (hl : l.length ≤ 2) : polygonOrientation l = abort := by
  unfold polygonOrientation
  rw [assert_false (by omega)]
  rfl

/-- C84: fewer than three vertices, or vertices off the plane, stop at an assertion. -/
theorem c84_rejects (g : GeoCfg K) (sqrt : K → K) (pts vs : List (V3 K))
    (h : pts.length ≤ 2 ∨ ∃ p ∈ pts, g.tolerance1D < |p.z|) : g.polygonIsConvex sqrt pts vs = abort := by
  unfold GeoCfg.polygonIsConvex GeoCfg.pointsAre2D
  by_cases h0 : 0 < pts.length
  · rw [assert_true h0, ok_bind, ok_bind, assert_false, abort_bind]
    rintro ⟨h1, h2⟩
    rcases h with h | ⟨p, hp, hlt⟩
    · omega
    · rw [List.all_eq_true] at h1
      exact absurd hlt (not_lt.2 (of_decide_eq_true (h1 p hp)))
  · rw [assert_false h0, abort_bind, abort_bind]

/-! ### Examples -/

/-- The hypotheses of `c83_increasing` and `c83_decreasing`. -/
example : polygonOrientation [5, 7, 0, 2, 3] = ok .counterClockwise ∧
    polygonOrientation [2, 0, 7, 5, 3] = ok .clockwise :=
  ⟨c83_increasing (s := [0, 2, 3, 5, 7]) ⟨3, rfl⟩ (by decide) (by decide),
   c83_decreasing (s := [7, 5, 3, 2, 0]) ⟨3, rfl⟩ (by decide) (by decide)⟩

/-- The hypotheses of `c83_convex_partial` and `c84_convex_partial`: a triangle with the midpoint of a side, with
the default tolerances. -/
example : HullResolved defaultGeo Real.sqrt [⟨0, 0, 0⟩, ⟨1, 0, 0⟩, ⟨2, 0, 0⟩, ⟨0, 2, 0⟩] ∧
    NotAligned ([⟨0, 0, 0⟩, ⟨1, 0, 0⟩, ⟨2, 0, 0⟩, ⟨0, 2, 0⟩] : List (V3 ℝ)) ∧
    WeaklyConvex ([⟨0, 0, 0⟩, ⟨1, 0, 0⟩, ⟨2, 0, 0⟩, ⟨0, 2, 0⟩] : List (V3 ℝ)) ∧
    defaultGeo.tol1D < 1 / 2 ∧ defaultGeo.tolSq ≤ 1 ∧ IsSqrt Real.sqrt := by
  refine ⟨hullResolved_grid ?_, ?_, ?_, ?_, ?_, isSqrt_real⟩
  · intro p hp
    simp only [List.mem_cons, List.not_mem_nil, or_false] at hp
    rcases hp with rfl | rfl | rfl | rfl
    · exact ⟨0, 0, by norm_num, by norm_num, by simp⟩
    · exact ⟨1, 0, by norm_num, by norm_num, by simp⟩
    · exact ⟨2, 0, by norm_num, by norm_num, by simp⟩
    · exact ⟨0, 2, by norm_num, by norm_num, by simp⟩
  · exact ⟨⟨0, 0, 0⟩, by simp, ⟨2, 0, 0⟩, by simp, ⟨0, 2, 0⟩, by simp, by norm_num [area2]⟩
  · refine triple_get ?_
    simp only [List.triplewise_cons, List.pairwise_cons, List.mem_cons, List.not_mem_nil, or_false]
    norm_num [area2]
  · rw [defaultGeo_tol1D]; norm_num
  · rw [defaultGeo_tolSq]; norm_num

/-- `c84_order_violated` applies to the unit square with two vertices swapped, whose sides cross. -/
example : defaultGeo.polygonIsConvex Real.sqrt [⟨0, 0, 0⟩, ⟨1, 1, 0⟩, ⟨1, 0, 0⟩, ⟨0, 1, 0⟩]
    [⟨0, 0, 0⟩, ⟨1, 0, 0⟩, ⟨1, 1, 0⟩, ⟨0, 1, 0⟩] = ok true := by
  refine c84_order_violated defaultGeo (by norm_num [defaultGeo]) (by norm_num [defaultGeo])
    (by rw [defaultGeo_tol1D]; norm_num) (by rw [defaultGeo_tolSq]; norm_num) isSqrt_real ⟨⟨by simp, by simp⟩, ?_⟩
    (by simp) ((List.Perm.swap _ _ _).cons _)
  intro v a b he c hc
  have hv : v < 4 := (List.getElem?_eq_some_iff.1 he.1).1
  simp only [List.mem_cons, List.not_mem_nil, or_false] at hc
  obtain ⟨h1, h2⟩ := he
  interval_cases v <;> simp at h1 h2 <;> subst h1 h2 <;> rcases hc with rfl | rfl | rfl | rfl <;> norm_num [area2]

end Verif
