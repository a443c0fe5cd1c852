import Verif.HullModelLemmas2
import Verif.IntersectProps
import Mathlib.Data.List.Sort

/-
Property C82: the convex hull of points of the plane.
-/
namespace Verif

open Res

variable {K : Type} [Field K] [LinearOrder K] [IsStrictOrderedRing K]

/-! ### Lemmas -/

theorem convexHull_flat (g : GeoCfg K) (h1D : 0 ≤ g.tolerance1D) {sqrt : K → K}
    {sort : (HullPt K → HullPt K → Bool) → List (HullPt K) → List (HullPt K)} {pts : List (V3 K)}
    (hz : ∀ q ∈ pts, q.z = 0) (hne : pts ≠ []) : g.pointsAre2D pts = ok true := by
  unfold GeoCfg.pointsAre2D
  rw [assert_true (List.length_pos_iff.2 hne), ok_bind]
  congr 1
  rw [List.all_eq_true]
  intro q hq
  simp [hz q hq, h1D]

theorem triple_get {α : Type} {R : α → α → α → Prop} {l : List α} (h : l.Triplewise R) :
    ∀ (i j k : Nat) a b c, i < j → j < k → l[i]? = some a → l[j]? = some b → l[k]? = some c → R a b c := by
  induction h with
  | nil => intro i j k a b c _ _ h; simp at h
  | cons hp _ ih =>
    intro i j k a b c hij hjk ha hb hc
    obtain ⟨j, rfl⟩ : ∃ j', j = j' + 1 := ⟨j - 1, by omega⟩
    obtain ⟨k, rfl⟩ : ∃ k', k = k' + 1 := ⟨k - 1, by omega⟩
    rw [List.getElem?_cons_succ] at hb hc
    rcases Nat.eq_zero_or_pos i with rfl | hi
    · obtain rfl := Option.some.inj ha
      obtain ⟨hj', ej⟩ := List.getElem?_eq_some_iff.1 hb
      obtain ⟨hk', ek⟩ := List.getElem?_eq_some_iff.1 hc
      rw [← ej, ← ek]
      exact (List.pairwise_iff_getElem.1 hp) j k hj' hk' (by omega)
    · obtain ⟨i, rfl⟩ : ∃ i', i = i' + 1 := ⟨i - 1, by omega⟩
      rw [List.getElem?_cons_succ] at ha
      exact ih i j k a b c (by omega) (by omega) ha hb hc

/-- The triples of the stack and of the lowest point. -/
theorem stack_triples {R : K → Prop} {p : V3 K} {u : List (V3 K)} (h2 : u.Pairwise fun x y => R (cw p y x))
    (h3 : u.Triplewise fun x y z => R (area2 x y z)) : (u ++ [p]).Triplewise fun x y z => R (area2 x y z) := by
  induction u with
  | nil => simp
  | cons x u ih =>
    rw [List.pairwise_cons] at h2
    rw [List.triplewise_cons] at h3
    rw [List.cons_append, List.triplewise_cons]
    refine ⟨?_, ih h2.2 h3.2⟩
    rw [List.pairwise_append]
    refine ⟨h3.1, by simp, ?_⟩
    intro y hy z hz
    obtain rfl : z = p := by simpa using hz
    rw [turn_pole]
    exact h2.1 y hy

theorem area2_rot (a b c : V3 K) : area2 b c a = area2 a b c := by unfold area2; ring

/-- From the triples of the vertices to the edges. -/
theorem edges_of_triples {R : K → Prop} {vs : List (V3 K)} (h : vs.Triplewise fun x y z => R (area2 x y z))
    {v : Nat} {a b c : V3 K} {i : Nat} (he : IsEdge vs v a b) (hc : vs[i]? = some c) (h1 : i ≠ v)
    (h2 : i ≠ (v + 1) % vs.length) : R (area2 a b c) := by
  have T := triple_get h
  obtain ⟨ha, hb⟩ := he
  have hv : v < vs.length := (List.getElem?_eq_some_iff.1 ha).1
  have hi : i < vs.length := (List.getElem?_eq_some_iff.1 hc).1
  rcases Nat.lt_or_ge (v + 1) vs.length with hv1 | hv1
  · rw [Nat.mod_eq_of_lt hv1] at hb h2
    rcases Nat.lt_or_ge i v with hiv | hiv
    · have := T i v (v + 1) c a b hiv (by omega) hc ha hb
      rwa [area2_rot] 
    · exact T v (v + 1) i a b c (by omega) (by omega) ha hb hc
  · have e : v + 1 = vs.length := by omega
    rw [e, Nat.mod_self] at hb h2
    have := T 0 i v b c a (by omega) (by omega) hb hc ha
    rwa [area2_rot] at this

theorem selection_nodup {pts vs : List (V3 K)} {ids : List Nat} (hp : pts.Nodup) (hi : ids.Nodup)
    (h : IsSelection pts ids vs) : vs.Nodup := by
  unfold IsSelection at h
  have h2 : (vs.map some).Nodup := by
    rw [← h]
    refine List.Nodup.map_on ?_ hi
    intro i hi' j hj' e
    have hm : pts[i]? ∈ vs.map some := by rw [← h]; exact List.mem_map_of_mem hi'
    obtain ⟨v, -, ev⟩ := List.mem_map.1 hm
    obtain ⟨h1, e1⟩ := List.getElem?_eq_some_iff.1 ev.symm
    obtain ⟨h2, e2⟩ := List.getElem?_eq_some_iff.1 (e.symm.trans ev.symm)
    exact (List.Nodup.getElem_inj_iff hp).1 (e1.trans e2.symm)
  exact List.Nodup.of_map _ h2

theorem hullPts_eq (pts : List (V3 K)) :
    (pts.zipIdx.map fun x : V3 K × Nat => (⟨x.1, x.2⟩ : HullPt K)) = hullPts pts := rfl

/-! ### C82 -/

/-- C82, without the aligned points. If the tolerances tell the points apart, `ConvexHull` returns different
indices; every point is a convex combination of the points with these indices; and unless all points are on one
line, these points form, in the order of the result, a strictly convex polygon that runs counter clockwise.
Partial: in exact arithmetic, and the tolerances must tell the points apart; otherwise the comparison need not
order the points and `std::sort` is not defined. -/
theorem c82_hull_partial (g : GeoCfg K) (h0 : 0 ≤ g.minTolerance) (h1D : 0 ≤ g.tolerance1D) {sqrt : K → K}
    {sort : (HullPt K → HullPt K → Bool) → List (HullPt K) → List (HullPt K)} (hsort : IsSort sort)
    {pts : List (V3 K)} (hr : HullResolved g sqrt pts) (hz : ∀ q ∈ pts, q.z = 0) (hnd : pts.Nodup)
    (hn : 1 < pts.length) :
    ∃ ids vs, g.convexHull sqrt sort pts false = ok ids ∧ ids.Nodup ∧ IsSelection pts ids vs ∧
      (∀ q ∈ pts, ConvexComb vs q) ∧ (NotAligned pts → StrictlyConvex vs) := by
  have hne : pts ≠ [] := by rintro rfl; simp at hn
  obtain ⟨p0, rest, H⟩ := hull_sorted g h0 hsort hr hz hnd hne
  have hzl : ∀ x ∈ rest.map HullPt.point, x ∈ pts := fun x hx => H.permPts.mem_iff.1 (List.mem_cons_of_mem _ hx)
  obtain ⟨u, e, hst, hsub, hu, hall⟩ := hullScan_spec (keep := g.hullKeep sqrt false) H.after H.upper
    ⟨hz _ H.low.1, fun x hx => hz _ (hzl x hx)⟩
    (fun a ha b hb r hr' => (hullKeep_iff g h0 hr
      (by rcases List.mem_cons.1 ha with rfl | ha
          · exact H.low.1
          · exact hzl a ha) (hzl b hb) (hzl r hr')).1)
  have hrun : g.convexHull sqrt sort pts false = ok ((hullScan (fun a b r : HullPt K =>
      g.hullKeep sqrt false a.point b.point r.point) (p0 :: rest)).map HullPt.id) := by
    unfold GeoCfg.convexHull
    rw [convexHull_flat (sqrt := sqrt) (sort := sort) g h1D hz hne, ok_bind, assert_true rfl, ok_bind, if_neg (by omega)]
    change (match (hullPts pts).foldl g.hullLowestStep none with
      | none => ub
      | some p0 => _) = _
    rw [H.lowest]
    dsimp only
    rw [hullPts_eq, if_pos H.weak, ok_bind, H.sorted]
    rfl
  obtain ⟨i1, i2⟩ := scan_ids H.perm fun a b r : HullPt K => g.hullKeep sqrt false a.point b.point r.point
  rw [hullScan_map HullPt.point (g.hullKeep sqrt false), List.map_cons, e] at i2
  have hvn := selection_nodup hnd i1 i2
  have hin : ∀ q ∈ pts, InHull (u ++ [p0.point]) q := by
    intro q hq
    rcases List.mem_cons.1 (H.permPts.mem_iff.2 hq) with rfl | hq
    · exact .pt _ (by simp)
    · exact hall q hq
  refine ⟨_, u ++ [p0.point], hrun, i1, i2, fun q hq => (hin q hq).convexComb hvn, ?_⟩
  rintro ⟨a, ha, b, hb, c, hc, hne0⟩
  constructor
  · by_contra hlen
    have hu1 : u ≠ [] := hu (by
      intro h
      have := H.permPts.length_eq
      rw [h] at this
      simp at this
      omega)
    obtain ⟨w, hw⟩ : ∃ w, u = [w] := by
      match u, hu1, hlen with
      | [w], _, _ => exact ⟨w, rfl⟩
      | _ :: _ :: _, _, h => simp at h
    subst hw
    have hwp : w.x ≠ p0.point.x ∨ w.y ≠ p0.point.y := by
      have hwm : w ∈ rest.map HullPt.point := List.mem_reverse.1 (hsub.subset (by simp))
      refine xy_ne (hz _ (hzl w hwm)) (hz _ H.low.1) fun e => ?_
      subst e
      have := H.upper _ hwm
      rcases this with h | ⟨-, h⟩ <;> exact lt_irrefl _ h
    have hzero : ∀ q ∈ pts, area2 w p0.point q = 0 := by
      intro q hq
      have e0 : ∀ r ∈ [w] ++ [p0.point], area2 w p0.point r = 0 := by
        intro r hr'
        have : r = w ∨ r = p0.point := by simpa using hr'
        rcases this with rfl | rfl <;> unfold area2 <;> ring
      have h1 := InHull.left (a := w) (b := p0.point) (fun r hr' => (e0 r hr').ge) (hin q hq)
      have h2 := InHull.left (a := p0.point) (b := w) (fun r hr' => by
        have : area2 p0.point w r = -area2 w p0.point r := by unfold area2; ring
        rw [this, e0 r hr', neg_zero]) (hin q hq)
      have : area2 p0.point w q = -area2 w p0.point q := by unfold area2; ring
      linarith
    exact hne0 (line_all hwp (hzero a ha) (hzero b hb) (hzero c hc))
  · intro v a b he i c hc h1 h2
    exact edges_of_triples (R := fun t => 0 < t) (stack_triples hst.pair hst.triple) he hc h1 h2

/-- C82, with the aligned points. If the tolerances tell the points apart and the points are not all on one line,
`ConvexHull` returns different indices; the points with these indices form, in the order of the result, a convex
polygon that runs counter clockwise; every point is a convex combination of them; all points are on the left of
every edge; and the points that are not returned are strictly inside, so that the result has all points of the
boundary.
Partial: in exact arithmetic, and the tolerances must tell the points apart. The condition that the points are not
all on one line is necessary, see `c82_aligned_violated`. -/
theorem c82_hull_collinear_partial (g : GeoCfg K) (h0 : 0 ≤ g.minTolerance) (h1D : 0 ≤ g.tolerance1D)
    {sqrt : K → K} {sort : (HullPt K → HullPt K → Bool) → List (HullPt K) → List (HullPt K)} (hsort : IsSort sort)
    {pts : List (V3 K)} (hr : HullResolved g sqrt pts) (hz : ∀ q ∈ pts, q.z = 0) (hnd : pts.Nodup)
    (hna : NotAligned pts) :
    ∃ ids vs, g.convexHull sqrt sort pts true = ok ids ∧ ids.Nodup ∧ IsSelection pts ids vs ∧
      (∀ q ∈ pts, ConvexComb vs q) ∧ 2 < vs.length ∧ WeaklyConvex vs ∧
      (∀ q ∈ pts, ∀ v a b, IsEdge vs v a b → 0 ≤ area2 a b q) ∧
      ∀ q ∈ pts, q ∈ vs ∨ StrictlyInside pts q := by
  have hne : pts ≠ [] := by rintro rfl; obtain ⟨a, ha, -⟩ := hna; simp at ha
  have hn1 : pts.length ≠ 1 := by
    intro h
    obtain ⟨p, rfl⟩ := List.length_eq_one_iff.1 h
    obtain ⟨a, ha, b, hb, c, hc, h'⟩ := hna
    simp only [List.mem_singleton] at ha hb hc
    subst ha hb hc
    exact h' (by unfold area2; ring)
  obtain ⟨p0, rest, H⟩ := hull_sorted g h0 hsort hr hz hnd hne
  have hzl : ∀ x ∈ rest.map HullPt.point, x ∈ pts := fun x hx => H.permPts.mem_iff.1 (List.mem_cons_of_mem _ hx)
  have hlen := H.permPts.length_eq
  rw [List.length_cons, List.length_map] at hlen
  have hrest : rest ≠ [] := by
    rintro rfl
    simp at hlen
    omega
  -- the last point
  obtain ⟨front, back, hback⟩ : ∃ f b, rest = f ++ [b] := ⟨rest.dropLast, rest.getLast hrest,
    (List.dropLast_append_getLast hrest).symm⟩
  have hbm : back.point ∈ rest.map HullPt.point := by rw [hback]; simp
  have hlast : ∀ y ∈ rest.map HullPt.point, 0 ≤ cw p0.point y back.point := by
    intro y hy
    have ha := H.after
    rw [hback, List.map_append, List.pairwise_append] at ha
    rw [hback, List.map_append, List.mem_append] at hy
    rcases hy with hy | hy
    · exact (ha.2.2 y hy back.point (by simp)).nonneg
    · obtain rfl : y = back.point := by simpa using hy
      rw [cw_self]
  have hpb : p0.point.x ≠ back.point.x ∨ p0.point.y ≠ back.point.y := by
    refine xy_ne (hz _ H.low.1) (hz _ (hzl _ hbm)) fun e => ?_
    have := H.upper _ hbm
    rw [← e] at this
    rcases this with h | ⟨-, h⟩ <;> exact lt_irrefl _ h
  have hzt : ∀ a ∈ p0 :: rest, g.isValueZero (g.polarAngle a.point back.point p0.point
      ((a.point.sub back.point).norm sqrt) ((p0.point.sub back.point).norm sqrt)) g.tol1D = true ↔
      area2 a.point back.point p0.point = 0 := fun a ha =>
    (polar_sign g h0 (hr.turn _ (hullPts_mem (H.perm.mem_iff.1 ha)) _ (hzl _ hbm) _ H.low.1)).1
  have hex : ∃ a ∈ (p0 :: rest).take (p0 :: rest).length, ¬ area2 a.point back.point p0.point = 0 := by
    rw [List.take_length]
    by_contra hc
    push Not at hc
    have hzero : ∀ q ∈ pts, area2 p0.point back.point q = 0 := by
      intro q hq
      have hq' : q ∈ (p0 :: rest).map HullPt.point := by
        rw [List.map_cons]; exact H.permPts.mem_iff.2 hq
      obtain ⟨a, ha, rfl⟩ := List.mem_map.1 hq'
      have := hc a ha
      have e : area2 p0.point back.point a.point = -area2 a.point back.point p0.point := by unfold area2; ring
      rw [e, this, neg_zero]
    obtain ⟨a, ha, b, hb, c, hc', h⟩ := hna
    exact h (line_all hpb (hzero a ha) (hzero b hb) (hzero c hc'))
  obtain ⟨A', x, B, hsplit, hx, hB, htail⟩ := hullTail_spec g sqrt p0.point back.point (p0 :: rest)
    (z := fun a => area2 a.point back.point p0.point = 0) hzt _ le_rfl hex
  rw [List.take_length] at hsplit
  obtain ⟨A, rfl⟩ : ∃ A, A' = p0 :: A := by
    cases A' with
    | nil =>
      obtain ⟨rfl, -⟩ := List.cons.inj hsplit
      exact absurd (by unfold area2; ring) hx
    | cons a A =>
      obtain ⟨rfl, -⟩ := List.cons.inj hsplit
      exact ⟨A, rfl⟩
  have hrs : rest = A ++ x :: B := (List.cons.inj hsplit).2
  have hcw : ∀ a : V3 K, cw p0.point a back.point = -area2 a back.point p0.point := by
    intro a; unfold cw area2; ring
  have em : rest.map HullPt.point = A.map HullPt.point ++ x.point :: B.map HullPt.point := by
    rw [hrs]; simp
  obtain ⟨hpw, hhead⟩ := reversed_tail (b := back.point) (p := p0.point) (A := A.map HullPt.point)
    (B := B.map HullPt.point) (x := x.point) (by rw [← em]; exact H.upper) (by rw [← em]; exact H.after)
    (by rw [← em]; exact hbm) (by rw [← em]; exact hlast) (by rw [hcw, neg_ne_zero]; exact hx)
    (by
      intro y hy
      obtain ⟨h, hh, rfl⟩ := List.mem_map.1 hy
      rw [hcw, hB h hh, neg_zero])
  rw [← em] at hpw hhead
  -- the list that is scanned
  set l : List (HullPt K) := A ++ x :: B.reverse with hl
  have el : A.map HullPt.point ++ x.point :: (B.map HullPt.point).reverse = l.map HullPt.point := by
    rw [hl]; simp
  rw [el] at hpw hhead
  have hlp : l.Perm rest := by
    rw [hl, hrs]
    exact List.Perm.append_left A ((List.reverse_perm B).cons x)
  have hlm : ∀ y, y ∈ l.map HullPt.point ↔ y ∈ rest.map HullPt.point := fun y => (hlp.map _).mem_iff
  obtain ⟨u, e, hst, hsub, hu, hall⟩ := scanC_spec (keep := g.hullKeep sqrt true) hpw (fun y hy => (hlm y).1 hy)
    H.upper ⟨hz _ H.low.1, fun x hx => hz _ (hzl x hx)⟩ hhead
    (fun a ha b hb r hr' => (hullKeep_iff g h0 hr
      (by rcases List.mem_cons.1 ha with rfl | ha
          · exact H.low.1
          · exact hzl a ((hlm a).1 ha)) (hzl b ((hlm b).1 hb)) (hzl r ((hlm r).1 hr'))).2)
  have hrun : g.convexHull sqrt sort pts true = ok ((hullScan (fun a b r : HullPt K =>
      g.hullKeep sqrt true a.point b.point r.point) (p0 :: l)).map HullPt.id) := by
    unfold GeoCfg.convexHull
    rw [convexHull_flat (sqrt := sqrt) (sort := sort) g h1D hz hne, ok_bind, assert_true rfl, ok_bind, if_neg hn1]
    change (match (hullPts pts).foldl g.hullLowestStep none with
      | none => ub
      | some p0 => _) = _
    rw [H.lowest]
    dsimp only
    rw [hullPts_eq, if_pos H.weak, ok_bind, H.sorted]
    have hgb : vget (p0 :: rest) ((p0 :: rest).length - 1) = ok back := by
      rw [vget_eq_ok, hback]
      simp
    have e1 : (p0 :: rest).take ((p0 :: A).length + 1) ++
        ((p0 :: rest).drop ((p0 :: A).length + 1)).reverse = p0 :: l := by
      rw [hsplit, hl]
      have h1 : (p0 :: A ++ x :: B) = (p0 :: A ++ [x]) ++ B := by simp
      have h2 : (p0 :: A).length + 1 = (p0 :: A ++ [x]).length := by simp
      rw [h1, h2, List.take_left, List.drop_left]
      simp
    simp only [if_true]
    rw [hgb, ok_bind, htail, ok_bind, e1]
    rfl
  have hperm : (p0 :: l).Perm (hullPts pts) := (hlp.cons p0).trans H.perm
  obtain ⟨i1, i2⟩ := scan_ids hperm fun a b r : HullPt K => g.hullKeep sqrt true a.point b.point r.point
  rw [hullScan_map HullPt.point (g.hullKeep sqrt true), List.map_cons, e] at i2
  have hvn := selection_nodup hnd i1 i2
  have hcase : ∀ q ∈ pts, q = p0.point ∨ q ∈ l.map HullPt.point := by
    intro q hq
    rcases List.mem_cons.1 (H.permPts.mem_iff.2 hq) with rfl | hq
    · exact Or.inl rfl
    · exact Or.inr ((hlm q).2 hq)
  have hin : ∀ q ∈ pts, InHull (u ++ [p0.point]) q := by
    intro q hq
    rcases hcase q hq with rfl | hq
    · exact .pt _ (by simp)
    · exact (hall q hq).2
  have hT : (u ++ [p0.point]).Triplewise fun x y z => 0 ≤ area2 x y z :=
    stack_triples (R := fun t => 0 ≤ t) (hst.pair.imp fun h => h.nonneg) hst.triple
  have hedge : ∀ q ∈ pts, ∀ v a b, IsEdge (u ++ [p0.point]) v a b → 0 ≤ area2 a b q := by
    intro q hq v a b he
    refine InHull.left (fun r hr' => ?_) (hin q hq)
    obtain ⟨i, hi⟩ := List.mem_iff_getElem?.1 hr'
    by_cases h1 : i = v
    · subst h1
      have := he.1.symm.trans hi
      obtain rfl := Option.some.inj this
      exact le_of_eq (by unfold area2; ring)
    · by_cases h2 : i = (v + 1) % (u ++ [p0.point]).length
      · have := he.2
        rw [← h2, hi] at this
        obtain rfl := Option.some.inj this
        exact le_of_eq (by unfold area2; ring)
      · exact edges_of_triples (R := fun t => 0 ≤ t) hT he hi h1 h2
  have hul : l ≠ [] := by rw [hl]; simp
  have hu1 : u ≠ [] := hu (by simpa using hul)
  have hsubm : ∀ y ∈ u ++ [p0.point], y ∈ pts := by
    intro y hy
    rcases List.mem_append.1 hy with hy | hy
    · exact hzl y ((hlm y).1 (List.mem_reverse.1 (hsub.subset hy)))
    · obtain rfl : y = p0.point := by simpa using hy
      exact H.low.1
  have hul2 : 2 < (u ++ [p0.point]).length := by
    by_contra hlen'
    obtain ⟨w, rfl⟩ : ∃ w, u = [w] := by
      match u, hu1, hlen' with
      | [w], _, _ => exact ⟨w, rfl⟩
      | _ :: _ :: _, _, h => simp at h
    have hw : w.x ≠ p0.point.x ∨ w.y ≠ p0.point.y := by
      refine xy_ne (hz _ (hsubm w (by simp))) (hz _ H.low.1) fun e => ?_
      rw [e] at hvn
      simp at hvn
    have hzero : ∀ q ∈ pts, area2 w p0.point q = 0 := by
      intro q hq
      have h1 := hedge q hq 0 w p0.point ⟨rfl, rfl⟩
      have h2 := hedge q hq 1 p0.point w ⟨by simp, by simp⟩
      have : area2 p0.point w q = -area2 w p0.point q := by unfold area2; ring
      linarith
    obtain ⟨a, ha, b, hb, c, hc, h⟩ := hna
    exact h (line_all hw (hzero a ha) (hzero b hb) (hzero c hc))
  refine ⟨_, u ++ [p0.point], hrun, i1, i2, fun q hq => (hin q hq).convexComb hvn, hul2, triple_get hT, hedge, ?_⟩
  intro q hq
  rcases hcase q hq with rfl | hq'
  · left; simp
  · rcases (hall q hq').1 with h | h
    · left; simp [h]
    · right
      intro v w hvw hside
      refine popped_inside h hvw fun r hr' => hside r ?_
      rcases List.mem_cons.1 hr' with rfl | hr'
      · exact H.low.1
      · exact hzl r hr'

/-- C82, one point: `ConvexHull` returns its index. -/
theorem c82_point (g : GeoCfg K) (h1D : 0 ≤ g.tolerance1D) (sqrt : K → K)
    (sort : (HullPt K → HullPt K → Bool) → List (HullPt K) → List (HullPt K)) (p : V3 K) (hz : p.z = 0) (c : Bool) :
    g.convexHull sqrt sort [p] c = ok [0] := by
  unfold GeoCfg.convexHull
  rw [convexHull_flat (sqrt := sqrt) (sort := sort) g h1D (by simpa using hz) (by simp), ok_bind, assert_true rfl,
    ok_bind]
  rfl

/-- C82 does not hold for points on one line if aligned points are kept, which is the default: whatever the points,
the loop over the points aligned with the last one does not stop at the first point and reads the element before
it. -/
theorem c82_aligned_violated (g : GeoCfg K) (h0 : 0 ≤ g.minTolerance) (h1D : 0 ≤ g.tolerance1D) {sqrt : K → K}
    {sort : (HullPt K → HullPt K → Bool) → List (HullPt K) → List (HullPt K)} (hsort : IsSort sort)
    {pts : List (V3 K)} (hr : HullResolved g sqrt pts) (hz : ∀ q ∈ pts, q.z = 0) (hnd : pts.Nodup)
    (hn : 1 < pts.length) (hal : ¬ NotAligned pts) : g.convexHull sqrt sort pts true = ub := by
  have hne : pts ≠ [] := by rintro rfl; simp at hn
  obtain ⟨p0, rest, H⟩ := hull_sorted g h0 hsort hr hz hnd hne
  have hzl : ∀ x ∈ (p0 :: rest).map HullPt.point, x ∈ pts := fun x hx => H.permPts.mem_iff.1 (by simpa using hx)
  obtain ⟨front, back, hback⟩ : ∃ f b, p0 :: rest = f ++ [b] := ⟨(p0 :: rest).dropLast, (p0 :: rest).getLast (by simp),
    (List.dropLast_append_getLast _).symm⟩
  have hbm : back.point ∈ (p0 :: rest).map HullPt.point := by rw [hback]; simp
  unfold NotAligned at hal
  push Not at hal
  have ht := hullTail_ub g sqrt p0.point back.point (p0 :: rest) (fun a ha =>
    (polar_sign g h0 (hr.turn _ (hullPts_mem (H.perm.mem_iff.1 ha)) _ (hzl _ hbm) _ H.low.1)).1.2
      (hal _ (hullPts_mem (H.perm.mem_iff.1 ha)) _ (hzl _ hbm) _ H.low.1)) _ le_rfl
  unfold GeoCfg.convexHull
  rw [convexHull_flat (sqrt := sqrt) (sort := sort) g h1D hz hne, ok_bind, assert_true rfl, ok_bind, if_neg (by omega)]
  change (match (hullPts pts).foldl g.hullLowestStep none with
    | none => ub
    | some p0 => _) = _
  rw [H.lowest]
  dsimp only
  rw [hullPts_eq, if_pos H.weak, ok_bind, H.sorted]
  have hgb : vget (p0 :: rest) ((p0 :: rest).length - 1) = ok back := by
    rw [vget_eq_ok, hback]
    simp
  simp only [if_true]
  rw [hgb, ok_bind, ht]
  rfl

/-! ### Points with integer coordinates -/

/-- `p` has integer coordinates up to 2²⁰ in absolute value and is in the plane. -/
def IsGridPoint (p : V3 ℝ) : Prop :=
  ∃ i j : ℤ, |i| ≤ 2 ^ 20 ∧ |j| ≤ 2 ^ 20 ∧ p = ⟨i, j, 0⟩

theorem apart_int {t : ℝ} (ht : t = 10 / 2 ^ 52) {i j : ℤ} (hi : |i| ≤ 2 ^ 43) : Apart1 t (i : ℝ) (j : ℝ) := by
  by_cases h : i = j
  · left; rw [h]
  · right
    have h1 : (1 : ℝ) ≤ |(j : ℝ) - (i : ℝ)| := by
      have : (1 : ℤ) ≤ |j - i| := Int.one_le_abs (sub_ne_zero.2 (Ne.symm h))
      have h2 : ((1 : ℤ) : ℝ) ≤ ((|j - i| : ℤ) : ℝ) := by exact_mod_cast this
      rw [Int.cast_abs, Int.cast_sub, Int.cast_one] at h2
      exact h2
    have h2 : |(i : ℝ)| ≤ 2 ^ 43 := by
      have : ((|i| : ℤ) : ℝ) ≤ ((2 ^ 43 : ℤ) : ℝ) := by exact_mod_cast hi
      rw [Int.cast_abs] at this
      exact this.trans (by norm_num)
    refine lt_of_lt_of_le ?_ h1
    unfold window
    rw [ht]
    split
    · calc (10 : ℝ) / 2 ^ 52 * |(i : ℝ)| ≤ 10 / 2 ^ 52 * 2 ^ 43 := by
            apply mul_le_mul_of_nonneg_left h2; positivity
        _ < 1 := by norm_num
    · norm_num

theorem dist2_grid {i j k l : ℤ} : dist2 (⟨i, j, 0⟩ : V3 ℝ) ⟨k, l, 0⟩ =
    (((i - k) * (i - k) + (j - l) * (j - l) : ℤ) : ℝ) := by
  unfold dist2
  push_cast
  ring

theorem dist2_grid_le {i j k l : ℤ} (hi : |i| ≤ 2 ^ 20) (hj : |j| ≤ 2 ^ 20) (hk : |k| ≤ 2 ^ 20) (hl : |l| ≤ 2 ^ 20) :
    |(i - k) * (i - k) + (j - l) * (j - l)| ≤ 2 ^ 43 := by
  rw [abs_le] at hi hj hk hl
  rw [abs_of_nonneg (add_nonneg (mul_self_nonneg _) (mul_self_nonneg _))]
  have h1 : (i - k) * (i - k) ≤ 2 ^ 42 := by nlinarith
  have h2 : (j - l) * (j - l) ≤ 2 ^ 42 := by nlinarith
  linarith

/-- The default tolerances tell points with integer coordinates up to 2²⁰ apart. -/
theorem hullResolved_grid {pts : List (V3 ℝ)} (h : ∀ p ∈ pts, IsGridPoint p) :
    HullResolved defaultGeo Real.sqrt pts := by
  refine ⟨?_, ?_, ?_, ?_⟩
  · intro a ha b hb
    obtain ⟨i, j, hi, hj, rfl⟩ := h a ha
    obtain ⟨k, l, hk, hl, rfl⟩ := h b hb
    exact apart_int defaultGeo_tol1D (hi.trans (by norm_num))
  · intro a ha b hb
    obtain ⟨i, j, hi, hj, rfl⟩ := h a ha
    obtain ⟨k, l, hk, hl, rfl⟩ := h b hb
    exact apart_int defaultGeo_tol1D (hj.trans (by norm_num))
  · intro a ha b hb c hc
    obtain ⟨i, j, hi, hj, rfl⟩ := h a ha
    obtain ⟨k, l, hk, hl, rfl⟩ := h b hb
    obtain ⟨m, n, hm, hn, rfl⟩ := h c hc
    rw [dist2_grid, dist2_grid]
    exact apart_int defaultGeo_tolSq (dist2_grid_le hm hn hi hj)
  · intro a ha b hb c hc
    obtain ⟨i, j, hi, hj, rfl⟩ := h a ha
    obtain ⟨k, l, hk, hl, rfl⟩ := h b hb
    obtain ⟨m, n, hm, hn, rfl⟩ := h c hc
    have ea : area2 (⟨i, j, 0⟩ : V3 ℝ) ⟨k, l, 0⟩ ⟨m, n, 0⟩ =
        (((k - i) * (n - j) - (l - j) * (m - i) : ℤ) : ℝ) := by
      unfold area2; push_cast; ring
    rw [ea, dist2_grid, dist2_grid]
    by_cases h0 : (k - i) * (n - j) - (l - j) * (m - i) = 0
    · left; rw [h0]; simp
    · right
      have hz : (1 : ℤ) ≤ |(k - i) * (n - j) - (l - j) * (m - i)| := Int.one_le_abs h0
      have hzr : (1 : ℝ) ≤ |(((k - i) * (n - j) - (l - j) * (m - i) : ℤ) : ℝ)| := by
        rw [← Int.cast_abs]; exact_mod_cast hz
      have posd : ∀ a b : ℤ, ¬ (a = 0 ∧ b = 0) → (1 : ℤ) ≤ a * a + b * b := by
        intro a b hab
        have h1 := mul_self_nonneg a
        have h2 := mul_self_nonneg b
        by_contra hc
        have e : a * a + b * b = 0 := by omega
        have e1 : a * a = 0 := by omega
        have e2 : b * b = 0 := by omega
        exact hab ⟨mul_self_eq_zero.1 e1, mul_self_eq_zero.1 e2⟩
      have d1 : (1 : ℤ) ≤ (i - k) * (i - k) + (j - l) * (j - l) := by
        apply posd
        rintro ⟨e1, e2⟩
        apply h0
        have e1' : k - i = 0 := by omega
        have e2' : l - j = 0 := by omega
        rw [e1', e2']; ring
      have d2 : (1 : ℤ) ≤ (m - k) * (m - k) + (n - l) * (n - l) := by
        apply posd
        rintro ⟨e1, e2⟩
        apply h0
        have e1' : m = k := by omega
        have e2' : n = l := by omega
        rw [e1', e2']; ring
      have b1 := dist2_grid_le hi hj hk hl
      have b2 := dist2_grid_le hm hn hk hl
      have key : ∀ d : ℤ, 1 ≤ d → |d| ≤ 2 ^ 43 → 1 ≤ Real.sqrt (d : ℝ) ∧ Real.sqrt (d : ℝ) ≤ 2 ^ 22 := by
        intro d hd hd'
        constructor
        · rw [Real.one_le_sqrt]; exact_mod_cast hd
        · rw [Real.sqrt_le_left (by positivity)]
          have : (d : ℝ) ≤ ((2 ^ 43 : ℤ) : ℝ) := by exact_mod_cast (le_abs_self d).trans hd'
          refine this.trans ?_
          norm_num
      obtain ⟨s1, s1'⟩ := key _ d1 b1
      obtain ⟨s2, s2'⟩ := key _ d2 b2
      rw [defaultGeo_tol1D]
      refine ⟨lt_of_lt_of_le (by norm_num) s1, lt_of_lt_of_le (by norm_num) s2, lt_of_lt_of_le ?_ hzr⟩
      calc (10 : ℝ) / 2 ^ 52 * (Real.sqrt _ * Real.sqrt _) ≤ 10 / 2 ^ 52 * (2 ^ 22 * 2 ^ 22) := by
            apply mul_le_mul_of_nonneg_left _ (by positivity)
            exact mul_le_mul s1' s2' (by linarith) (by positivity)
        _ < 1 := by norm_num

/-- There is a function as is required of `std::sort`. -/
theorem exists_isSort (α : Type) : ∃ sort : (α → α → Bool) → List α → List α, IsSort sort := by
  classical
  refine ⟨fun lt l => (l.attach.insertionSort fun a b => lt b.1 a.1 = false).map Subtype.val, ?_⟩
  intro lt l ⟨hi, ht, hw⟩
  constructor
  · have := (List.perm_insertionSort (fun a b : {x // x ∈ l} => lt b.1 a.1 = false) l.attach).map Subtype.val
    rwa [List.attach_map_subtype_val] at this
  · rw [List.pairwise_map]
    haveI : Std.Total fun a b : {x // x ∈ l} => lt b.1 a.1 = false := ⟨by
      intro a b
      by_contra hc
      push Not at hc
      obtain ⟨h1, h2⟩ := hc
      rw [ne_eq, Bool.not_eq_false] at h1 h2
      have := ht a.1 a.2 b.1 b.2 a.1 a.2 h2 h1
      rw [hi a.1 a.2] at this
      cases this⟩
    haveI : IsTrans {x // x ∈ l} fun a b => lt b.1 a.1 = false := ⟨by
      intro a b c h1 h2
      by_contra hc
      rw [Bool.not_eq_false] at hc
      have h3 : lt a.1 b.1 = false := by
        by_contra h
        rw [Bool.not_eq_false] at h
        have := ht c.1 c.2 a.1 a.2 b.1 b.2 hc h
        rw [h2] at this
        cases this
      have h4 : lt b.1 c.1 = false := by
        by_contra h
        rw [Bool.not_eq_false] at h
        have := ht b.1 b.2 c.1 c.2 a.1 a.2 h hc
        rw [h1] at this
        cases this
      have := (hw a.1 a.2 b.1 b.2 c.1 c.2 ⟨h3, h1⟩ ⟨h4, h2⟩).2
      rw [this] at hc
      cases hc⟩
    exact List.pairwise_insertionSort _ _

/-- C82 with the default tolerances for points with integer coordinates up to 2²⁰: the two theorems above without
a hypothesis on the tolerances. -/
theorem c82_grid {sort : (HullPt ℝ → HullPt ℝ → Bool) → List (HullPt ℝ) → List (HullPt ℝ)} (hsort : IsSort sort)
    {pts : List (V3 ℝ)} (h : ∀ p ∈ pts, IsGridPoint p) (hnd : pts.Nodup) (hna : NotAligned pts) :
    (∃ ids vs, defaultGeo.convexHull Real.sqrt sort pts false = ok ids ∧ ids.Nodup ∧ IsSelection pts ids vs ∧
      (∀ q ∈ pts, ConvexComb vs q) ∧ StrictlyConvex vs) ∧
    ∃ ids vs, defaultGeo.convexHull Real.sqrt sort pts true = ok ids ∧ ids.Nodup ∧ IsSelection pts ids vs ∧
      (∀ q ∈ pts, ConvexComb vs q) ∧ 2 < vs.length ∧ WeaklyConvex vs ∧
      (∀ q ∈ pts, ∀ v a b, IsEdge vs v a b → 0 ≤ area2 a b q) ∧
      ∀ q ∈ pts, q ∈ vs ∨ StrictlyInside pts q := by
  have h0 : (0 : ℝ) ≤ defaultGeo.minTolerance := by norm_num [defaultGeo]
  have h1D : (0 : ℝ) ≤ defaultGeo.tolerance1D := by norm_num [defaultGeo]
  have hz : ∀ q ∈ pts, q.z = 0 := by
    intro q hq
    obtain ⟨i, j, -, -, rfl⟩ := h q hq
    rfl
  have hr := hullResolved_grid h
  refine ⟨?_, c82_hull_collinear_partial defaultGeo h0 h1D hsort hr hz hnd hna⟩
  have hn : 1 < pts.length := by
    obtain ⟨a, ha, b, hb, c, hc, hne⟩ := hna
    by_contra hlen
    have : ∀ p ∈ pts, ∀ q ∈ pts, p = q := by
      match pts, hlen with
      | [], _ => simp
      | [x], _ => simp
      | _ :: _ :: _, h => simp at h
    rw [this a ha c hc, this b hb c hc] at hne
    exact hne (by unfold area2; ring)
  obtain ⟨ids, vs, h1, h2, h3, h4, h5⟩ := c82_hull_partial defaultGeo h0 h1D hsort hr hz hnd hn
  exact ⟨ids, vs, h1, h2, h3, h4, h5 hna⟩

/-- The hypotheses of `c82_grid`, and with them those of `c82_hull_partial` and `c82_hull_collinear_partial`: a
square with its centre and the midpoint of a side. -/
example : (∃ sort : (HullPt ℝ → HullPt ℝ → Bool) → List (HullPt ℝ) → List (HullPt ℝ), IsSort sort) ∧
    (∀ p ∈ ([⟨1, 1, 0⟩, ⟨2, 2, 0⟩, ⟨0, 0, 0⟩, ⟨1, 0, 0⟩, ⟨0, 2, 0⟩, ⟨2, 0, 0⟩] : List (V3 ℝ)), IsGridPoint p) ∧
    ([⟨1, 1, 0⟩, ⟨2, 2, 0⟩, ⟨0, 0, 0⟩, ⟨1, 0, 0⟩, ⟨0, 2, 0⟩, ⟨2, 0, 0⟩] : List (V3 ℝ)).Nodup ∧
    NotAligned ([⟨1, 1, 0⟩, ⟨2, 2, 0⟩, ⟨0, 0, 0⟩, ⟨1, 0, 0⟩, ⟨0, 2, 0⟩, ⟨2, 0, 0⟩] : List (V3 ℝ)) := by
  refine ⟨exists_isSort _, ?_, ?_, ?_⟩
  · intro p hp
    simp only [List.mem_cons, List.not_mem_nil, or_false] at hp
    rcases hp with rfl | rfl | rfl | rfl | rfl | rfl
    · exact ⟨1, 1, by norm_num, by norm_num, by simp⟩
    · exact ⟨2, 2, by norm_num, by norm_num, by simp⟩
    · exact ⟨0, 0, by norm_num, by norm_num, by simp⟩
    · exact ⟨1, 0, by norm_num, by norm_num, by simp⟩
    · exact ⟨0, 2, by norm_num, by norm_num, by simp⟩
    · exact ⟨2, 0, by norm_num, by norm_num, by simp⟩
  · simp
  · exact ⟨⟨0, 0, 0⟩, by simp, ⟨2, 0, 0⟩, by simp, ⟨0, 2, 0⟩, by simp, by norm_num [area2]⟩

/-- `c82_aligned_violated` applies to the ends of the unit segment with the default tolerances. -/
example {sort : (HullPt ℝ → HullPt ℝ → Bool) → List (HullPt ℝ) → List (HullPt ℝ)} (hsort : IsSort sort) :
    defaultGeo.convexHull Real.sqrt sort [⟨0, 0, 0⟩, ⟨1, 0, 0⟩] true = ub := by
  have hg : ∀ p ∈ ([⟨0, 0, 0⟩, ⟨1, 0, 0⟩] : List (V3 ℝ)), IsGridPoint p := by
    intro p hp
    simp only [List.mem_cons, List.not_mem_nil, or_false] at hp
    rcases hp with rfl | rfl
    · exact ⟨0, 0, by norm_num, by norm_num, by simp⟩
    · exact ⟨1, 0, by norm_num, by norm_num, by simp⟩
  refine c82_aligned_violated defaultGeo (by norm_num [defaultGeo]) (by norm_num [defaultGeo]) hsort
    (hullResolved_grid hg) ?_ (by simp) (by simp) ?_
  · simp
  · rintro ⟨a, ha, b, hb, c, hc, h⟩
    simp only [List.mem_cons, List.not_mem_nil, or_false] at ha hb hc
    rcases ha with rfl | rfl <;> rcases hb with rfl | rfl <;> rcases hc with rfl | rfl <;> norm_num [area2] at h

/-- The hypothesis of `c82_point`. -/
example : (0 : ℝ) ≤ defaultGeo.tolerance1D ∧ (⟨3, 4, 0⟩ : V3 ℝ).z = 0 := by norm_num [defaultGeo]

end Verif
