import Verif.EarRunLemmas2
import Verif.HullProps
import Mathlib.Tactic.IntervalCases

/-
C85: the triangulation of a polygon by ear clipping.
-/
namespace Verif

open Res

variable {K : Type} [Field K] [LinearOrder K] [IsStrictOrderedRing K]
variable {g : GeoCfg K} {sqrt : K → K}

/-! ### Termination -/

theorem earRounds_ends (hg : EarCfg g sqrt) (polygon : List (V3 K)) (hz : ∀ p ∈ polygon, p.z = 0) (fuel : Nat) :
    ∀ (ids acc : List Nat), ids.Nodup → 2 < ids.length → ids.length ≤ fuel + 2 →
      (∀ i ∈ ids, i < polygon.length) →
      g.earRounds sqrt polygon fuel ids (ids.map (vtx polygon)) acc = abort ∨
      ∃ ts, g.earRounds sqrt polygon fuel ids (ids.map (vtx polygon)) acc = ok (acc ++ flat3 ts) := by
  induction fuel with
  | zero => intro ids acc _ h1 h2; omega
  | succ fuel ih =>
    intro ids acc hn h3 hle hlt
    have hround := earRounds_succ hg polygon hz fuel hn h3 hlt acc
    simp only at hround
    set ids' := ids.filter (g.keeps sqrt polygon ids)
    have hlen' : ids'.length ≤ ids.length := List.length_filter_le _ _
    rw [hround]
    split
    · exact Or.inl rfl
    · rename_i h2
      split
      · rename_i h4
        right
        match ids', h4 with
        | [i, j, k], _ => exact ⟨[(i, j, k)], rfl⟩
      · rename_i h4
        split
        · exact Or.inl rfl
        · rename_i v hf
          have hv : v < ids'.length := List.mem_range.1 (List.mem_of_find?_eq_some hf)
          have hlen'' : (ids'.eraseIdx v).length = ids'.length - 1 := by rw [List.length_eraseIdx, if_pos hv]
          rcases ih (ids'.eraseIdx v) (acc ++ earTriple ids' v)
            (List.Nodup.sublist (List.eraseIdx_sublist _ _) (hn.filter _)) (by omega) (by omega)
            (fun i hi => hlt i (List.mem_of_mem_filter (List.mem_of_mem_eraseIdx hi))) with k | ⟨ts, k⟩
          · exact Or.inl k
          · right
            rw [k]
            refine ⟨(ids'.getD v 0, ids'.getD ((v + 1) % ids'.length) 0, ids'.getD (cyclePrev ids'.length v) 0) :: ts, ?_⟩
            simp [flat3, earTriple]

theorem range_vtx (polygon : List (V3 K)) : (List.range polygon.length).map (vtx polygon) = polygon := by
  apply List.ext_getElem
  · simp
  · intro i h1 h2
    simp only [List.length_map, List.length_range] at h1
    simp [vtx, h1]

/-- C85: polygons with fewer than three vertices stop at an assertion. For a polygon of the plane the loop ends: the
result is a list of triangles, or the program stops at an assertion because too few vertices that are not aligned
or no ear are left. -/
theorem c85_terminates (hs : IsSqrt sqrt) (h0 : 0 ≤ g.minTolerance) (hT : g.tol1D < 1 / 2) (h1 : g.tolSq ≤ 1)
    (h1D : 0 ≤ g.tolerance1D) (polygon : List (V3 K)) (hz : ∀ p ∈ polygon, p.z = 0) :
    (polygon.length ≤ 2 → g.triangulationByEarClipping sqrt polygon = abort) ∧
    (g.triangulationByEarClipping sqrt polygon = abort ∨
      ∃ l, g.triangulationByEarClipping sqrt polygon = ok l ∧ l.length % 3 = 0) := by
  have hsmall : polygon.length ≤ 2 → g.triangulationByEarClipping sqrt polygon = abort := by
    intro h
    unfold GeoCfg.triangulationByEarClipping
    rw [assert_false (by omega), abort_bind]
  refine ⟨hsmall, ?_⟩
  by_cases h : polygon.length ≤ 2
  · exact Or.inl (hsmall h)
  · unfold GeoCfg.triangulationByEarClipping
    rw [assert_true (by omega), ok_bind]
    have := earRounds_ends (g := g) ⟨hs, h0, hT, h1, h1D⟩ polygon hz polygon.length (List.range polygon.length) []
      List.nodup_range (by simpa using h) (by simp) (fun i hi => List.mem_range.1 hi)
    rw [range_vtx] at this
    rcases this with k | ⟨ts, k⟩
    · rw [k, abort_bind]; exact Or.inl rfl
    · right
      rw [k, ok_bind]
      have h3 : (([] : List Nat) ++ flat3 ts).length % 3 = 0 := by
        rw [List.nil_append, flat3_length]; omega
      rw [assert_true h3, ok_bind]
      exact ⟨_, rfl, h3⟩

/-! ### The triangles that are returned -/

theorem earClipping_run (hg : EarCfg g sqrt) {polygon : List (V3 K)} (hz : ∀ p ∈ polygon, p.z = 0)
    (hnd : polygon.Nodup) (hr : EarResolved g sqrt polygon) {l : List Nat}
    (h : g.triangulationByEarClipping sqrt polygon = ok l) :
    2 < polygon.length ∧ ∃ ts, l = flat3 ts ∧ EarRun (vtx polygon) (List.range polygon.length) ts := by
  unfold GeoCfg.triangulationByEarClipping at h
  by_cases h2 : 2 < polygon.length
  · rw [assert_true h2, ok_bind, bind_eq_ok] at h
    obtain ⟨l', hl', h⟩ := h
    by_cases h3 : l'.length % 3 = 0
    · rw [assert_true h3, ok_bind] at h
      cases h
      refine ⟨h2, ?_⟩
      obtain ⟨ts, e, R⟩ := earRounds_run hg polygon hz hnd hr polygon.length (List.range polygon.length) [] l
        List.nodup_range (by simpa using h2) (fun i hi => List.mem_range.1 hi) (by rw [range_vtx]; exact hl')
      exact ⟨ts, by simpa using e, R⟩
    · rw [assert_false h3] at h; cases h
  · rw [assert_false h2] at h; cases h

theorem winding_cast (vs : List (V3 K)) (p : V3 K) :
    ((windingNumber vs p : Int) : ℚ) = closedSum (fun a b => ((rayCrossing p a b : Int) : ℚ)) vs := by
  unfold windingNumber closedSum cycPairs
  rw [Int.cast_list_sum, List.map_map]
  rfl

/-- C85, the triangles: if the test of alignment is exact on the vertices, which are distinct, and the program
returns, then the list consists of triples of numbers of vertices; at most `n - 2` triangles; no triangle is
degenerate; all but the last one run counter clockwise; their signed areas add up to the area of the polygon; their
winding numbers about any point add up to that of the polygon; and no triangle contains a corner of a later one,
except its own second and third corner.

Missing for the full claim: that the program returns for every simple polygon, and that then the last triangle runs
counter clockwise, too. -/
theorem c85_triangles_partial (hs : IsSqrt sqrt) (h0 : 0 ≤ g.minTolerance) (hT : g.tol1D < 1 / 2) (h1 : g.tolSq ≤ 1)
    (h1D : 0 ≤ g.tolerance1D) {polygon : List (V3 K)} (hz : ∀ p ∈ polygon, p.z = 0)
    (hnd : polygon.Nodup) (hr : EarResolved g sqrt polygon) {l : List Nat}
    (h : g.triangulationByEarClipping sqrt polygon = ok l) :
    ∃ ts, extractTriangulationPoints polygon l = ok ts ∧ l.length = 3 * ts.length ∧ 0 < ts.length ∧
      ts.length + 2 ≤ polygon.length ∧
      (∀ t ∈ ts, t.1 ∈ polygon ∧ t.2.1 ∈ polygon ∧ t.2.2 ∈ polygon ∧ area2 t.1 t.2.1 t.2.2 ≠ 0) ∧
      (∀ t ∈ ts.dropLast, 0 < area2 t.1 t.2.1 t.2.2) ∧
      g.polygonArea polygon = ok (triangleAreas ts) ∧
      (∀ p, windingNumber polygon p = (ts.map fun t => windingNumber [t.1, t.2.1, t.2.2] p).sum) ∧
      (ts.Pairwise fun t u => ∀ q, q = u.1 ∨ q = u.2.1 ∨ q = u.2.2 → q = t.2.1 ∨ q = t.2.2 ∨ ¬ InTriangle t q) := by
  have hg : EarCfg g sqrt := ⟨hs, h0, hT, h1, h1D⟩
  obtain ⟨h2, ts, rfl, R⟩ := earClipping_run hg hz hnd hr h
  have hmem : ∀ i ∈ List.range polygon.length, vtx polygon i ∈ polygon ∧ polygon[i]? = some (vtx polygon i) := by
    intro i hi
    have hi := List.mem_range.1 hi
    unfold vtx
    simp [hi]
  refine ⟨ts.map (corners3 (vtx polygon)), ?_, ?_, ?_, ?_, ?_, ?_, ?_, ?_, ?_⟩
  · apply extractTriangulationPoints_eq
    intro t ht
    obtain ⟨m1, m2, m3⟩ := R.mem t ht
    exact ⟨(hmem _ m1).2, (hmem _ m2).2, (hmem _ m3).2⟩
  · rw [flat3_length, List.length_map]
  · rw [List.length_map]; exact List.length_pos_iff.2 R.nonempty
  · simpa using R.length
  · intro t ht
    obtain ⟨u, hu, rfl⟩ := List.mem_map.1 ht
    obtain ⟨m1, m2, m3⟩ := R.mem u hu
    exact ⟨(hmem _ m1).1, (hmem _ m2).1, (hmem _ m3).1, R.ne u hu⟩
  · intro t ht
    rw [← List.map_dropLast] at ht
    obtain ⟨u, hu, rfl⟩ := List.mem_map.1 ht
    exact R.pos u hu
  · rw [g.polygonArea_eq polygon h2 (fun p hp => by rw [hz p hp, abs_zero]; exact h1D)]
    have := R.sum (fun i j => crossZ (vtx polygon i) (vtx polygon j)) (by
      intro a b c h
      simp only [area2, crossZ] at *
      linear_combination h)
    rw [← closedSum_map crossZ (vtx polygon), range_vtx] at this
    rw [this, triangleAreas, List.map_map, ← List.sum_map_mul_left]
    congr 3
    funext t
    simp only [Function.comp, corners3, area2, crossZ]
    ring
  · intro p
    have := R.sumQ (fun i j => ((rayCrossing p (vtx polygon i) (vtx polygon j) : Int) : ℚ)) (by
      intro a b c h
      rw [← Int.cast_add, rayCrossing_add p h])
    rw [← closedSum_map (fun a b => ((rayCrossing p a b : Int) : ℚ)) (vtx polygon), range_vtx, ← winding_cast] at this
    have e : ((windingNumber polygon p : Int) : ℚ) = (((ts.map fun t =>
        windingNumber [vtx polygon t.1, vtx polygon t.2.1, vtx polygon t.2.2] p).sum : Int) : ℚ) := by
      rw [this, Int.cast_list_sum, List.map_map]
      congr 2
      funext t
      simp only [Function.comp, windingNumber_triangle]
      push_cast
      ring
    rw [List.map_map]
    exact_mod_cast e
  · rw [List.pairwise_map]
    refine R.clear.imp ?_
    intro t u h q hq
    simp only [corners3] at hq ⊢
    rcases hq with rfl | rfl | rfl
    · rcases h _ (Or.inl rfl) with k | k | k
      · exact Or.inl (by rw [k])
      · exact Or.inr (Or.inl (by rw [k]))
      · exact Or.inr (Or.inr k)
    · rcases h _ (Or.inr (Or.inl rfl)) with k | k | k
      · exact Or.inl (by rw [k])
      · exact Or.inr (Or.inl (by rw [k]))
      · exact Or.inr (Or.inr k)
    · rcases h _ (Or.inr (Or.inr rfl)) with k | k | k
      · exact Or.inl (by rw [k])
      · exact Or.inr (Or.inl (by rw [k]))
      · exact Or.inr (Or.inr k)

open Classical in
/-- C85, the triangles cover the polygon: if also the last triangle runs counter clockwise, the number of triangles
that contain a point, off their sides, in their interior is the winding number of the polygon about the point. So
where the winding number is zero or one, as for simple polygons, the interiors are disjoint and the triangles
cover exactly the points of winding number one. -/
theorem c85_cover_partial (hs : IsSqrt sqrt) (h0 : 0 ≤ g.minTolerance) (hT : g.tol1D < 1 / 2) (h1 : g.tolSq ≤ 1)
    (h1D : 0 ≤ g.tolerance1D) {polygon : List (V3 K)} (hz : ∀ p ∈ polygon, p.z = 0)
    (hnd : polygon.Nodup) (hr : EarResolved g sqrt polygon) {l : List Nat}
    (h : g.triangulationByEarClipping sqrt polygon = ok l) {ts : List (V3 K × V3 K × V3 K)}
    (hts : extractTriangulationPoints polygon l = ok ts) (hccw : ∀ t ∈ ts, 0 < area2 t.1 t.2.1 t.2.2)
    (p : V3 K) (hp : p.z = 0) (hoff : ∀ t ∈ ts, OffSides t p) :
    windingNumber polygon p = ((ts.filter fun t => decide (InsideTriangle t p)).length : Int) := by
  obtain ⟨ts', e, -, -, -, hm, -, -, hw, -⟩ := c85_triangles_partial hs h0 hT h1 h1D hz hnd hr h
  rw [hts] at e
  cases e
  rw [hw p]
  clear hw hts h
  induction ts with
  | nil => rfl
  | cons t ts ih =>
    obtain ⟨m1, m2, m3, -⟩ := hm t (by simp)
    have hwt := winding_triangle (hz _ m1) (hz _ m2) (hz _ m3) hp (hccw t (by simp)) (hoff t (by simp))
    rw [List.map_cons, List.sum_cons, ih (fun t ht => hccw t (by simp [ht])) (fun t ht => hoff t (by simp [ht]))
      (fun t ht => hm t (by simp [ht])), List.filter_cons]
    by_cases hi : InsideTriangle t p
    · rw [if_pos (by simpa using hi), hwt.1 hi, List.length_cons]; push_cast; ring
    · rw [if_neg (by simpa using hi), hwt.2 hi, zero_add]

/-! ### Convex polygons -/

/-- Any three elements in the order of the list turn left. -/
def TurnsLeftAt (P : Nat → V3 K) (ids : List Nat) : Prop :=
  ∀ x y z, [x, y, z].Sublist ids → 0 < area2 (P x) (P y) (P z)

theorem TurnsLeftAt.rotate {P : Nat → V3 K} {L L' : List Nat} (h : L ~r L') (hL : TurnsLeftAt P L) :
    TurnsLeftAt P L' := by
  obtain ⟨n, rfl⟩ := h
  induction n with
  | zero => rwa [List.rotate_zero]
  | succ n ih =>
    rw [← List.rotate_rotate]
    generalize L.rotate n = M at ih
    match M with
    | [] => exact ih
    | a :: l =>
      rw [List.rotate_cons_succ, List.rotate_zero]
      intro x y z hs
      obtain ⟨l1, l2, e, s1, s2⟩ := List.sublist_append_iff.1 hs
      have h2 : l2 = [] ∨ l2 = [a] := by
        cases l2 with
        | nil => exact Or.inl rfl
        | cons b l2 =>
          right
          have := s2.length_le
          simp at this
          subst this
          have := s2.mem (a := b) (by simp)
          simp at this
          rw [this]
      rcases h2 with rfl | rfl
      · rw [List.append_nil] at e
        subst e
        exact ih x y z (s1.trans (List.sublist_cons_self _ _))
      · have e' : [x, y] ++ [z] = l1 ++ [a] := e
        obtain ⟨rfl, e2⟩ := List.append_inj' e' rfl
        obtain rfl : z = a := by simpa using e2
        rw [area2_cyc]
        exact ih z x y (s1.cons₂ z)

theorem turnsLeftAt_range {polygon : List (V3 K)} (h : TurnsLeft polygon) :
    TurnsLeftAt (vtx polygon) (List.range polygon.length) := by
  intro x y z hs
  have hp := List.pairwise_lt_range.sublist hs
  simp only [List.pairwise_cons, List.mem_cons, List.not_mem_nil, or_false, forall_eq_or_imp, forall_eq] at hp
  have hx := List.mem_range.1 (hs.mem (a := x) (by simp))
  have hy := List.mem_range.1 (hs.mem (a := y) (by simp))
  have hz := List.mem_range.1 (hs.mem (a := z) (by simp))
  refine h x y z _ _ _ hp.1.1 hp.2.1 ?_ ?_ ?_ <;> simp [vtx, hx, hy, hz]

theorem clearOf_outside (hg : EarCfg g sqrt) {a b c p : V3 K} (ha : a.z = 0) (hb : b.z = 0) (hc : c.z = 0)
    (hp : p.z = 0) (h1 : ¬ g.OnLine a b p) (h2 : ¬ g.OnLine b c p) (h3 : ¬ g.OnLine c a p)
    (hneg : area2 c a p < 0) : g.clearOf sqrt a b c p = true := by
  have hf : FlatPolygon [a, b, c] := ⟨by simp, by simp [ha, hb, hc]⟩
  have hout : g.pointPolygonPosition sqrt p [a, b, c] = ok .outside := by
    rcases c69_off_lines sqrt g [a, b, c] p hg.hs hg.h0 hg.hT hg.h1 hg.h1D hf hp (by
      rintro v x y ⟨e1, e2⟩
      have hv : v < 3 := (List.getElem?_eq_some_iff.1 e1).1
      interval_cases v <;> simp at e1 e2 <;> subst e1 e2 <;> assumption) with ⟨-, k⟩ | ⟨k, -⟩
    · exact absurd (k 2 c a ⟨by simp, by simp⟩) (not_lt.2 hneg.le)
    · exact k
  unfold GeoCfg.clearOf
  obtain ⟨box, hbox⟩ : ∃ box, pointsBoundingBox [a, b, c] = ok box := ⟨_, rfl⟩
  rw [hbox, hout]
  simp [PointPolygonPos.isInside]

theorem earRounds_convex (hg : EarCfg g sqrt) (polygon : List (V3 K)) (hz : ∀ p ∈ polygon, p.z = 0)
    (hr : EarResolved g sqrt polygon) (hl : LinesResolved g polygon) (fuel : Nat) :
    ∀ (ids acc : List Nat), ids.Nodup → 2 < ids.length → ids.length ≤ fuel + 2 →
      (∀ i ∈ ids, i < polygon.length) → TurnsLeftAt (vtx polygon) ids →
      ∃ ts, g.earRounds sqrt polygon fuel ids (ids.map (vtx polygon)) acc = ok (acc ++ flat3 ts) ∧
        ts.length + 2 = ids.length ∧ ∀ t ∈ ts, 0 < area2 (vtx polygon t.1) (vtx polygon t.2.1) (vtx polygon t.2.2) := by
  induction fuel with
  | zero => intro ids acc _ h1 h2; omega
  | succ fuel ih =>
    intro ids acc hn h3 hle hlt ht
    have hmemP : ∀ i ∈ ids, vtx polygon i ∈ polygon := by
      intro i hi
      unfold vtx
      simp [hlt i hi]
    have hall : ids.filter (g.keeps sqrt polygon ids) = ids := by
      rw [List.filter_eq_self]
      intro y hy
      have hv : ids.idxOf y < ids.length := List.idxOf_lt_length_of_mem hy
      have hp := cyclePrev_lt hv
      have hx := next_lt hv
      have hc := cycCorner_of_getElem h3 hv (List.getElem?_eq_getElem hp) (List.getElem?_idxOf hy)
        (List.getElem?_eq_getElem hx)
      have hm := hc.mem
      rw [keeps_corner polygon hn h3 hc, Bool.not_eq_true', ← Bool.not_eq_true,
        aligned_iff hg hr hz (hmemP _ hm.1) (hmemP _ hm.2.1) (hmemP _ hm.2.2)]
      obtain ⟨t, hrot⟩ := hc
      have := ht.rotate hrot _ _ _ (((List.nil_sublist t).cons₂ _).cons₂ _ |>.cons₂ _)
      exact this.ne'
    have hround := earRounds_succ hg polygon hz fuel hn h3 hlt acc
    simp only [hall] at hround
    rw [hround, if_neg (by omega)]
    by_cases h4 : ids.length = 3
    · rw [if_pos h4]
      match ids, h4, ht with
      | [i, j, k], _, ht =>
        refine ⟨[(i, j, k)], rfl, rfl, ?_⟩
        intro t h
        simp at h
        subst h
        exact ht i j k (List.Sublist.refl _)
    · rw [if_neg h4]
      -- the first vertex is an ear
      have hear : g.isEarAt sqrt (ids.map (vtx polygon)) 0 = true := by
        have hp : cyclePrev ids.length 0 < ids.length := cyclePrev_lt (by omega)
        have hx : (0 + 1) % ids.length < ids.length := next_lt (by omega)
        have e1 : cyclePrev ids.length 0 = ids.length - 1 := rfl
        have e2 : (0 + 1) % ids.length = 1 := Nat.mod_eq_of_lt (by omega)
        match ids, h3, h4 with
        | y :: z :: r, h3, h4 =>
          rcases List.eq_nil_or_concat r with rfl | ⟨m, x, hmx⟩
          · simp at h3
          · rw [List.concat_eq_append] at hmx
            subst hmx
            unfold GeoCfg.isEarAt
            have g1 : ((y :: z :: (m ++ [x])).map (vtx polygon))[cyclePrev
                ((y :: z :: (m ++ [x])).map (vtx polygon)).length 0]? = some (vtx polygon x) := by
              rw [List.length_map, e1, List.getElem?_map]
              simp
            have g2 : ((y :: z :: (m ++ [x])).map (vtx polygon))[0]? = some (vtx polygon y) := rfl
            have g3 : ((y :: z :: (m ++ [x])).map (vtx polygon))[(0 + 1) %
                ((y :: z :: (m ++ [x])).map (vtx polygon)).length]? = some (vtx polygon z) := by
              rw [List.length_map, e2]; rfl
            rw [g1, g2, g3]
            have pyzx := ht y z x (((List.sublist_append_right m [x]).cons₂ z).cons₂ y)
            have hpx := hmemP x (by simp)
            have hpy := hmemP y (by simp)
            have hpz := hmemP z (by simp)
            have hpos : 0 < area2 (vtx polygon x) (vtx polygon y) (vtx polygon z) := by
              rw [area2_cyc] at pyzx; exact pyzx
            have hps := (polar_sign g hg.h0 (hr _ hpx _ hpy _ hpz)).2
            simp only [Bool.and_eq_true, Bool.not_eq_true', List.all_eq_true, Bool.or_eq_true, decide_eq_true_eq]
            refine ⟨?_, ?_⟩
            · rw [← Bool.not_eq_true, hps]; exact not_lt.2 hpos.le
            · intro ov hov
              have hov := List.mem_range.1 hov
              rw [List.length_map] at hov ⊢
              rw [e1, e2]
              by_cases hin : ov = 0 ∨ ov = (y :: z :: (m ++ [x])).length - 1 ∨ ov = 1
              · exact Or.inl hin
              · right
                push Not at hin
                have hm : ov - 2 < m.length := by
                  simp at hov hin; omega
                have hget : (y :: z :: (m ++ [x]))[ov]? = some m[ov - 2] := by
                  obtain ⟨j, rfl⟩ : ∃ j, ov = j + 2 := ⟨ov - 2, by omega⟩
                  simp only [List.getElem?_cons_succ]
                  rw [List.getElem?_append_left (by simpa using hm)]
                  simp at hm
                  simp [hm]
                rw [List.getElem?_map, hget]
                simp only [Option.map_some]
                set q := m[ov - 2] with hq
                have hqm : q ∈ m := List.getElem_mem hm
                have sub : [q].Sublist m := List.singleton_sublist.2 hqm
                have sqx : [q, x].Sublist (m ++ [x]) := sub.append (List.Sublist.refl [x])
                have a1 := ht y z q (((sub.trans (List.sublist_append_left m [x])).cons₂ z).cons₂ y)
                have a2 := ht y q x ((sqx.cons z).cons₂ y)
                have a3 := ht z q x ((sqx.cons₂ z).cons y)
                have hpq := hmemP q (by simp [hqm])
                have b1 : 0 < area2 (vtx polygon x) (vtx polygon y) (vtx polygon q) := by
                  rw [area2_cyc] at a2; exact a2
                have b3 : area2 (vtx polygon z) (vtx polygon x) (vtx polygon q) < 0 := by
                  rw [area2_swap']; linarith
                refine clearOf_outside hg (hz _ hpx) (hz _ hpy) (hz _ hpz) (hz _ hpq) ?_ ?_ ?_ b3
                · exact (hl _ hpx _ hpy _ hpq).resolve_left b1.ne'
                · exact (hl _ hpy _ hpz _ hpq).resolve_left a1.ne'
                · exact (hl _ hpz _ hpx _ hpq).resolve_left b3.ne
      have hfind : (List.range ids.length).find? (g.isEarAt sqrt (ids.map (vtx polygon))) = some 0 := by
        obtain ⟨n, hn'⟩ : ∃ n, ids.length = n + 1 := ⟨ids.length - 1, by omega⟩
        rw [hn', List.range_succ_eq_map, List.find?_cons, hear]
      rw [hfind]
      simp only
      have hlen'' : (ids.eraseIdx 0).length = ids.length - 1 := by rw [List.length_eraseIdx, if_pos (by omega)]
      obtain ⟨ts, e, e', hpos⟩ := ih (ids.eraseIdx 0) (acc ++ earTriple ids 0)
        (List.Nodup.sublist (List.eraseIdx_sublist _ _) hn) (by omega) (by omega)
        (fun i hi => hlt i (List.mem_of_mem_eraseIdx hi)) (fun x y z hs => ht x y z (hs.trans (List.eraseIdx_sublist _ _)))
      refine ⟨(ids.getD 0 0, ids.getD ((0 + 1) % ids.length) 0, ids.getD (cyclePrev ids.length 0) 0) :: ts, ?_, ?_, ?_⟩
      · rw [e]; simp [flat3, earTriple]
      · rw [List.length_cons]; omega
      · intro t h
        rcases List.mem_cons.1 h with rfl | h
        · have hp : cyclePrev ids.length 0 < ids.length := cyclePrev_lt (by omega)
          have hx : (0 + 1) % ids.length < ids.length := next_lt (by omega)
          have hv : 0 < ids.length := by omega
          obtain ⟨t, hrot⟩ := cycCorner_of_getElem h3 hv (List.getElem?_eq_getElem hp) (List.getElem?_eq_getElem hv)
            (List.getElem?_eq_getElem hx)
          have := ht.rotate hrot _ _ _ (((List.nil_sublist t).cons₂ _).cons₂ _ |>.cons₂ _)
          simp only [List.getD_eq_getElem?_getD, List.getElem?_eq_getElem hp, List.getElem?_eq_getElem hv,
            List.getElem?_eq_getElem hx, Option.getD_some]
          rw [area2_cyc]
          exact this
        · exact hpos t h

/-- C85, strictly convex polygons: the program returns `n - 2` triangles and all of them run counter clockwise. -/
theorem c85_convex (hs : IsSqrt sqrt) (h0 : 0 ≤ g.minTolerance) (hT : g.tol1D < 1 / 2) (h1 : g.tolSq ≤ 1)
    (h1D : 0 ≤ g.tolerance1D) {polygon : List (V3 K)} (hz : ∀ p ∈ polygon, p.z = 0) (h3 : 2 < polygon.length)
    (hc : TurnsLeft polygon) (hr : EarResolved g sqrt polygon) (hl : LinesResolved g polygon) :
    ∃ l ts, g.triangulationByEarClipping sqrt polygon = ok l ∧ extractTriangulationPoints polygon l = ok ts ∧
      ts.length + 2 = polygon.length ∧ (∀ t ∈ ts, 0 < area2 t.1 t.2.1 t.2.2) ∧
      g.polygonArea polygon = ok (triangleAreas ts) := by
  have hg : EarCfg g sqrt := ⟨hs, h0, hT, h1, h1D⟩
  have hnd : polygon.Nodup := by
    rw [List.nodup_iff_getElem?_ne_getElem?]
    intro i j hij hj e
    have hi : i < polygon.length := by omega
    obtain ⟨k, hk, hki, hkj⟩ : ∃ k, k < polygon.length ∧ k ≠ i ∧ k ≠ j := by
      by_cases h : i = 0
      · by_cases h' : j = 1
        · exact ⟨2, by omega, by omega, by omega⟩
        · exact ⟨1, by omega, by omega, by omega⟩
      · exact ⟨0, by omega, by omega, by omega⟩
    rw [List.getElem?_eq_getElem hi, List.getElem?_eq_getElem hj] at e
    have e : polygon[i] = polygon[j] := by simpa using e
    have ei := List.getElem?_eq_getElem hi
    have ej := List.getElem?_eq_getElem hj
    have ek := List.getElem?_eq_getElem hk
    rcases lt_trichotomy k i with k1 | k1 | k1
    · have := hc k i j _ _ _ k1 hij ek ei ej
      rw [e] at this; simp only [area2] at this; linarith
    · exact hki k1
    · rcases lt_trichotomy k j with k2 | k2 | k2
      · have := hc i k j _ _ _ k1 k2 ei ek ej
        rw [e] at this; simp only [area2] at this; linarith
      · exact hkj k2
      · have := hc i j k _ _ _ hij k2 ei ej ek
        rw [e] at this; simp only [area2] at this; linarith
  obtain ⟨ts, e, hlen, hpos⟩ := earRounds_convex hg polygon hz hr hl polygon.length (List.range polygon.length) []
    List.nodup_range (by simpa using h3) (by simp) (fun i hi => List.mem_range.1 hi) (turnsLeftAt_range hc)
  rw [range_vtx, List.nil_append] at e
  have hok : g.triangulationByEarClipping sqrt polygon = ok (flat3 ts) := by
    unfold GeoCfg.triangulationByEarClipping
    rw [assert_true h3, ok_bind, e, ok_bind, assert_true (by rw [flat3_length]; omega), ok_bind]
  obtain ⟨h2, ts', e', R⟩ := earClipping_run hg hz hnd hr hok
  obtain ⟨us, hus, hul, -, -, -, -, ha, -⟩ := c85_triangles_partial hs h0 hT h1 h1D hz hnd hr hok
  refine ⟨_, us, hok, hus, ?_, ?_, ha⟩
  · rw [flat3_length] at hul
    simp at hlen
    omega
  · have hmem : ∀ t ∈ ts, t.1 < polygon.length ∧ t.2.1 < polygon.length ∧ t.2.2 < polygon.length := by
      have inj : ts = ts' := by
        have gen : ∀ a b : List (Nat × Nat × Nat), flat3 a = flat3 b → a = b := by
          intro a
          induction a with
          | nil =>
            intro b h
            cases b with
            | nil => rfl
            | cons t b => simp [flat3] at h
          | cons t a ih =>
            intro b h
            cases b with
            | nil => simp [flat3] at h
            | cons u b =>
              simp only [flat3, List.flatMap_cons, List.cons_append, List.nil_append, List.cons.injEq] at h
              obtain ⟨h1, h2, h3, h4⟩ := h
              rw [ih b h4, show t = u from Prod.ext h1 (Prod.ext h2 h3)]
        exact gen _ _ e'
      intro t ht
      obtain ⟨m1, m2, m3⟩ := R.mem t (inj ▸ ht)
      exact ⟨List.mem_range.1 m1, List.mem_range.1 m2, List.mem_range.1 m3⟩
    have hus' : extractTriangulationPoints polygon (flat3 ts) = ok (ts.map (corners3 (vtx polygon))) := by
      apply extractTriangulationPoints_eq
      intro t ht
      obtain ⟨m1, m2, m3⟩ := hmem t ht
      simp [corners3, vtx, m1, m2, m3]
    rw [hus] at hus'
    cases hus'
    intro t ht
    obtain ⟨u, hu, rfl⟩ := List.mem_map.1 ht
    exact hpos u hu

/-! ### Integer coordinates -/

/-- `p` has integer coordinates up to 2¹⁰ in absolute value and is in the plane. -/
def IsSmallGridPoint (p : V3 ℝ) : Prop :=
  ∃ i j : ℤ, |i| ≤ 2 ^ 10 ∧ |j| ≤ 2 ^ 10 ∧ p = ⟨i, j, 0⟩

theorem IsSmallGridPoint.grid {p : V3 ℝ} (h : IsSmallGridPoint p) : IsGridPoint p := by
  obtain ⟨i, j, hi, hj, e⟩ := h
  exact ⟨i, j, hi.trans (by norm_num), hj.trans (by norm_num), e⟩

theorem earResolved_grid {pts : List (V3 ℝ)} (h : ∀ p ∈ pts, IsSmallGridPoint p) :
    EarResolved defaultGeo Real.sqrt pts :=
  (hullResolved_grid fun p hp => (h p hp).grid).turn

theorem linesResolved_grid {pts : List (V3 ℝ)} (h : ∀ p ∈ pts, IsSmallGridPoint p) :
    LinesResolved defaultGeo pts := by
  intro a ha b hb c hc
  obtain ⟨i, j, hi, hj, rfl⟩ := h a ha
  obtain ⟨k, l, hk, hl, rfl⟩ := h b hb
  obtain ⟨m, n, hm, hn, rfl⟩ := h c hc
  have ea : area2 (⟨i, j, 0⟩ : V3 ℝ) ⟨k, l, 0⟩ ⟨m, n, 0⟩ =
      (((k - i) * (n - j) - (l - j) * (m - i) : ℤ) : ℝ) := by
    unfold area2; push_cast; ring
  have ec : cross2 (⟨i, j, 0⟩ : V3 ℝ) ⟨k, l, 0⟩ ⟨m, n, 0⟩ =
      ((((k - i) * (n - j) - (l - j) * (m - i)) * ((k - i) * (n - j) - (l - j) * (m - i)) : ℤ) : ℝ) := by
    unfold cross2; push_cast; ring
  by_cases h0 : (k - i) * (n - j) - (l - j) * (m - i) = 0
  · left; rw [ea, h0]; simp
  · right
    unfold GeoCfg.OnLine
    rw [ec, dist2_grid, dist2_grid, defaultGeo_tolSq]
    rw [abs_le] at hi hj hk hl hm hn
    have d1 : (i - k) * (i - k) + (j - l) * (j - l) ≤ 2 ^ 23 := by nlinarith
    have d2 : (i - m) * (i - m) + (j - n) * (j - n) ≤ 2 ^ 23 := by nlinarith
    have d1' : 0 ≤ (i - k) * (i - k) + (j - l) * (j - l) := add_nonneg (mul_self_nonneg _) (mul_self_nonneg _)
    have d2' : 1 ≤ (i - m) * (i - m) + (j - n) * (j - n) := by
      by_contra hcon
      have p1 := mul_self_nonneg (i - m)
      have p2 := mul_self_nonneg (j - n)
      have e1 : i - m = 0 := mul_self_eq_zero.1 (by omega)
      have e2 : j - n = 0 := mul_self_eq_zero.1 (by omega)
      have e3 : m = i := by omega
      have e4 : n = j := by omega
      subst e3 e4
      simp at h0
    have hsq : 1 ≤ ((k - i) * (n - j) - (l - j) * (m - i)) * ((k - i) * (n - j) - (l - j) * (m - i)) := by
      have := mul_self_pos.2 h0
      omega
    set D1 := (i - k) * (i - k) + (j - l) * (j - l)
    set D2 := (i - m) * (i - m) + (j - n) * (j - n)
    set S := ((k - i) * (n - j) - (l - j) * (m - i)) * ((k - i) * (n - j) - (l - j) * (m - i))
    have r1 : (D1 : ℝ) ≤ 2 ^ 23 := by exact_mod_cast d1
    have r2 : (D2 : ℝ) ≤ 2 ^ 23 := by exact_mod_cast d2
    have r1' : (0 : ℝ) ≤ D1 := by exact_mod_cast d1'
    have r2' : (1 : ℝ) ≤ D2 := by exact_mod_cast d2'
    have rs : (1 : ℝ) ≤ S := by exact_mod_cast hsq
    push Not
    constructor
    · refine lt_of_lt_of_le ?_ r2'; norm_num
    · refine lt_of_lt_of_le ?_ rs
      have : (D1 : ℝ) * D2 ≤ 2 ^ 23 * 2 ^ 23 := mul_le_mul r1 r2 (by linarith) (by norm_num)
      calc (10 : ℝ) / 2 ^ 52 * (D1 * D2) ≤ 10 / 2 ^ 52 * (2 ^ 23 * 2 ^ 23) := by
            apply mul_le_mul_of_nonneg_left this; positivity
        _ < 1 := by norm_num

/-- C85 with the default tolerances: polygons with integer coordinates up to 2¹⁰ and distinct vertices meet the
hypotheses on the tolerances, so the triangles that are returned have areas that add up to the area of the polygon;
if the polygon is strictly convex and runs counter clockwise, `n - 2` triangles are returned. -/
theorem c85_grid {polygon : List (V3 ℝ)} (hp : ∀ p ∈ polygon, IsSmallGridPoint p) (hnd : polygon.Nodup) :
    (∀ l, defaultGeo.triangulationByEarClipping Real.sqrt polygon = ok l → ∃ ts,
      extractTriangulationPoints polygon l = ok ts ∧ defaultGeo.polygonArea polygon = ok (triangleAreas ts) ∧
      ∀ p, windingNumber polygon p = (ts.map fun t => windingNumber [t.1, t.2.1, t.2.2] p).sum) ∧
    (2 < polygon.length → TurnsLeft polygon → ∃ l ts,
      defaultGeo.triangulationByEarClipping Real.sqrt polygon = ok l ∧ extractTriangulationPoints polygon l = ok ts ∧
      ts.length + 2 = polygon.length ∧ ∀ t ∈ ts, 0 < area2 t.1 t.2.1 t.2.2) := by
  have hz : ∀ p ∈ polygon, p.z = 0 := by
    intro p h
    obtain ⟨i, j, -, -, rfl⟩ := hp p h
    rfl
  have c1 : (0 : ℝ) ≤ defaultGeo.minTolerance := by norm_num [defaultGeo]
  have c2 : defaultGeo.tol1D < 1 / 2 := by rw [defaultGeo_tol1D]; norm_num
  have c3 : defaultGeo.tolSq ≤ 1 := by rw [defaultGeo_tolSq]; norm_num
  have c4 : (0 : ℝ) ≤ defaultGeo.tolerance1D := by norm_num [defaultGeo]
  constructor
  · intro l hl
    obtain ⟨ts, e1, -, -, -, -, -, e2, e3, -⟩ :=
      c85_triangles_partial isSqrt_real c1 c2 c3 c4 hz hnd (earResolved_grid hp) hl
    exact ⟨ts, e1, e2, e3⟩
  · intro h3 hc
    obtain ⟨l, ts, e1, e2, e3, e4, -⟩ :=
      c85_convex isSqrt_real c1 c2 c3 c4 hz h3 hc (earResolved_grid hp) (linesResolved_grid hp)
    exact ⟨l, ts, e1, e2, e3, e4⟩

/-! ### Examples -/

theorem turnsLeft_of_triplewise {vs : List (V3 K)} (h : vs.Triplewise fun a b c => 0 < area2 a b c) : TurnsLeft vs := by
  intro i j k a b c hij hjk ha hb hc
  obtain ⟨hi, rfl⟩ := List.getElem?_eq_some_iff.1 ha
  obtain ⟨hj, rfl⟩ := List.getElem?_eq_some_iff.1 hb
  obtain ⟨hk, rfl⟩ := List.getElem?_eq_some_iff.1 hc
  exact (List.triplewise_iff_getElem.1 h) i j k hij hjk hk

/-- The hypotheses of `c85_grid`, `c85_convex`, `c85_triangles_partial` and `c85_cover_partial`: a square with the
default tolerances. -/
example : ∃ l ts, defaultGeo.triangulationByEarClipping Real.sqrt
      [⟨0, 0, 0⟩, ⟨2, 0, 0⟩, ⟨2, 2, 0⟩, ⟨0, 2, 0⟩] = ok l ∧
    extractTriangulationPoints ([⟨0, 0, 0⟩, ⟨2, 0, 0⟩, ⟨2, 2, 0⟩, ⟨0, 2, 0⟩] : List (V3 ℝ)) l = ok ts ∧ ts.length = 2 := by
  obtain ⟨l, ts, e1, e2, e3, -⟩ := (c85_grid (polygon := [⟨0, 0, 0⟩, ⟨2, 0, 0⟩, ⟨2, 2, 0⟩, ⟨0, 2, 0⟩]) (by
      intro p hp
      simp only [List.mem_cons, List.not_mem_nil, or_false] at hp
      rcases hp with rfl | rfl | rfl | rfl
      · exact ⟨0, 0, by norm_num, by norm_num, by simp⟩
      · exact ⟨2, 0, by norm_num, by norm_num, by simp⟩
      · exact ⟨2, 2, by norm_num, by norm_num, by simp⟩
      · exact ⟨0, 2, by norm_num, by norm_num, by simp⟩) (by simp)).2 (by simp) (turnsLeft_of_triplewise (by
      simp only [List.triplewise_cons, List.pairwise_cons, List.mem_cons, List.not_mem_nil, or_false]
      norm_num [area2]))
  exact ⟨l, ts, e1, e2, by simpa using e3⟩

/-- A point in the square, off the sides of the triangles, has winding number one. -/
example : windingNumber ([⟨0, 0, 0⟩, ⟨2, 0, 0⟩, ⟨2, 2, 0⟩, ⟨0, 2, 0⟩] : List (V3 ℚ)) ⟨1 / 2, 1, 0⟩ = 1 ∧
    windingNumber ([⟨0, 0, 0⟩, ⟨2, 0, 0⟩, ⟨2, 2, 0⟩, ⟨0, 2, 0⟩] : List (V3 ℚ)) ⟨3, 1, 0⟩ = 0 := by
  constructor <;> decide +kernel

/-- The hypotheses of `c85_terminates`. -/
example : defaultGeo.tol1D < 1 / 2 ∧ defaultGeo.tolSq ≤ 1 ∧ (0 : ℝ) ≤ defaultGeo.minTolerance := by
  rw [defaultGeo_tol1D, defaultGeo_tolSq]
  norm_num [defaultGeo]

end Verif
