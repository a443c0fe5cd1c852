import Verif.UnionLemmas

/-
Properties C25 and C26: union of two one-dimensional meshes.
-/
namespace Verif

open Res

variable {K : Type} [Field K] [LinearOrder K] [IsStrictOrderedRing K]

/-! ### C25 -/

/-- C25, part that holds: the union has increasing coordinates and contains exactly the points of
the two meshes, each with its type and indices.

Missing from the full statement: a point with coordinate -1 in the first mesh that is also in the
second, see the violation below. -/
theorem c25_points_partial (g : GeoCfg K) (h0 : 0 ≤ g.minTolerance) (one two : List K)
    (hM : Matching g.tol1D one two) (h1 : -1 ∈ one → ∀ b ∈ two, g.tol1D < |-1 - b|) :
    ∃ points, createUnionPoints g one two [] = ok points ∧
      (points.map (·.1)).Pairwise (· < ·) ∧
      ∀ x p, (x, p) ∈ points ↔ IsUnionPoint g.tol1D one two x p := by
  obtain ⟨m, e1, e2, e3⟩ := createUnionPoints_spec h0 hM h1
  exact ⟨m, e1, List.pairwise_map.2 e2, e3⟩

/-- C25: every point of the two meshes is in the union, and every union point is near a point of one
of them. -/
theorem c25_coordinates_partial (g : GeoCfg K) (h0 : 0 ≤ g.minTolerance) (one two : List K)
    (hM : Matching g.tol1D one two) (h1 : -1 ∈ one → ∀ b ∈ two, g.tol1D < |-1 - b|) :
    ∃ points, createUnionPoints g one two [] = ok points ∧
      (∀ a ∈ one, a ∈ points.map (·.1)) ∧
      (∀ b ∈ two, ∃ x ∈ points.map (·.1), |x - b| ≤ g.tol1D) ∧
      (∀ x ∈ points.map (·.1), x ∈ one ∨ x ∈ two) ∧
      points.length ≤ one.length + two.length := by
  obtain ⟨m, e1, e2, e3⟩ := createUnionPoints_spec h0 hM h1
  have ht : 0 ≤ g.tol1D := le_trans h0 (le_max_left _ _)
  have o1 := inOrder1 ht hM e2 e3
  have o2 := inOrder2 ht hM e2 e3
  have hsub : ∀ x ∈ m.map (·.1), x ∈ one ∨ x ∈ two := by
    intro x hx
    obtain ⟨⟨y, p⟩, hq, rfl⟩ := List.mem_map.1 hx
    rcases (e3 y p).1 hq with ⟨i, hi, _⟩ | ⟨i, j, b, hi, _⟩ | ⟨j, hj, _⟩
    · exact Or.inl (List.mem_of_getElem? hi)
    · exact Or.inl (List.mem_of_getElem? hi)
    · exact Or.inr (List.mem_of_getElem? hj)
  refine ⟨m, e1, ?_, ?_, hsub, ?_⟩
  · intro a ha
    obtain ⟨i, hi⟩ := List.getElem?_of_mem ha
    have hlt := (List.getElem?_eq_some_iff.1 hi).1
    have : i ∈ m.filterMap (fun q => q.2.index1) := by
      rw [o1]; exact List.mem_range.2 hlt
    obtain ⟨q, hq, hqi⟩ := List.mem_filterMap.1 this
    have := index1_eq_some ((e3 q.1 q.2).1 hq) hqi
    rw [hi] at this
    exact List.mem_map.2 ⟨q, hq, (Option.some.inj this).symm⟩
  · intro b hb
    obtain ⟨i, hi⟩ := List.getElem?_of_mem hb
    have hlt := (List.getElem?_eq_some_iff.1 hi).1
    have : i ∈ m.filterMap (fun q => q.2.index2) := by
      rw [o2]; exact List.mem_range.2 hlt
    obtain ⟨q, hq, hqi⟩ := List.mem_filterMap.1 this
    refine ⟨q.1, List.mem_map_of_mem hq, ?_⟩
    rcases index2_eq_some ((e3 q.1 q.2).1 hq) hqi with ⟨h, _⟩ | ⟨b', h, _, h2⟩
    · rw [hi] at h
      rw [Option.some.inj h, sub_self, abs_zero]; exact ht
    · rw [hi] at h
      rw [Option.some.inj h]; exact h2
  · have hnd : (m.map (·.1)).Nodup :=
      (List.pairwise_map.2 e2 : (m.map (·.1)).Pairwise (· < ·)).imp fun h => ne_of_lt h
    have := (List.subperm_of_subset hnd (l₂ := one ++ two) (by
      intro x hx
      rcases hsub x hx with h | h
      · exact List.mem_append_left _ h
      · exact List.mem_append_right _ h)).length_le
    simpa using this

/-- C25 fails at coordinate -1, which is used as the mark for "not found": the point -1 that is in
both meshes is recorded as a point of the second mesh only. -/
theorem c25_minus_one_violated : ∃ (g : GeoCfg ℚ) (one two : List ℚ) (points : List (ℚ × UPoint)),
    0 ≤ g.minTolerance ∧ Matching g.tol1D one two ∧ -1 ∈ one ∧ -1 ∈ two ∧
    createUnionPoints g one two [] = ok points ∧
    ∃ p, (-1, p) ∈ points ∧ p.type = .second := by
  refine ⟨⟨0, 1/10⟩, [-1, 0], [-1, 0], [(-1, ⟨.second, [0, 0]⟩), (0, ⟨.both, [1, 1]⟩)],
    le_refl _, ⟨?_, ?_, ?_, ?_⟩, by simp, by simp, ?_, ⟨.second, [0, 0]⟩, by simp, rfl⟩
  all_goals (try unfold Separated)
  all_goals decide +kernel

example : 0 ≤ (⟨0, 1/10⟩ : GeoCfg ℚ).minTolerance ∧
    Matching (⟨0, 1/10⟩ : GeoCfg ℚ).tol1D [0, 1, 2] [1/2, 21/20, 3] ∧
    (-1 ∈ [0, 1, (2 : ℚ)] → ∀ b ∈ [1/2, 21/20, (3 : ℚ)], (⟨0, 1/10⟩ : GeoCfg ℚ).tol1D < |-1 - b|) ∧
    createUnionPoints (⟨0, 1/10⟩ : GeoCfg ℚ) [0, 1, 2] [1/2, 21/20, 3] [] =
      ok [(0, ⟨.first, [0, 0]⟩), (1/2, ⟨.second, [0, 0]⟩), (1, ⟨.both, [1, 1]⟩),
        (2, ⟨.first, [2, 0]⟩), (3, ⟨.second, [0, 2]⟩)] := by
  refine ⟨le_refl _, ⟨?_, ?_, ?_, ?_⟩, ?_, ?_⟩
  all_goals (try unfold Separated)
  all_goals decide +kernel

/-! ### C26 -/

/-- The ranges of the two meshes have a point in common, or one of the meshes is empty and the other
is not. -/
def Overlap (one two : List K) : Prop :=
  (one = [] ∧ two ≠ []) ∨ (one ≠ [] ∧ two = []) ∨
  ∃ a0 al b0 bl, one.head? = some a0 ∧ one.getLast? = some al ∧ two.head? = some b0 ∧
    two.getLast? = some bl ∧ a0 ≤ bl ∧ b0 ≤ al

theorem not_uncovered {t : K} (ht : 0 ≤ t) {one two : List K} (hM : Matching t one two)
    {m : List (K × UPoint)} (e2 : MSorted m)
    (e3 : ∀ x p, (x, p) ∈ m ↔ IsUnionPoint t one two x p) (hov : Overlap one two)
    {k : Nat} {p q : K × UPoint} (hp : m[k]? = some p) (hq : m[k + 1]? = some q) :
    ¬ Uncovered m p.1 q.1 := by
  have o1 := inOrder1 ht hM e2 e3
  have o2 := inOrder2 ht hM e2 e3
  obtain ⟨lp, gp⟩ := List.getElem?_eq_some_iff.1 hp
  obtain ⟨lq, gq⟩ := List.getElem?_eq_some_iff.1 hq
  have hdec : m.take k ++ p :: q :: m.drop (k + 2) = m := by
    conv_rhs => rw [← List.take_append_drop k m]
    rw [List.drop_eq_getElem_cons lp, List.drop_eq_getElem_cons lq, gp, gq]
  have hdec' : (m.take k ++ [p]) ++ (q :: m.drop (k + 2)) = m := by
    conv_rhs => rw [← hdec]
    simp
  rintro ⟨u1, u2⟩
  have l1 := fun i => liesIn_iff e2 o1 hdec i
  have l2 := fun i => liesIn_iff e2 o2 hdec i
  obtain ⟨b1, f1, r1⟩ := o1.split hdec'
  obtain ⟨b2, f2, r2⟩ := o2.split hdec'
  have hs' := e2
  unfold MSorted at hs'
  rw [← hdec', List.pairwise_append] at hs'
  obtain ⟨s1, s2, s3⟩ := hs'
  have hpm : p ∈ m := List.mem_of_getElem? hp
  have hqm : q ∈ m := List.mem_of_getElem? hq
  have tp := ((e3 p.1 p.2).1 hpm).typeOk
  have tq := ((e3 q.1 q.2).1 hqm).typeOk
  have hp1 : 1 ≤ countSel UPoint.index1 (m.take k ++ [p]) + countSel UPoint.index2 (m.take k ++ [p]) := by
    rw [countSel_snoc, countSel_snoc]
    rcases tp with ⟨_, h1, h2⟩ | ⟨_, h1, h2⟩ | ⟨_, h1, h2⟩ <;> rw [h1, h2] <;> simp <;> omega
  have hq1 : countSel UPoint.index1 (m.take k ++ [p]) < one.length ∨
      countSel UPoint.index2 (m.take k ++ [p]) < two.length := by
    have hl1 := congrArg List.length r1
    have hl2 := congrArg List.length r2
    rw [List.length_range'] at hl1 hl2
    have : 1 ≤ (List.filterMap (fun q => q.2.index1) (q :: m.drop (k + 2))).length ∨
        1 ≤ (List.filterMap (fun q => q.2.index2) (q :: m.drop (k + 2))).length := by
      rw [List.filterMap_cons, List.filterMap_cons]
      rcases tq with ⟨_, h1, h2⟩ | ⟨_, h1, h2⟩ | ⟨_, h1, h2⟩
      · obtain ⟨v, hv⟩ := Option.isSome_iff_exists.1 h1
        left; rw [hv]; simp
      · obtain ⟨v, hv⟩ := Option.isSome_iff_exists.1 h2
        right; rw [hv]; simp
      · obtain ⟨v, hv⟩ := Option.isSome_iff_exists.1 h1
        left; rw [hv]; simp
    omega
  generalize hc1 : countSel UPoint.index1 (m.take k ++ [p]) = c1 at *
  generalize hc2 : countSel UPoint.index2 (m.take k ++ [p]) = c2 at *
  have v1 : c1 = 0 ∨ one.length ≤ c1 := by
    by_contra hcon
    exact u1 (c1 - 1) ((l1 (c1 - 1)).2 (by omega))
  have v2 : c2 = 0 ∨ two.length ≤ c2 := by
    by_contra hcon
    exact u2 (c2 - 1) ((l2 (c2 - 1)).2 (by omega))
  rcases hov with ⟨rfl, _⟩ | ⟨_, rfl⟩ | ⟨a0, al, b0, bl, ha0, hal, hb0, hbl, hab, hba⟩
  · simp at hq1 b1 v1; omega
  · simp at hq1 b2 v2; omega
  have n1 : 0 < one.length := by cases one <;> simp at ha0 ⊢
  have n2 : 0 < two.length := by cases two <;> simp at hb0 ⊢
  have hA : ∀ a ∈ one, a0 ≤ a ∧ a ≤ al := by
    intro a ha
    obtain ⟨i, hi⟩ := List.getElem?_of_mem ha
    have h0 : one[0]? = some a0 := by rw [← List.head?_eq_getElem?]; exact ha0
    have hl : one[one.length - 1]? = some al := by rw [← List.getLast?_eq_getElem?]; exact hal
    have hil := (List.getElem?_eq_some_iff.1 hi).1
    constructor
    · by_contra hcon
      have := (hM.sep1.lt_of_lt ht hi h0 (not_le.1 hcon)).1
      omega
    · by_contra hcon
      have := (hM.sep1.lt_of_lt ht hl hi (not_le.1 hcon)).1
      omega
  have h00 : one[0]? = some a0 := by rw [← List.head?_eq_getElem?]; exact ha0
  have h1l : one[one.length - 1]? = some al := by rw [← List.getLast?_eq_getElem?]; exact hal
  have h20 : two[0]? = some b0 := by rw [← List.head?_eq_getElem?]; exact hb0
  have h2l : two[two.length - 1]? = some bl := by rw [← List.getLast?_eq_getElem?]; exact hbl
  by_cases hz : c1 = 0
  · -- all of the second mesh lies before, all of the first after
    have hc2e : c2 = two.length := by omega
    have k1 : 0 ∈ (q :: m.drop (k + 2)).filterMap (fun q => q.2.index1) := by
      rw [r1, List.mem_range'_1]; omega
    have k2 : two.length - 1 ∈ (m.take k ++ [p]).filterMap (fun q => q.2.index2) := by
      rw [f2, List.mem_range]; omega
    obtain ⟨Q, hQ, hsQ⟩ := List.mem_filterMap.1 k1
    obtain ⟨P, hP, hsP⟩ := List.mem_filterMap.1 k2
    have hPQ := s3 P hP Q hQ
    have hQ1 := index1_eq_some ((e3 Q.1 Q.2).1 (by rw [← hdec']; exact List.mem_append_right _ hQ)) hsQ
    have hP1 := index2_eq_some ((e3 P.1 P.2).1 (by rw [← hdec']; exact List.mem_append_left _ hP)) hsP
    rw [h00] at hQ1
    rw [← Option.some.inj hQ1] at hPQ
    rcases hP1 with ⟨h, _⟩ | ⟨b, _, h, _⟩
    · rw [h2l] at h
      rw [← Option.some.inj h] at hPQ
      exact absurd hab (not_le.2 hPQ)
    · exact absurd (hA _ h).1 (not_le.2 hPQ)
  · have hc2z : c2 = 0 := by omega
    have hc1e : c1 = one.length := by omega
    have k1 : 0 ∈ (q :: m.drop (k + 2)).filterMap (fun q => q.2.index2) := by
      rw [r2, List.mem_range'_1]; omega
    have k2 : one.length - 1 ∈ (m.take k ++ [p]).filterMap (fun q => q.2.index1) := by
      rw [f1, List.mem_range]; omega
    obtain ⟨Q, hQ, hsQ⟩ := List.mem_filterMap.1 k1
    obtain ⟨P, hP, hsP⟩ := List.mem_filterMap.1 k2
    have hPQ := s3 P hP Q hQ
    have hQ1 := index2_eq_some ((e3 Q.1 Q.2).1 (by rw [← hdec']; exact List.mem_append_right _ hQ)) hsQ
    have hP1 := index1_eq_some ((e3 P.1 P.2).1 (by rw [← hdec']; exact List.mem_append_left _ hP)) hsP
    rw [h1l] at hP1
    rw [← Option.some.inj hP1] at hPQ
    rcases hQ1 with ⟨h, _⟩ | ⟨b, _, h, _⟩
    · rw [h20] at h
      rw [← Option.some.inj h] at hPQ
      exact absurd hba (not_le.2 hPQ)
    · exact absurd (hA _ h).2 (not_le.2 hPQ)

/-- C26, part that holds: when the ranges of the meshes have a point in common, there is one union
segment for each pair of consecutive union points; it records exactly the input segments in which it
lies.

Missing from the full statement: meshes whose ranges are disjoint, see the violation below, and
coordinate -1, see C25. -/
theorem c26_segments_partial (g : GeoCfg K) (h0 : 0 ≤ g.minTolerance) (one two : List K)
    (hM : Matching g.tol1D one two) (h1 : -1 ∈ one → ∀ b ∈ two, g.tol1D < |-1 - b|)
    (hov : Overlap one two) :
    ∃ points segments, createUnionMesh g one two = ok (points, segments) ∧
      segments.length + 1 = points.length ∧
      ∀ (k : Nat) (a b : K × UPoint), points[k]? = some a → points[k + 1]? = some b →
        ∃ s, segments[k]? = some s ∧ IsUnionSegment points a.1 b.1 s := by
  have ht : 0 ≤ g.tol1D := le_trans h0 (le_max_left _ _)
  obtain ⟨m, e1, e2, e3⟩ := createUnionPoints_spec h0 hM h1
  have o1 := inOrder1 ht hM e2 e3
  have o2 := inOrder2 ht hM e2 e3
  have hne : m ≠ [] := by
    rintro rfl
    unfold InOrder at o1 o2
    have l1 := congrArg List.length o1
    have l2 := congrArg List.length o2
    simp at l1 l2
    rcases hov with ⟨_, h⟩ | ⟨h, _⟩ | ⟨a0, al, b0, bl, ha0, _⟩
    · exact h (List.eq_nil_of_length_eq_zero l2.symm)
    · exact h (List.eq_nil_of_length_eq_zero l1.symm)
    · rw [List.eq_nil_of_length_eq_zero l1.symm] at ha0; simp at ha0
  obtain ⟨segs, g1, g2, g3⟩ := (unionSegmentsLoop_spec e2 o1 o2
    (fun q hq => ((e3 q.1 q.2).1 hq).typeOk) m [] rfl hne).1
    (fun k a b ha hb => not_uncovered ht hM e2 e3 hov ha hb)
  refine ⟨m, segs, ?_, g2, g3⟩
  unfold createUnionMesh createUnionSegments
  have i1 : runningIndex one.length (countSel UPoint.index1 ([] : List (K × UPoint))) = -1 := by
    unfold runningIndex countSel; simp
  have i2 : runningIndex two.length (countSel UPoint.index2 ([] : List (K × UPoint))) = -1 := by
    unfold runningIndex countSel; simp
  rw [i1, i2] at g1
  rw [e1, ok_bind, if_neg hne, g1, ok_bind]

/-- C26 in terms of the input coordinates: segment `k` of the first mesh contains the union segments
that name it; for the second mesh this holds within tolerance. -/
theorem c26_containment (t : K) (ht : 0 ≤ t) (one two : List K) (points : List (K × UPoint))
    (hp : ∀ x p, (x, p) ∈ points → IsUnionPoint t one two x p) (k : Nat) (a b : K) :
    (LiesIn points UPoint.index1 k a b →
      ∃ x y, one[k]? = some x ∧ one[k + 1]? = some y ∧ x ≤ a ∧ b ≤ y) ∧
    (LiesIn points UPoint.index2 k a b →
      ∃ x y, two[k]? = some x ∧ two[k + 1]? = some y ∧ x ≤ a + t ∧ b ≤ y + t) := by
  constructor
  · rintro ⟨x, y, p, q, h1, h2, h3, h4, h5, h6⟩
    exact ⟨x, y, index1_eq_some (hp _ _ h1) h3, index1_eq_some (hp _ _ h2) h4, h5, h6⟩
  · rintro ⟨x, y, p, q, h1, h2, h3, h4, h5, h6⟩
    have e1 : ∃ x', two[k]? = some x' ∧ |x - x'| ≤ t := by
      rcases index2_eq_some (hp _ _ h1) h3 with ⟨h, _⟩ | ⟨b, h, _, h'⟩
      · exact ⟨x, h, by rw [sub_self, abs_zero]; exact ht⟩
      · exact ⟨b, h, h'⟩
    have e2 : ∃ y', two[k + 1]? = some y' ∧ |y - y'| ≤ t := by
      rcases index2_eq_some (hp _ _ h2) h4 with ⟨h, _⟩ | ⟨b, h, _, h'⟩
      · exact ⟨y, h, by rw [sub_self, abs_zero]; exact ht⟩
      · exact ⟨b, h, h'⟩
    obtain ⟨x', hx, hx'⟩ := e1
    obtain ⟨y', hy, hy'⟩ := e2
    rw [abs_le] at hx' hy'
    exact ⟨x', y', hx, hy, by linarith [hx'.1], by linarith [hy'.2]⟩

/-- C26 fails for meshes with disjoint ranges: whenever all points of the first mesh lie before all
points of the second, by more than the tolerance, the call aborts. -/
theorem c26_gap_violated (g : GeoCfg K) (h0 : 0 ≤ g.minTolerance) (one two : List K)
    (h1 : Separated g.tol1D (one ++ two)) (hA : one ≠ []) (hB : two ≠ []) (hm : -1 ∉ one) :
    createUnionMesh g one two = abort := by
  have ht : 0 ≤ g.tol1D := le_trans h0 (le_max_left _ _)
  have hs := List.pairwise_append.1 h1
  have hfar : ∀ a ∈ one, ∀ b ∈ two, g.tol1D < |a - b| := by
    intro a ha b hb
    have := hs.2.2 a ha b hb
    rw [abs_of_neg (by linarith)]; linarith
  have hM : Matching g.tol1D one two :=
    ⟨hs.1, hs.2.1, fun a ha b hb _ _ h => absurd h (not_le.2 (hfar a ha b hb)),
      fun b hb a ha _ _ h => absurd h (not_le.2 (hfar a ha b hb))⟩
  obtain ⟨m, e1, e2, e3⟩ := createUnionPoints_spec h0 hM (fun h => absurd h hm)
  have o1 := inOrder1 ht hM e2 e3
  have o2 := inOrder2 ht hM e2 e3
  have n1 : 0 < one.length := List.length_pos_of_ne_nil hA
  have n2 : 0 < two.length := List.length_pos_of_ne_nil hB
  have k1 : one.length - 1 ∈ m.filterMap (fun q => q.2.index1) := by
    rw [o1, List.mem_range]; omega
  have k2 : 0 ∈ m.filterMap (fun q => q.2.index2) := by
    rw [o2, List.mem_range]; omega
  obtain ⟨P, hP, hsP⟩ := List.mem_filterMap.1 k1
  obtain ⟨R, hR, hsR⟩ := List.mem_filterMap.1 k2
  have hP1 := index1_eq_some ((e3 P.1 P.2).1 hP) hsP
  have hkey2 : ∀ x p j, (x, p) ∈ m → p.index2 = some j → x ∈ two := by
    intro x p j hx hj
    rcases index2_eq_some ((e3 x p).1 hx) hj with ⟨h, _⟩ | ⟨b, h, ha, h'⟩
    · exact List.mem_of_getElem? h
    · exact absurd h' (not_le.2 (hfar x ha b (List.mem_of_getElem? h)))
  have hPo : P.1 ∈ one := List.mem_of_getElem? hP1
  have hgt : ∀ b ∈ two, P.1 < b := by
    intro b hb
    have := hs.2.2 P.1 hPo b hb
    linarith
  obtain ⟨k, hk⟩ := List.getElem?_of_mem hP
  obtain ⟨k', hk'⟩ := List.getElem?_of_mem hR
  obtain ⟨lk, gk⟩ := List.getElem?_eq_some_iff.1 hk
  obtain ⟨lk', gk'⟩ := List.getElem?_eq_some_iff.1 hk'
  have hPR := hgt _ (hkey2 R.1 R.2 0 hR hsR)
  have hkk : k < k' := by
    rcases Nat.lt_trichotomy k k' with h | h | h
    · exact h
    · subst h; rw [gk] at gk'; rw [gk'] at hPR; exact absurd hPR (lt_irrefl _)
    · have := List.pairwise_iff_getElem.1 e2 k' k lk' lk h
      rw [gk, gk'] at this
      exact absurd this (not_lt.2 hPR.le)
  have lk1 : k + 1 < m.length := by omega
  have hPQ := List.pairwise_iff_getElem.1 e2 k (k + 1) lk lk1 (by omega)
  rw [gk] at hPQ
  have hun : Uncovered m P.1 m[k + 1].1 := by
    constructor
    · rintro i ⟨x, y, p, q, _, hq, _, hsq, _, hy⟩
      have hy1 := index1_eq_some ((e3 y q).1 hq) hsq
      have := (hM.sep1.lt_of_lt ht hP1 hy1 (lt_of_lt_of_le hPQ hy)).1
      have := (List.getElem?_eq_some_iff.1 hy1).1
      omega
    · rintro j ⟨x, y, p, q, hp, _, hsp, _, hx, _⟩
      exact absurd hx (not_le.2 (hgt x (hkey2 x p j hp hsp)))
  have hne : m ≠ [] := List.ne_nil_of_mem hP
  have := (unionSegmentsLoop_spec e2 o1 o2 (fun q hq => ((e3 q.1 q.2).1 hq).typeOk) m [] rfl hne).2
    ⟨k, P, m[k + 1], hk, List.getElem?_eq_getElem lk1, hun⟩
  have i1 : runningIndex one.length (countSel UPoint.index1 ([] : List (K × UPoint))) = -1 := by
    unfold runningIndex countSel; simp
  have i2 : runningIndex two.length (countSel UPoint.index2 ([] : List (K × UPoint))) = -1 := by
    unfold runningIndex countSel; simp
  rw [i1, i2] at this
  unfold createUnionMesh createUnionSegments
  rw [e1, ok_bind, if_neg hne, this]
  rfl

/-- C26 fails for two empty meshes: the number of segments wraps around and the call throws. -/
theorem c26_empty_violated (g : GeoCfg K) : createUnionMesh g [] [] = throw := rfl

example : createUnionMesh (⟨0, 1/10⟩ : GeoCfg ℚ) [0, 1, 2] [1/2, 21/20, 3] =
    ok ([(0, ⟨.first, [0, 0]⟩), (1/2, ⟨.second, [0, 0]⟩), (1, ⟨.both, [1, 1]⟩),
        (2, ⟨.first, [2, 0]⟩), (3, ⟨.second, [0, 2]⟩)],
      [⟨.first, (0, 1/2), (0, 0)⟩, ⟨.both, (1/2, 1), (0, 0)⟩, ⟨.both, (1, 2), (1, 1)⟩,
        ⟨.second, (2, 3), (0, 1)⟩]) := by
  decide +kernel

example : Overlap [0, 1, (2 : ℚ)] [1/2, 21/20, 3] :=
  Or.inr (Or.inr ⟨0, 2, 1/2, 3, rfl, rfl, rfl, rfl, by norm_num, by norm_num⟩)

example : Separated (⟨0, 1/10⟩ : GeoCfg ℚ).tol1D ([0, 1] ++ [2, 3]) ∧
    createUnionMesh (⟨0, 1/10⟩ : GeoCfg ℚ) [0, 1] [2, 3] = abort := by
  constructor
  · unfold Separated; decide +kernel
  · decide +kernel

end Verif
