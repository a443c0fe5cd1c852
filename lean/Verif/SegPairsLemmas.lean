import Verif.SegPairsSpec
import Verif.IntersectProps
import Verif.PointPosLemmas
import Verif.NeighLemmas

/-
Lemmas for the intersections between segments.
-/
namespace Verif

open Res

variable {K : Type} [Field K] [LinearOrder K] [IsStrictOrderedRing K]

theorem spheres_meet {sqrt : K → K} (hs : IsSqrt sqrt) (g : GeoCfg K) (h0 : 0 ≤ g.minTolerance) (a b : V3 K × V3 K) {x y : K}
    (hx0 : 0 ≤ x) (hx1 : x ≤ 1) (hy0 : 0 ≤ y) (hy1 : y ≤ 1) (hm : pointAt a.1 a.2 x = pointAt b.1 b.2 y) :
    g.noSpheresIntersection sqrt (pointAt a.1 a.2 (1 / 2)) (pointAt b.1 b.2 (1 / 2)) (sqrt (dist2 a.1 a.2)) (sqrt (dist2 b.1 b.2)) =
      false := by
  unfold GeoCfg.noSpheresIntersection
  rw [Bool.eq_false_iff]
  intro h
  have h := ((greater_1D g h0 _ _).1 h).1
  have na := norm_nonneg' hs ((pointAt b.1 b.2 (1 / 2)).sub (pointAt a.1 a.2 (1 / 2)))
  have ns := norm_sq hs ((pointAt b.1 b.2 (1 / 2)).sub (pointAt a.1 a.2 (1 / 2)))
  have d0 : ∀ p q : V3 K, 0 ≤ dist2 p q := by
    intro p q
    unfold dist2
    exact add_nonneg (add_nonneg (mul_self_nonneg _) (mul_self_nonneg _)) (mul_self_nonneg _)
  obtain ⟨la0, la⟩ := hs _ (d0 a.1 a.2)
  obtain ⟨lb0, lb⟩ := hs _ (d0 b.1 b.2)
  generalize ((pointAt b.1 b.2 (1 / 2)).sub (pointAt a.1 a.2 (1 / 2))).norm sqrt = N at *
  generalize sqrt (dist2 a.1 a.2) = A at *
  generalize sqrt (dist2 b.1 b.2) = B at *
  -- the square of twice the distance
  have e1 : 4 * (N * N) = (2 * x - 1) * (2 * x - 1) * dist2 a.1 a.2 - 2 * ((2 * x - 1) * (2 * y - 1) * dot4 a.1 a.2 b.1 b.2) +
      (2 * y - 1) * (2 * y - 1) * dist2 b.1 b.2 := by
    have gx := congrArg V3.x hm
    have gy := congrArg V3.y hm
    have gz := congrArg V3.z hm
    simp only [pointAt] at gx gy gz
    have kx : (b.1.x + 1 / 2 * (b.2.x - b.1.x)) - (a.1.x + 1 / 2 * (a.2.x - a.1.x)) =
        (x - 1 / 2) * (a.2.x - a.1.x) - (y - 1 / 2) * (b.2.x - b.1.x) := by linear_combination -gx
    have ky : (b.1.y + 1 / 2 * (b.2.y - b.1.y)) - (a.1.y + 1 / 2 * (a.2.y - a.1.y)) =
        (x - 1 / 2) * (a.2.y - a.1.y) - (y - 1 / 2) * (b.2.y - b.1.y) := by linear_combination -gy
    have kz : (b.1.z + 1 / 2 * (b.2.z - b.1.z)) - (a.1.z + 1 / 2 * (a.2.z - a.1.z)) =
        (x - 1 / 2) * (a.2.z - a.1.z) - (y - 1 / 2) * (b.2.z - b.1.z) := by linear_combination -gz
    rw [ns]
    simp only [V3.dot, V3.sub, pointAt, kx, ky, kz, dist2, dot4]
    ring
  have cs : dot4 a.1 a.2 b.1 b.2 * dot4 a.1 a.2 b.1 b.2 ≤ dist2 a.1 a.2 * dist2 b.1 b.2 := by
    have : dist2 a.1 a.2 * dist2 b.1 b.2 - dot4 a.1 a.2 b.1 b.2 * dot4 a.1 a.2 b.1 b.2 =
        ((a.2.x - a.1.x) * (b.2.y - b.1.y) - (a.2.y - a.1.y) * (b.2.x - b.1.x)) ^ 2 +
        ((a.2.x - a.1.x) * (b.2.z - b.1.z) - (a.2.z - a.1.z) * (b.2.x - b.1.x)) ^ 2 +
        ((a.2.y - a.1.y) * (b.2.z - b.1.z) - (a.2.z - a.1.z) * (b.2.y - b.1.y)) ^ 2 := by
      simp only [dist2, dot4]; ring
    have h2 : 0 ≤ dist2 a.1 a.2 * dist2 b.1 b.2 - dot4 a.1 a.2 b.1 b.2 * dot4 a.1 a.2 b.1 b.2 := by
      rw [this]; positivity
    linarith
  rw [← la, ← lb] at cs e1
  generalize dot4 a.1 a.2 b.1 b.2 = D at *
  have hD : |D| ≤ A * B := by
    have h2 : D ^ 2 ≤ (A * B) ^ 2 := by nlinarith
    exact abs_le_of_sq_le_sq h2 (mul_nonneg la0 lb0)
  have hp : |2 * x - 1| ≤ 1 := abs_le.2 ⟨by linarith, by linarith⟩
  have hq : |2 * y - 1| ≤ 1 := abs_le.2 ⟨by linarith, by linarith⟩
  have hpq : |(2 * x - 1) * (2 * y - 1) * D| ≤ A * B := by
    rw [abs_mul, abs_mul]
    have h1 : |2 * x - 1| * |2 * y - 1| ≤ 1 := by
      have := mul_le_mul hp hq (abs_nonneg _) zero_le_one
      linarith
    have h2 := mul_le_mul h1 hD (abs_nonneg _) zero_le_one
    linarith
  have hpp : (2 * x - 1) * (2 * x - 1) ≤ 1 := by nlinarith
  have hqq : (2 * y - 1) * (2 * y - 1) ≤ 1 := by nlinarith
  have k1 : (2 * x - 1) * (2 * x - 1) * (A * A) ≤ A * A := by
    have := mul_le_mul_of_nonneg_right hpp (mul_self_nonneg A)
    linarith
  have k2 : (2 * y - 1) * (2 * y - 1) * (B * B) ≤ B * B := by
    have := mul_le_mul_of_nonneg_right hqq (mul_self_nonneg B)
    linarith
  have k3 := neg_le_of_abs_le hpq
  have k4 : 4 * (N * N) ≤ (A + B) * (A + B) := by rw [e1]; linarith
  nlinarith [add_nonneg la0 lb0]

theorem parallelSegments_single {sqrt : K → K} (g : GeoCfg K) (x₁ x₂ x₃ x₄ : V3 K) (r : SegSegResult K)
    (h : g.parallelSegments sqrt x₁ x₂ x₃ x₄ = ok r) : r.segments ≠ .singleIntersection := by
  unfold GeoCfg.parallelSegments at h
  simp only at h
  split at h
  · cases h; simp
  split at h
  · cases h; simp
  obtain ⟨_, _, h⟩ := bind_eq_ok.1 h
  obtain ⟨_, _, h⟩ := bind_eq_ok.1 h
  obtain ⟨_, _, h⟩ := bind_eq_ok.1 h
  obtain ⟨_, _, h⟩ := bind_eq_ok.1 h
  cases h; simp

theorem single_lines {sqrt : K → K} (g : GeoCfg K) (x₁ x₂ x₃ x₄ : V3 K) (r : SegSegResult K)
    (h : g.intersectionSegmentSegment sqrt x₁ x₂ x₃ x₄ = ok r) (hr : r.segments = .singleIntersection) :
    r.lines = .coPlanarIntersecting := by
  unfold GeoCfg.intersectionSegmentSegment at h
  simp only at h
  obtain ⟨_, _, h⟩ := bind_eq_ok.1 h
  obtain ⟨_, _, h⟩ := bind_eq_ok.1 h
  split at h
  · cases h; cases hr
  split at h
  · obtain ⟨_, _, h⟩ := bind_eq_ok.1 h
    obtain ⟨_, _, h⟩ := bind_eq_ok.1 h
    cases h; rfl
  · exact absurd hr (parallelSegments_single g _ _ _ _ r h)

/-- What a pair gives. -/
theorem segPair_cases {sqrt : K → K} (hs : IsSqrt sqrt) {g : GeoCfg K} (h0 : 0 ≤ g.minTolerance) (hT : g.tol1D < 1 / 2)
    (h1 : g.tolSq ≤ 1) {d : SegmentsData K} (hd : d.Right g sqrt) {s t : Nat} {a b : V3 K × V3 K} (ha : d.ends[s]? = some a)
    (hb : d.ends[t]? = some b) : ∃ p, g.segPair sqrt d s t = ok p ∧ (∀ x y, p = some (x, y) → Touching g a b x y) ∧
      ∀ x y, Oblique g a b → 0 ≤ x → x ≤ 1 → 0 ≤ y → y ≤ 1 → pointAt a.1 a.2 x = pointAt b.1 b.2 y → p = some (x, y) := by
  have hs' := (List.getElem?_eq_some_iff.1 ha).1
  have ht' := (List.getElem?_eq_some_iff.1 hb).1
  have c1 : d.centers[s]? = some (d.centers[s]'(by rw [hd.centers]; exact hs')) := List.getElem?_eq_getElem _
  have c2 : d.centers[t]? = some (d.centers[t]'(by rw [hd.centers]; exact ht')) := List.getElem?_eq_getElem _
  have l1 : d.lengths[s]? = some (d.lengths[s]'(by rw [hd.lengths]; exact hs')) := List.getElem?_eq_getElem _
  have l2 : d.lengths[t]? = some (d.lengths[t]'(by rw [hd.lengths]; exact ht')) := List.getElem?_eq_getElem _
  have c1' := hd.center s a _ ha c1
  have c2' := hd.center t b _ hb c2
  have l1' := hd.length s a _ ha l1
  have l2' := hd.length t b _ hb l2
  rw [c1'] at c1
  rw [c2'] at c2
  rw [l1'] at l1
  rw [l2'] at l2
  have ga := hd.long a (List.mem_of_getElem? ha)
  have gb := hd.long b (List.mem_of_getElem? hb)
  obtain ⟨r, hr⟩ := (c65_degenerate sqrt hs g h0 hT a.1 a.2 b.1 b.2).2 ⟨ga, gb⟩
  unfold GeoCfg.segPair
  simp only [vget, ha, hb, c1, c2, l1, l2, ok_bind, hr]
  by_cases hn : g.noSpheresIntersection sqrt (pointAt a.1 a.2 (1 / 2)) (pointAt b.1 b.2 (1 / 2)) (sqrt (dist2 a.1 a.2))
      (sqrt (dist2 b.1 b.2)) = true
  · rw [if_pos hn]
    refine ⟨none, rfl, by simp, ?_⟩
    intro x y _ hx0 hx1 hy0 hy1 hm
    rw [spheres_meet hs g h0 a b hx0 hx1 hy0 hy1 hm] at hn
    cases hn
  rw [if_neg hn]
  by_cases hsing : r.segments = .singleIntersection
  · obtain ⟨x, y, ps, pq, r1, r2, _, _, _, o1, o2, _, hin, _, hnear⟩ :=
      c65_nearest_points sqrt hs g h0 hT a.1 a.2 b.1 b.2 r hr (single_lines g _ _ _ _ r hr hsing)
    rw [if_neg (not_not.2 hsing), r1, r2]
    refine ⟨some (x, y), rfl, ?_, ?_⟩
    · intro x' y' he
      simp only [Option.some.injEq, Prod.mk.injEq] at he
      obtain ⟨rfl, rfl⟩ := he
      exact ⟨(hin.1 hsing).1, (hin.1 hsing).2, ⟨o1, o2⟩, hnear⟩
    · intro x' y' ho hx0 hx1 hy0 hy1 hm
      obtain ⟨_, _, _, _, k⟩ := c65_crossing_partial sqrt hs g h0 hT h1 a.1 a.2 b.1 b.2 ga gb ho x' y' hx0 hx1 hy0 hy1 hm
      rw [hr] at k
      have k := ok.inj k
      rw [k] at r1 r2
      simp only [List.cons.injEq, SegPos.mk.injEq, and_true] at r1 r2
      rw [r1.2, r2.2]
  · rw [if_pos hsing]
    refine ⟨none, rfl, by simp, ?_⟩
    intro x' y' ho hx0 hx1 hy0 hy1 hm
    obtain ⟨_, _, _, _, k⟩ := c65_crossing_partial sqrt hs g h0 hT h1 a.1 a.2 b.1 b.2 ga gb ho x' y' hx0 hx1 hy0 hy1 hm
    rw [hr] at k
    rw [ok.inj k] at hsing
    exact absurd rfl hsing

/-! ### The loops -/

theorem foldRes_range_states {σ : Type} {f : σ → Nat → Res σ} (G : Nat → σ) (n : Nat) (h : ∀ i, i < n → f (G i) i = ok (G (i + 1))) :
    foldRes f (G 0) (List.range n) = ok (G n) := by
  induction n with
  | zero => rfl
  | succ n ih =>
    rw [foldRes_range_succ, ih fun i hi => h i (by omega), ok_bind, h n (by omega)]

/-- The coordinates on segment `s` for the pair with `t`. -/
def crossOf (P : Nat → Nat → Option (K × K)) (s t : Nat) : Option K :=
  if s < t then (P s t).map Prod.fst else if t < s then (P t s).map Prod.snd else none

/-- How many segments have been compared with `s` before the pair of `a` and `b`. -/
def pairBound (n a b s : Nat) : Nat := if s < a then n else if s = a then b else if s < b then a + 1 else a

/-- The lists before the pair of `a` and `b`. -/
def pairState (P : Nat → Nat → Option (K × K)) (n a b : Nat) : List (List K) :=
  (List.range n).map fun s => (List.range (pairBound n a b s)).filterMap (crossOf P s)

theorem filterMap_range_succ {β : Type} (f : Nat → Option β) (k : Nat) :
    (List.range (k + 1)).filterMap f = (List.range k).filterMap f ++ (f k).toList := by
  rw [List.range_succ, List.filterMap_append]
  cases hf : f k <;> simp [hf]

theorem pairState_step (P : Nat → Nat → Option (K × K)) {n a b : Nat} (hab : a < b) (hb : b < n) :
    pushPair (pairState P n a b) a b (P a b) = ok (pairState P n a (b + 1)) := by
  have hget : ∀ a' b' s, s < n → (pairState P n a' b')[s]? = some ((List.range (pairBound n a' b' s)).filterMap (crossOf P s)) := by
    intro a' b' s hs
    simp [pairState, hs]
  have hlen : ∀ a' b', (pairState P n a' b').length = n := by simp [pairState]
  have other : ∀ s, s ≠ a → s ≠ b → pairBound n a (b + 1) s = pairBound n a b s := by
    intro s h1 h2
    unfold pairBound
    by_cases h3 : s < a
    · rw [if_pos h3, if_pos h3]
    · rw [if_neg h3, if_neg h3, if_neg h1, if_neg h1]
      by_cases h4 : s < b
      · rw [if_pos h4, if_pos (by omega)]
      · rw [if_neg h4, if_neg (by omega)]
  have ba : pairBound n a b a = b ∧ pairBound n a (b + 1) a = b + 1 := by simp [pairBound]
  have bb : pairBound n a b b = a ∧ pairBound n a (b + 1) b = a + 1 := by
    unfold pairBound
    rw [if_neg (by omega), if_neg (by omega), if_neg (by omega), if_neg (by omega), if_neg (by omega), if_pos (by omega)]
    exact ⟨rfl, rfl⟩
  have ca : crossOf P a b = (P a b).map Prod.fst := by unfold crossOf; rw [if_pos hab]
  have cb : crossOf P b a = (P a b).map Prod.snd := by unfold crossOf; rw [if_neg (by omega), if_pos hab]
  have na := filterMap_range_succ (crossOf P a) b
  have nb := filterMap_range_succ (crossOf P b) a
  rw [ca] at na
  rw [cb] at nb
  cases hP : P a b with
  | none =>
    rw [hP] at na nb
    simp only [pushPair, ok.injEq]
    refine List.ext_getElem? ?_
    intro s
    by_cases hs : s < n
    · rw [hget a b s hs, hget a (b + 1) s hs]
      by_cases h1 : s = a
      · subst h1; rw [ba.1, ba.2, na]; simp
      by_cases h2 : s = b
      · subst h2; rw [bb.1, bb.2, nb]; simp
      · rw [other s h1 h2]
    · rw [List.getElem?_eq_none (by rw [hlen]; omega), List.getElem?_eq_none (by rw [hlen]; omega)]
  | some p =>
    rw [hP] at na nb
    have ga := hget a b a (by omega)
    have gb := hget a b b hb
    simp only [pushPair, vget, ga, ok_bind]
    rw [vset_of_lt _ (by rw [hlen]; omega), ok_bind, List.getElem?_set_ne (by omega), gb]
    simp only [ok_bind]
    rw [vset_of_lt _ (by rw [List.length_set, hlen]; omega)]
    congr 1
    refine List.ext_getElem? ?_
    intro s
    by_cases hs : s < n
    · rw [hget a (b + 1) s hs]
      by_cases h2 : s = b
      · subst h2
        rw [List.getElem?_set_self (by rw [List.length_set, hlen]; omega), bb.1, bb.2, nb]
        simp
      rw [List.getElem?_set_ne (by omega)]
      by_cases h1 : s = a
      · subst h1
        rw [List.getElem?_set_self (by rw [hlen]; omega), ba.1, ba.2, na]
        simp
      · rw [List.getElem?_set_ne (by omega), hget a b s hs, other s h1 h2]
    · rw [List.getElem?_eq_none (by rw [List.length_set, List.length_set, hlen]; omega),
        List.getElem?_eq_none (by rw [hlen]; omega)]

theorem betweenSegments_eq {sqrt : K → K} {g : GeoCfg K} {d : SegmentsData K} (P : Nat → Nat → Option (K × K))
    (hP : ∀ s t, s < t → t < d.ends.length → g.segPair sqrt d s t = ok (P s t)) :
    g.betweenSegments sqrt d = ok ((List.range d.ends.length).map fun s => (List.range d.ends.length).filterMap (crossOf P s)) := by
  generalize hn : d.ends.length = n at hP
  have self : ∀ s, crossOf P s s = none := by intro s; simp [crossOf]
  -- the state at the beginning of a round
  let G : Nat → List (List K) := fun a => pairState P n a (a + 1)
  have h0 : List.replicate n [] = G 0 := by
    refine List.ext_getElem (by simp [G, pairState]) ?_
    intro i h1 h2
    simp only [G, pairState, List.getElem_replicate, List.getElem_map, List.getElem_range]
    unfold pairBound
    rw [if_neg (by omega)]
    by_cases hi : i = 0
    · subst hi
      rw [if_pos rfl, filterMap_range_succ, self]
      simp
    · rw [if_neg hi, if_neg (by omega)]
      simp
  have hstep : ∀ a, a < n → foldRes (fun I k => (do
      let p ← g.segPair sqrt d a (a + 1 + k)
      pushPair I a (a + 1 + k) p : Res (List (List K)))) (G a) (List.range (n - (a + 1))) = ok (G (a + 1)) := by
    intro a ha
    have := foldRes_range_states (f := fun I k => (do
      let p ← g.segPair sqrt d a (a + 1 + k)
      pushPair I a (a + 1 + k) p : Res (List (List K)))) (fun k => pairState P n a (a + 1 + k)) (n - (a + 1)) (by
      intro k hk
      simp only [hP a (a + 1 + k) (by omega) (by omega), ok_bind]
      exact pairState_step P (by omega) (by omega))
    simp only [Nat.add_zero] at this
    rw [this]
    congr 1
    simp only [G, pairState]
    refine List.map_congr_left ?_
    intro s hs
    have hs := List.mem_range.1 hs
    unfold pairBound
    by_cases h1 : s < a
    · rw [if_pos h1, if_pos (by omega)]
    rw [if_neg h1]
    by_cases h2 : s = a
    · subst h2
      rw [if_pos rfl, if_pos (by omega), show s + 1 + (n - (s + 1)) = n by omega]
    · rw [if_neg h2, if_pos (by omega), if_neg (by omega)]
      by_cases h3 : s = a + 1
      · subst h3
        rw [if_pos rfl, filterMap_range_succ (crossOf P (a + 1)) (a + 1), self]
        simp
      · rw [if_neg h3, if_neg (by omega)]
  have := foldRes_range_states (f := fun I a => foldRes (fun I k => (do
      let p ← g.segPair sqrt d a (a + 1 + k)
      pushPair I a (a + 1 + k) p : Res (List (List K)))) I (List.range (n - (a + 1)))) G n hstep
  unfold GeoCfg.betweenSegments
  rw [hn, h0, this]
  congr 1
  simp only [G, pairState]
  refine List.map_congr_left ?_
  intro s hs
  rw [pairBound, if_pos (List.mem_range.1 hs)]

end Verif
