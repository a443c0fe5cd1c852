import Verif.HullScanLemmas2
import Verif.PointBoxLemmas

/-
Lemmas that connect the model of `ConvexHull` with the geometry: the comparisons are exact if the tolerances
tell the points apart, the points are sorted around the lowest one, and the last direction is reversed.
-/
namespace Verif

open Res

variable {K : Type} [Field K] [LinearOrder K] [IsStrictOrderedRing K]

theorem greater_exact (g : GeoCfg K) (h0 : 0 ≤ g.minTolerance) {a b : K} (h : Apart1 g.tol1D a b) :
    g.isValueGreater a b g.tol1D = true ↔ b < a := by
  rw [greater_1D g h0]
  constructor
  · exact fun h => h.1
  · intro hlt
    rcases h with h | h
    · exact absurd h hlt.ne'
    · exact ⟨hlt, h⟩

theorem equal_exact (g : GeoCfg K) (h0 : 0 ≤ g.minTolerance) {a b : K} (h : Apart1 g.tol1D a b) :
    g.areValuesEqual a b g.tol1D = true ↔ a = b := by
  unfold GeoCfg.areValuesEqual
  rw [decide_eq_true_iff, g.compareValues_eq, g.max_tol1D h0]
  constructor
  · intro he
    rcases h with h | h
    · exact h
    · rw [if_neg (not_le.2 h)] at he
      split at he <;> cases he
  · rintro rfl
    rw [if_pos]
    rw [sub_self, abs_zero]
    exact window_nonneg (g.tol1D_nonneg h0) _ _

theorem greater_exact_sq (g : GeoCfg K) {a b : K} (h : Apart1 g.tolSq a b) :
    g.isValueGreater a b g.tol1DSquared = true ↔ b < a := by
  unfold GeoCfg.isValueGreater
  rw [decide_eq_true_iff, g.compareValues_eq, abs_of_nonneg g.tol1DSquared_nonneg]
  change (if |b - a| ≤ window g.tolSq a b then _ else _) = _ ↔ _
  constructor
  · intro he
    split at he
    · cases he
    · split at he
      · assumption
      · cases he
  · intro hlt
    rcases h with h | h
    · exact absurd h hlt.ne'
    · rw [if_neg (not_le.2 h), if_pos hlt]

/-- The sign of the test of the orientation. -/
theorem polar_sign (g : GeoCfg K) (h0 : 0 ≤ g.minTolerance) {sqrt : K → K} {a b c : V3 K}
    (h : area2 a b c = 0 ∨ (g.tol1D < sqrt (dist2 a b) ∧ g.tol1D < sqrt (dist2 c b) ∧
      g.tol1D * (sqrt (dist2 a b) * sqrt (dist2 c b)) < |area2 a b c|)) :
    (g.isValueZero (g.polarAngle a b c ((a.sub b).norm sqrt) ((c.sub b).norm sqrt)) g.tol1D = true ↔
        area2 a b c = 0) ∧
      (g.isValueNegative (g.polarAngle a b c ((a.sub b).norm sqrt) ((c.sub b).norm sqrt)) g.tol1D = true ↔
        area2 a b c < 0) := by
  have hT := g.tol1D_nonneg h0
  have e1 : (a.sub b).norm sqrt = sqrt (dist2 a b) := rfl
  have e2 : (c.sub b).norm sqrt = sqrt (dist2 c b) := rfl
  rw [g.zero_1D h0, (c27_sign g _ _).2.1, g.max_tol1D h0, e1, e2]
  set n1 := sqrt (dist2 a b)
  set n2 := sqrt (dist2 c b)
  have ef : (b.x - a.x) * (c.y - a.y) / (n1 * n2) - (c.x - a.x) * (b.y - a.y) / (n1 * n2) =
      area2 a b c / (n1 * n2) := by unfold area2; ring
  unfold GeoCfg.polarAngle
  rw [ef]
  rcases h with h | ⟨h1, h2, h3⟩
  · rw [h, zero_div, ite_self, abs_zero]
    refine ⟨by simp [hT], ?_⟩
    constructor
    · intro h'; linarith
    · intro h'; exact absurd h' (lt_irrefl _)
  · have p1 : 0 < n1 := lt_of_le_of_lt hT h1
    have p2 : 0 < n2 := lt_of_le_of_lt hT h2
    have hn : 0 < n1 * n2 := mul_pos p1 p2
    have f1 : ¬ g.isValueZero n1 g.tol1D = true := by
      rw [g.zero_1D h0, abs_of_pos p1]; exact not_le.2 h1
    have f2 : ¬ g.isValueZero n2 g.tol1D = true := by
      rw [g.zero_1D h0, abs_of_pos p2]; exact not_le.2 h2
    have hc : ¬ (g.isValueZero n1 g.tol1D || g.isValueZero n2 g.tol1D) = true := by
      rw [Bool.or_eq_true]; tauto
    rw [if_neg hc]
    have hne : area2 a b c ≠ 0 := by
      intro h
      rw [h, abs_zero] at h3
      exact absurd h3 (not_lt.2 (mul_nonneg hT hn.le))
    refine ⟨⟨fun h => ?_, fun h => absurd h hne⟩, ?_⟩
    · rw [abs_div, abs_of_pos hn, div_le_iff₀ hn] at h
      exact absurd h3 (not_lt.2 h)
    · rw [div_lt_iff₀ hn]
      constructor
      · intro h
        nlinarith [mul_nonneg hT hn.le]
      · intro h
        rw [abs_of_neg h] at h3
        linarith

/-- The order of the points around `p`. -/
def Precedes (p a b : V3 K) : Prop := 0 < cw p a b ∨ (cw p a b = 0 ∧ dist2 p a < dist2 p b)

theorem hullBefore_iff (g : GeoCfg K) (h0 : 0 ≤ g.minTolerance) {sqrt : K → K} {pts : List (V3 K)}
    (hr : HullResolved g sqrt pts) {p : V3 K} (hp : p ∈ pts) {a b : HullPt K} (ha : a.point ∈ pts)
    (hb : b.point ∈ pts) : g.hullBefore sqrt p a b = true ↔ Precedes p a.point b.point := by
  obtain ⟨s1, s2⟩ := polar_sign g h0 (hr.turn a.point ha b.point hb p hp)
  have e : (p.sub b.point).norm sqrt = sqrt ((p.sub b.point).dot (p.sub b.point)) := rfl
  rw [e] at s1 s2
  have ecw : cw p a.point b.point = -area2 a.point b.point p := by unfold cw area2; ring
  unfold GeoCfg.hullBefore Precedes
  dsimp only
  rw [ecw]
  by_cases h : area2 a.point b.point p = 0
  · rw [if_pos (s1.2 h)]
    have := greater_exact_sq g (hr.dist b.point hb a.point ha p hp)
    rw [h, neg_zero]
    refine this.trans ?_
    simp
  · rw [if_neg (fun h' => h (s1.1 h')), s2]
    constructor
    · intro h'; left; linarith
    · rintro (h' | ⟨h', -⟩)
      · linarith
      · exact absurd (neg_eq_zero.1 h') h

theorem hullKeep_iff (g : GeoCfg K) (h0 : 0 ≤ g.minTolerance) {sqrt : K → K} {pts : List (V3 K)}
    (hr : HullResolved g sqrt pts) {a b r : V3 K} (ha : a ∈ pts) (hb : b ∈ pts) (hrp : r ∈ pts) :
    (g.hullKeep sqrt false a b r = true ↔ 0 < area2 r b a) ∧
      (g.hullKeep sqrt true a b r = true ↔ 0 ≤ area2 r b a) := by
  obtain ⟨s1, s2⟩ := polar_sign g h0 (hr.turn b hb r hrp a ha)
  have e : area2 r b a = -area2 b r a := by unfold area2; ring
  unfold GeoCfg.hullKeep
  dsimp only
  rw [e]
  refine ⟨?_, ?_⟩
  · rw [Bool.false_and, Bool.or_false, s2]
    constructor <;> intro h <;> linarith
  · rw [Bool.true_and, Bool.or_eq_true, s2, s1]
    constructor
    · rintro (h | h) <;> linarith
    · intro h
      rcases (neg_nonneg.1 h).lt_or_eq with h | h
      · exact Or.inl h
      · exact Or.inr h

/-- Different points of the plane. -/
theorem xy_ne {a b : V3 K} (ha : a.z = 0) (hb : b.z = 0) (h : a ≠ b) : a.x ≠ b.x ∨ a.y ≠ b.y := by
  by_contra hc
  push Not at hc
  exact h (by ext <;> simp [hc.1, hc.2, ha, hb])

/-- `p` is the lowest of the points, of those the one on the left. -/
def IsLowest (pts : List (V3 K)) (p : V3 K) : Prop :=
  p ∈ pts ∧ ∀ q ∈ pts, p.y < q.y ∨ (p.y = q.y ∧ p.x ≤ q.x)

theorem lowest_spec (g : GeoCfg K) (h0 : 0 ≤ g.minTolerance) {sqrt : K → K} {pts : List (V3 K)}
    (hr : HullResolved g sqrt pts) {sp : List (HullPt K)} (hsp : ∀ h ∈ sp, h.point ∈ pts) (hne : sp ≠ []) :
    ∃ p0 ∈ sp, sp.foldl g.hullLowestStep none = some p0 ∧ IsLowest (sp.map HullPt.point) p0.point := by
  induction sp using List.reverseRecOn with
  | nil => exact absurd rfl hne
  | append_singleton sp r ih =>
    rw [List.foldl_append, List.foldl_cons, List.foldl_nil]
    by_cases h : sp = []
    · subst h
      refine ⟨r, by simp, rfl, by simp, ?_⟩
      intro q hq
      obtain rfl : q = r.point := by simpa using hq
      exact Or.inr ⟨rfl, le_rfl⟩
    · obtain ⟨q, hq, e, hl⟩ := ih (fun h hh => hsp h (by simp [hh])) h
      rw [e]
      have hqp := hsp q (by simp [hq])
      have hrp := hsp r (by simp)
      unfold GeoCfg.hullLowestStep
      dsimp only
      have gy := greater_exact g h0 (hr.y _ hqp _ hrp)
      have hout : ∀ s : HullPt K, s ∈ sp ++ [r] → (∀ x ∈ sp.map HullPt.point, s.point.y < x.y ∨
          (s.point.y = x.y ∧ s.point.x ≤ x.x)) → (s.point.y < r.point.y ∨ (s.point.y = r.point.y ∧
          s.point.x ≤ r.point.x)) → ∃ p0 ∈ sp ++ [r], some s = some p0 ∧
            IsLowest ((sp ++ [r]).map HullPt.point) p0.point := by
        intro s hs h1 h2
        refine ⟨s, hs, rfl, List.mem_map_of_mem hs, ?_⟩
        intro x hx
        rw [List.map_append, List.mem_append] at hx
        rcases hx with hx | hx
        · exact h1 x hx
        · obtain rfl : x = r.point := by simpa using hx
          exact h2
      by_cases hlt : r.point.y < q.point.y
      · rw [if_pos (gy.2 hlt)]
        have : (if (g.areValuesEqual r.point.y r.point.y g.tol1D && g.isValueGreater r.point.x r.point.x g.tol1D) = true
            then some r else some r) = some r := ite_self _
        rw [this]
        refine hout r (by simp) ?_ (Or.inr ⟨rfl, le_rfl⟩)
        intro x hx
        rcases hl.2 x hx with h | ⟨h, -⟩
        · exact Or.inl (lt_trans hlt h)
        · exact Or.inl (by rw [← h]; exact hlt)
      · rw [if_neg (fun h => hlt (gy.1 h))]
        by_cases hc : q.point.y = r.point.y ∧ r.point.x < q.point.x
        · rw [if_pos]
          · refine hout r (by simp) ?_ (Or.inr ⟨rfl, le_rfl⟩)
            intro x hx
            rcases hl.2 x hx with h | ⟨h, h'⟩
            · exact Or.inl (by rw [← hc.1]; exact h)
            · exact Or.inr ⟨by rw [← hc.1]; exact h, by linarith [hc.2]⟩
          · rw [Bool.and_eq_true]
            exact ⟨(equal_exact g h0 (hr.y _ hqp _ hrp)).2 hc.1, (greater_exact g h0 (hr.x _ hqp _ hrp)).2 hc.2⟩
        · rw [if_neg]
          · refine hout q (by simp [hq]) hl.2 ?_
            rcases lt_or_eq_of_le (not_lt.1 hlt) with h | h
            · exact Or.inl h
            · refine Or.inr ⟨h, ?_⟩
              by_contra hcon
              exact hc ⟨h, not_le.1 hcon⟩
          · rw [Bool.and_eq_true]
            rintro ⟨h1, h2⟩
            exact hc ⟨(equal_exact g h0 (hr.y _ hqp _ hrp)).1 h1, (greater_exact g h0 (hr.x _ hqp _ hrp)).1 h2⟩

theorem IsLowest.upper {pts : List (V3 K)} {p : V3 K} (h : IsLowest pts p) (hz : ∀ q ∈ pts, q.z = 0) {q : V3 K}
    (hq : q ∈ pts) (hne : q ≠ p) : Upper p q := by
  rcases h.2 q hq with h' | ⟨h1, h2⟩
  · exact Or.inl h'
  · refine Or.inr ⟨h1, lt_of_le_of_ne h2 fun hx => hne ?_⟩
    ext
    · exact hx.symm
    · exact h1.symm
    · rw [hz q hq, hz p h.1]

theorem dist2_pos {p q : V3 K} (h : Upper p q) : 0 < dist2 p q := by
  unfold dist2
  rcases h with h | ⟨-, h⟩
  · have : 0 < (p.y - q.y) * (p.y - q.y) := mul_self_pos.2 (by intro h'; linarith)
    nlinarith [mul_self_nonneg (p.x - q.x), mul_self_nonneg (p.z - q.z)]
  · have : 0 < (p.x - q.x) * (p.x - q.x) := mul_self_pos.2 (by intro h'; linarith)
    nlinarith [mul_self_nonneg (p.y - q.y), mul_self_nonneg (p.z - q.z)]

theorem dist2_self (p : V3 K) : dist2 p p = 0 := by unfold dist2; ring

theorem dist2_along {p a b : V3 K} {s : K} (h : Along p a b s) : dist2 p b = s * s * dist2 p a := by
  obtain ⟨h1, h2, h3⟩ := h
  have : dist2 p b = (b.x - p.x) * (b.x - p.x) + (b.y - p.y) * (b.y - p.y) + (b.z - p.z) * (b.z - p.z) := by
    unfold dist2; ring
  rw [this, h1, h2, h3]
  unfold dist2; ring

theorem cw_pole_left (p a : V3 K) : cw p p a = 0 := by unfold cw area2; ring
theorem cw_pole_right (p a : V3 K) : cw p a p = 0 := by unfold cw area2; ring

/-- The points around `p` are in a strict order. -/
theorem precedes_pole {p a : V3 K} (h : a = p ∨ Upper p a) : ¬ Precedes p a p := by
  rintro (h' | ⟨-, h'⟩)
  · rw [cw_pole_right] at h'; exact lt_irrefl _ h'
  · rw [dist2_self] at h'
    rcases h with rfl | h
    · rw [dist2_self] at h'; exact lt_irrefl _ h'
    · exact absurd (dist2_pos h) (not_lt.2 h'.le)

theorem precedes_irrefl (p a : V3 K) : ¬ Precedes p a a := by
  rintro (h | ⟨-, h⟩)
  · rw [cw_self] at h; exact lt_irrefl _ h
  · exact lt_irrefl _ h

theorem precedes_trans {p a b c : V3 K} (ha : a = p ∨ Upper p a) (hb : b = p ∨ Upper p b) (hc : c = p ∨ Upper p c)
    (hz : p.z = 0 ∧ a.z = 0 ∧ b.z = 0 ∧ c.z = 0) (h1 : Precedes p a b) (h2 : Precedes p b c) : Precedes p a c := by
  have hb' : Upper p b := by
    rcases hb with rfl | hb
    · exact absurd h1 (precedes_pole ha)
    · exact hb
  have hc' : Upper p c := by
    rcases hc with rfl | hc
    · exact absurd h2 (precedes_pole (Or.inr hb'))
    · exact hc
  rcases ha with rfl | ha
  · right
    rw [cw_pole_left, dist2_self]
    exact ⟨rfl, dist2_pos hc'⟩
  · rcases h1 with h1 | ⟨h1, d1⟩
    · left
      refine cw_trans_pos ha hb' hc' h1 ?_
      rcases h2 with h2 | ⟨h2, -⟩
      · exact h2.le
      · exact h2.ge
    · rcases h2 with h2 | ⟨h2, d2⟩
      · left
        obtain ⟨h3, h4⟩ := cw_trans ha hb' hc' h1.ge h2.le
        exact lt_of_le_of_ne h3 fun h => h2.ne' (h4 h.symm).2
      · right
        obtain ⟨s, -, hs⟩ := along_of_cw hb' hc' ⟨hz.1, hz.2.2.1, hz.2.2.2⟩ h2
        refine ⟨?_, lt_trans d1 d2⟩
        rw [along_cw_right hs, h1, mul_zero]

theorem along_one {p a b : V3 K} (h : Along p a b 1) : b = a := by
  obtain ⟨h1, h2, h3⟩ := h
  ext <;> linarith

theorem precedes_total {p a b : V3 K} (ha : a = p ∨ Upper p a) (hb : b = p ∨ Upper p b)
    (hz : p.z = 0 ∧ a.z = 0 ∧ b.z = 0) (h1 : ¬ Precedes p a b) (h2 : ¬ Precedes p b a) : a = b := by
  have hcw : cw p a b = 0 := by
    have e1 : ¬ 0 < cw p a b := fun h => h1 (Or.inl h)
    have e2 : ¬ 0 < cw p b a := fun h => h2 (Or.inl h)
    rw [cw_swap] at e2
    linarith
  have hd : dist2 p a = dist2 p b := by
    have e1 : ¬ dist2 p a < dist2 p b := fun h => h1 (Or.inr ⟨hcw, h⟩)
    have e2 : ¬ dist2 p b < dist2 p a := fun h => h2 (Or.inr ⟨by rw [cw_swap, hcw, neg_zero], h⟩)
    linarith
  rcases ha with rfl | ha
  · rcases hb with rfl | hb
    · rfl
    · rw [dist2_self] at hd
      exact absurd (dist2_pos hb) (not_lt.2 hd.ge)
  · rcases hb with rfl | hb
    · rw [dist2_self] at hd
      exact absurd (dist2_pos ha) (not_lt.2 hd.le)
    · obtain ⟨s, hs, hal⟩ := along_of_cw ha hb hz hcw
      rw [dist2_along hal] at hd
      have hpos := dist2_pos ha
      have hss : s * s = 1 := by
        have : (s * s - 1) * dist2 p a = 0 := by linear_combination -hd
        rcases mul_eq_zero.1 this with h | h
        · linarith
        · linarith
      have : s = 1 := by nlinarith
      rw [this] at hal
      exact (along_one hal).symm

theorem strictWeak_before (g : GeoCfg K) (h0 : 0 ≤ g.minTolerance) {sqrt : K → K} {pts : List (V3 K)}
    (hr : HullResolved g sqrt pts) (hz : ∀ q ∈ pts, q.z = 0) {p : V3 K} (hp : IsLowest pts p) {sp : List (HullPt K)}
    (hsp : ∀ h ∈ sp, h.point ∈ pts) : StrictWeak (g.hullBefore sqrt p) sp := by
  have hU : ∀ h ∈ sp, h.point = p ∨ Upper p h.point := by
    intro h hh
    by_cases e : h.point = p
    · exact Or.inl e
    · exact Or.inr (hp.upper hz (hsp h hh) e)
  have hb : ∀ a ∈ sp, ∀ b ∈ sp, g.hullBefore sqrt p a b = true ↔ Precedes p a.point b.point := fun a ha b hb =>
    hullBefore_iff g h0 hr hp.1 (hsp a ha) (hsp b hb)
  have hb' : ∀ a ∈ sp, ∀ b ∈ sp, g.hullBefore sqrt p a b = false ↔ ¬ Precedes p a.point b.point := by
    intro a ha b hb2
    rw [← hb a ha b hb2, Bool.not_eq_true]
  have hzz : ∀ h ∈ sp, h.point.z = 0 := fun h hh => hz _ (hsp h hh)
  refine ⟨fun a ha => (hb' a ha a ha).2 (precedes_irrefl _ _), ?_, ?_⟩
  · intro a ha b hb2 c hc h1 h2
    rw [hb _ ha _ hb2] at h1
    rw [hb _ hb2 _ hc] at h2
    rw [hb _ ha _ hc]
    exact precedes_trans (hU a ha) (hU b hb2) (hU c hc) ⟨hz p hp.1, hzz a ha, hzz b hb2, hzz c hc⟩ h1 h2
  · rintro a ha b hb2 c hc ⟨h1, h2⟩ ⟨h3, h4⟩
    rw [hb' _ ha _ hb2] at h1
    rw [hb' _ hb2 _ ha] at h2
    rw [hb' _ hb2 _ hc] at h3
    rw [hb' _ hc _ hb2] at h4
    rw [hb' _ ha _ hc, hb' _ hc _ ha]
    have e1 := precedes_total (hU a ha) (hU b hb2) ⟨hz p hp.1, hzz a ha, hzz b hb2⟩ h1 h2
    have e2 := precedes_total (hU b hb2) (hU c hc) ⟨hz p hp.1, hzz b hb2, hzz c hc⟩ h3 h4
    rw [e1, ← e2]
    exact ⟨precedes_irrefl _ _, precedes_irrefl _ _⟩

end Verif
