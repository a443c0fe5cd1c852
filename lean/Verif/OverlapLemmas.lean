import Verif.OverlapSpec
import Verif.PointBoxLemmas
import Mathlib.Analysis.Convex.Radon
import Mathlib.Tactic.LinearCombination

/-
Lemmas on the intersection of triangles.
-/
namespace Verif

variable {K : Type} [Field K] [LinearOrder K] [IsStrictOrderedRing K]

theorem det2D_eq (p q r : V3 K) : det2D p q r = area2 p q r := by
  unfold det2D area2
  ring

/-- The position in the plane. -/
def V3.xy (p : V3 K) : K × K := (p.x, p.y)

theorem left_xy (s : Tri K) (i : Fin 3) (p : V3 K) : s.left i p.xy = area2 (s i) (s (i + 1)) p := rfl

theorem overlap_iff (g : GeoCfg K) (h0 : 0 ≤ g.minTolerance) (s : Tri K) (i : Fin 3) (p : V3 K) :
    (g.checkOverlap true (s i) (s (i + 1)) p = true ↔ s.left i p.xy < -g.tol1D) ∧
      (g.checkOverlap false (s i) (s (i + 1)) p = true ↔ s.left i p.xy ≤ g.tol1D) := by
  have ht := g.tol1D_nonneg h0
  constructor
  · unfold GeoCfg.checkOverlap
    rw [if_pos rfl, Bool.not_eq_true', ← Bool.not_eq_true, ge_1D g h0, window_zero ht, det2D_eq, left_xy]
    constructor
    · intro h; linarith
    · intro h; linarith
  · unfold GeoCfg.checkOverlap
    rw [if_neg (by simp), Bool.not_eq_true', ← Bool.not_eq_true, greater_1D g h0, window_zero ht, det2D_eq, left_xy]
    constructor
    · intro h
      by_contra hc
      push Not at hc
      refine h ⟨by linarith, ?_⟩
      rw [zero_sub, abs_neg]
      exact lt_of_lt_of_le hc (le_abs_self _)
    · rintro h ⟨h1, h2⟩
      rw [zero_sub, abs_neg, abs_of_pos h1] at h2
      linarith

theorem separates_iff (g : GeoCfg K) (h0 : 0 ≤ g.minTolerance) (s t : Tri K) :
    (g.edgeSeparates true s t = true ↔ ∃ i, ∀ j, s.left i (t j).xy < -g.tol1D) ∧
      (g.edgeSeparates false s t = true ↔ ∃ i, ∀ j, s.left i (t j).xy ≤ g.tol1D) := by
  unfold GeoCfg.edgeSeparates
  constructor
  · rw [List.any_eq_true]
    constructor
    · rintro ⟨i, -, h⟩
      simp only [Bool.and_eq_true, (overlap_iff g h0 s i _).1] at h
      refine ⟨i, fun j => ?_⟩
      fin_cases j
      · exact h.1.1
      · exact h.1.2
      · exact h.2
    · rintro ⟨i, h⟩
      refine ⟨i, List.mem_finRange i, ?_⟩
      simp only [Bool.and_eq_true, (overlap_iff g h0 s i _).1]
      exact ⟨⟨h 0, h 1⟩, h 2⟩
  · rw [List.any_eq_true]
    constructor
    · rintro ⟨i, -, h⟩
      simp only [Bool.and_eq_true, (overlap_iff g h0 s i _).2] at h
      refine ⟨i, fun j => ?_⟩
      fin_cases j
      · exact h.1.1
      · exact h.1.2
      · exact h.2
    · rintro ⟨i, h⟩
      refine ⟨i, List.mem_finRange i, ?_⟩
      simp only [Bool.and_eq_true, (overlap_iff g h0 s i _).2]
      exact ⟨⟨h 0, h 1⟩, h 2⟩

theorem check_iff (g : GeoCfg K) (s t : Tri K) (b : Bool) :
    g.checkTrianglesIntersection s t b = true ↔
      g.edgeSeparates b s t = false ∧ g.edgeSeparates b t s = false := by
  unfold GeoCfg.checkTrianglesIntersection
  cases g.edgeSeparates b s t <;> cases g.edgeSeparates b t s <;> simp

/-- The signed area is affine. -/
theorem left_bary (s t : Tri K) (i : Fin 3) {u v w : K} (h : u + v + w = 1) :
    s.left i (baryPoint t u v w) =
      u * s.left i (t 0).xy + v * s.left i (t 1).xy + w * s.left i (t 2).xy := by
  unfold Tri.left area2 baryPoint V3.xy
  obtain rfl : u = 1 - v - w := by linarith
  ring

theorem left_comb (s : Tri K) (i : Fin 3) (p q : K × K) {a b : K} (h : a + b = 1) :
    s.left i (a • p + b • q) = a * s.left i p + b * s.left i q := by
  unfold Tri.left area2
  obtain rfl : a = 1 - b := by linarith
  simp only [Prod.fst_add, Prod.snd_add, Prod.smul_fst, Prod.smul_snd, smul_eq_mul]
  ring

/-- The three signed areas of a vertex. -/
theorem left_vertex (s : Tri K) (i j : Fin 3) :
    s.left i (s j).xy = if j = i + 2 then s.area else 0 := by
  fin_cases i <;> fin_cases j <;> simp [Tri.left, Tri.area, V3.xy, area2] <;> ring

theorem left_vertex_nonneg {s : Tri K} (h : 0 ≤ s.area) (i j : Fin 3) : 0 ≤ s.left i (s j).xy := by
  rw [left_vertex]
  split
  · exact h
  · exact le_refl _

theorem left_sum (s : Tri K) (q : K × K) : s.left 0 q + s.left 1 q + s.left 2 q = s.area := by
  simp only [Tri.left, Tri.area, area2]
  simp
  ring

theorem left_mul (s : Tri K) (q : K × K) :
    s.area * q.1 = s.left 1 q * (s 0).x + s.left 2 q * (s 1).x + s.left 0 q * (s 2).x ∧
      s.area * q.2 = s.left 1 q * (s 0).y + s.left 2 q * (s 1).y + s.left 0 q * (s 2).y := by
  simp only [Tri.left, Tri.area, area2]
  simp
  constructor <;> ring

theorem bary_of_left {s : Tri K} (h : 0 < s.area) (q : K × K) :
    s.left 1 q / s.area + s.left 2 q / s.area + s.left 0 q / s.area = 1 ∧
      q = baryPoint s (s.left 1 q / s.area) (s.left 2 q / s.area) (s.left 0 q / s.area) := by
  obtain ⟨h1, h2⟩ := left_mul s q
  have h3 := left_sum s q
  constructor
  · rw [← add_div, ← add_div, div_eq_one_iff_eq h.ne']
    linarith
  · unfold baryPoint
    refine Prod.ext ?_ ?_
    · simp only
      field_simp
      linarith
    · simp only
      field_simp
      linarith

/-- A point is in a triangle that runs counter clockwise exactly if it is left of all edges. -/
theorem inTri_iff {s : Tri K} (h : 0 < s.area) (q : K × K) : InTri s q ↔ ∀ i, 0 ≤ s.left i q := by
  constructor
  · rintro ⟨u, v, w, hu, hv, hw, e, rfl⟩ i
    rw [left_bary s s i e]
    have := left_vertex_nonneg h.le i
    exact add_nonneg (add_nonneg (mul_nonneg hu (this 0)) (mul_nonneg hv (this 1))) (mul_nonneg hw (this 2))
  · intro hl
    obtain ⟨h1, h2⟩ := bary_of_left h q
    exact ⟨_, _, _, div_nonneg (hl 1) h.le, div_nonneg (hl 2) h.le, div_nonneg (hl 0) h.le, h1, h2⟩

theorem insideTri_iff {s : Tri K} (h : 0 < s.area) (q : K × K) : InsideTri s q ↔ ∀ i, 0 < s.left i q := by
  constructor
  · rintro ⟨u, v, w, hu, hv, hw, e, rfl⟩ i
    rw [left_bary s s i e, left_vertex, left_vertex, left_vertex]
    fin_cases i <;> simp <;> positivity
  · intro hl
    obtain ⟨h1, h2⟩ := bary_of_left h q
    exact ⟨_, _, _, div_pos (hl 1) h, div_pos (hl 2) h, div_pos (hl 0) h, h1, h2⟩

/-- Two families of three convex sets in the plane: if each family has common points, also with each set of the
other family, all sets have a common point. -/
theorem two_families (C : Bool → Fin 3 → Set (K × K)) (hc : ∀ b i, Convex K (C b i))
    (h : ∀ b j, ∃ q, (∀ i, q ∈ C b i) ∧ q ∈ C (!b) j) : ∃ q, ∀ b i, q ∈ C b i := by
  have key : (⋂ i ∈ (Finset.univ : Finset (Bool × Fin 3)), C i.1 i.2).Nonempty := by
    refine Convex.helly_theorem' (𝕜 := K) (fun i _ => hc i.1 i.2) fun I _ hI => ?_
    have hfr : Module.finrank K (K × K) = 2 := by simp
    rw [hfr] at hI
    have hsplit : ∃ b, (I.filter fun i => i.1 = !b).card ≤ 1 := by
      by_contra hne
      push Not at hne
      have h1 := hne true
      have h2 := hne false
      have h3 : (I.filter fun i => i.1 = !true).card + (I.filter fun i => i.1 = !false).card = I.card := by
        rw [← Finset.card_filter_add_card_filter_not (s := I) (fun i => i.1 = !true)]
        congr 2
        ext i
        cases i.1 <;> simp
      omega
    obtain ⟨b, hb⟩ := hsplit
    rcases Finset.eq_empty_or_nonempty (I.filter fun i => i.1 = !b) with he | ⟨⟨b', j⟩, hj⟩
    · obtain ⟨q, hq, -⟩ := h b 0
      refine ⟨q, Set.mem_iInter₂.2 fun i hi => ?_⟩
      by_cases hib : i.1 = !b
      · have : i ∈ I.filter fun i => i.1 = !b := Finset.mem_filter.2 ⟨hi, hib⟩
        rw [he] at this
        simp at this
      · have : i.1 = b := by
          cases hb1 : i.1 <;> cases b <;> simp_all
        rw [this]
        exact hq _
    · obtain ⟨q, hq, hqj⟩ := h b j
      refine ⟨q, Set.mem_iInter₂.2 fun i hi => ?_⟩
      by_cases hib : i.1 = !b
      · have : i = (b', j) :=
          Finset.card_le_one.1 hb i (Finset.mem_filter.2 ⟨hi, hib⟩) _ hj
        have hb' := (Finset.mem_filter.1 hj).2
        simp only at hb'
        rw [this, hb']
        exact hqj
      · have : i.1 = b := by
          cases hb1 : i.1 <;> cases b <;> simp_all
        rw [this]
        exact hq _
  obtain ⟨q, hq⟩ := key
  exact ⟨q, fun b i => Set.mem_iInter₂.1 hq (b, i) (Finset.mem_univ _)⟩

theorem convex_ge (s : Tri K) (i : Fin 3) (m : K) : Convex K {q | m ≤ s.left i q} := by
  intro p hp q hq a b ha hb e
  simp only [Set.mem_setOf_eq] at *
  rw [left_comb s i p q e]
  have h1 := mul_le_mul_of_nonneg_left hp ha
  have h2 := mul_le_mul_of_nonneg_left hq hb
  have h3 : m = a * m + b * m := by rw [← add_mul, e, one_mul]
  linarith

theorem convex_gt (s : Tri K) (i : Fin 3) (m : K) : Convex K {q | m < s.left i q} := by
  intro p hp q hq a b ha hb e
  simp only [Set.mem_setOf_eq] at *
  rw [left_comb s i p q e]
  have h3 : m = a * m + b * m := by rw [← add_mul, e, one_mul]
  rcases ha.eq_or_lt with rfl | ha
  · rw [zero_add] at e
    subst e
    linarith
  · have h1 := mul_lt_mul_of_pos_left hp ha
    have h2 := mul_le_mul_of_nonneg_left hq.le hb
    linarith

/-- Near a vertex of `s` with a positive value of `f` there are points inside `s` with a positive value. -/
theorem near_vertex {s t : Tri K} (h : 0 < s.area) (i j : Fin 3) (hp : 0 < t.left i (s j).xy) :
    ∃ q, (∀ k, 0 < s.left k q) ∧ 0 < t.left i q := by
  set c := baryPoint s (1 / 3) (1 / 3) (1 / 3) with hc
  have hin : ∀ k, 0 < s.left k c :=
    (insideTri_iff h c).1 ⟨1 / 3, 1 / 3, 1 / 3, by norm_num, by norm_num, by norm_num, by norm_num, hc⟩
  set e : K := t.left i (s j).xy / (t.left i (s j).xy + |t.left i c| + 1) with he
  have hden : 0 < t.left i (s j).xy + |t.left i c| + 1 := by positivity
  have e0 : 0 < e := div_pos hp hden
  have e1 : e < 1 := by
    rw [he, div_lt_one hden]
    have := abs_nonneg (t.left i c)
    linarith
  refine ⟨(1 - e) • (s j).xy + e • c, fun k => ?_, ?_⟩
  · rw [left_comb s k _ _ (by ring)]
    have := left_vertex_nonneg h.le k j
    have h1 := mul_nonneg (sub_nonneg.2 e1.le) this
    have h2 := mul_pos e0 (hin k)
    linarith
  · rw [left_comb t i _ _ (by ring)]
    have h1 : e * (t.left i (s j).xy + |t.left i c| + 1) = t.left i (s j).xy := by
      rw [he]; field_simp
    have h2 : -|t.left i c| ≤ t.left i c := neg_abs_le _
    have h3 := mul_le_mul_of_nonneg_left h2 e0.le
    nlinarith

end Verif
