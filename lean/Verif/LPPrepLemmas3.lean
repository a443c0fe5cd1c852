import Verif.LPPrepLemmas2

/-
The equality form and the problem of the user have the same solutions.
-/
namespace Verif

open Res

variable {K : Type} [Field K] [LinearOrder K] [IsStrictOrderedRing K]

namespace LPInput

variable (p : LPInput K)

/-! ### The columns -/

theorem sum_vars (g : Nat → K) (k : Nat) :
    ∑ c ∈ Finset.range (p.n + p.nUp k + p.nNeg k), g c
      = ∑ c ∈ Finset.range p.n, g c
        + ∑ i ∈ Finset.range k, ((if (p.upp i).isSome then g (p.upCol i) else 0)
            + if p.low i = none then g (p.negCol i) else 0) := by
  induction k with
  | zero => simp [nUp, nNeg]
  | succ k ih =>
    rw [Finset.sum_range_succ (n := k), ← add_assoc, ← ih]
    by_cases h1 : (p.upp k).isSome
    · by_cases h2 : p.low k = none
      · have e1 := p.nUp_succ h1
        have e2 := p.nNeg_succ h2
        have : p.n + p.nUp (k + 1) + p.nNeg (k + 1) = p.n + p.nUp k + p.nNeg k + 1 + 1 := by omega
        rw [this, Finset.sum_range_succ, Finset.sum_range_succ]
        have e3 : p.negCol k = p.n + p.nUp k + p.nNeg k + 1 := by unfold negCol; omega
        simp only [h1, h2, if_true, upCol, e3]
        ring
      · have e1 := p.nUp_succ h1
        have e2 : p.nNeg (k + 1) = p.nNeg k := by simp [nNeg, h2]
        have : p.n + p.nUp (k + 1) + p.nNeg (k + 1) = p.n + p.nUp k + p.nNeg k + 1 := by omega
        rw [this, Finset.sum_range_succ]
        simp only [h1, h2, if_true, if_false, upCol]
        ring
    · have e1 : p.nUp (k + 1) = p.nUp k := by simp [nUp, h1]
      by_cases h2 : p.low k = none
      · have e2 := p.nNeg_succ h2
        have : p.n + p.nUp (k + 1) + p.nNeg (k + 1) = p.n + p.nUp k + p.nNeg k + 1 := by omega
        rw [this, Finset.sum_range_succ]
        have e3 : p.negCol k = p.n + p.nUp k + p.nNeg k := by unfold negCol; omega
        simp only [h1, h2, if_true, e3]
        simp
      · have e2 : p.nNeg (k + 1) = p.nNeg k := by simp [nNeg, h2]
        rw [e1, e2]
        simp [h1, h2]

theorem sum_rows (g : Nat → K) (k : Nat) :
    ∑ c ∈ Finset.range (p.n + p.nUp p.n + p.nNeg p.n + p.nRow k), g c
      = ∑ c ∈ Finset.range (p.n + p.nUp p.n + p.nNeg p.n), g c
        + ∑ r ∈ Finset.range k, if p.types r = .eq then 0 else g (p.rowCol r) := by
  induction k with
  | zero => simp [nRow]
  | succ k ih =>
    rw [Finset.sum_range_succ (n := k), ← add_assoc, ← ih]
    by_cases h : p.types k = .eq
    · rw [p.nRow_succ' h]
      simp [h]
    · rw [p.nRow_succ h, ← add_assoc, Finset.sum_range_succ]
      simp [h, rowCol]

theorem sum_all (g : Nat → K) :
    ∑ c ∈ Finset.range p.bounds.nFinal, g c
      = ∑ c ∈ Finset.range p.n, g c
        + ∑ i ∈ Finset.range p.n, ((if (p.upp i).isSome then g (p.upCol i) else 0)
            + if p.low i = none then g (p.negCol i) else 0)
        + ∑ r ∈ Finset.range p.m, if p.types r = .eq then 0 else g (p.rowCol r) := by
  rw [p.bounds_nFinal, p.sum_rows, p.sum_vars]

theorem col_vars (k : Nat) {c : Nat} (h : c < p.n + p.nUp k + p.nNeg k) :
    c < p.n ∨ (∃ i < k, (p.upp i).isSome ∧ c = p.upCol i) ∨ ∃ i < k, p.low i = none ∧ c = p.negCol i := by
  induction k with
  | zero =>
    simp only [nUp, nNeg] at h
    exact Or.inl (by omega)
  | succ k ih =>
    by_cases h0 : c < p.n + p.nUp k + p.nNeg k
    · rcases ih h0 with h1 | ⟨i, h1, h2⟩ | ⟨i, h1, h2⟩
      · exact Or.inl h1
      · exact Or.inr (Or.inl ⟨i, by omega, h2⟩)
      · exact Or.inr (Or.inr ⟨i, by omega, h2⟩)
    · by_cases h1 : (p.upp k).isSome
      · have e1 := p.nUp_succ h1
        by_cases h3 : c = p.upCol k
        · exact Or.inr (Or.inl ⟨k, by omega, h1, h3⟩)
        · by_cases h2 : p.low k = none
          · have e2 := p.nNeg_succ h2
            refine Or.inr (Or.inr ⟨k, by omega, h2, ?_⟩)
            unfold upCol at h3
            unfold negCol
            omega
          · have e2 : p.nNeg (k + 1) = p.nNeg k := by simp [nNeg, h2]
            unfold upCol at h3
            omega
      · have e1 : p.nUp (k + 1) = p.nUp k := by simp [nUp, h1]
        by_cases h2 : p.low k = none
        · have e2 := p.nNeg_succ h2
          refine Or.inr (Or.inr ⟨k, by omega, h2, ?_⟩)
          unfold negCol
          omega
        · have e2 : p.nNeg (k + 1) = p.nNeg k := by simp [nNeg, h2]
          omega

theorem col_rows (k : Nat) {c : Nat} (h : c < p.n + p.nUp p.n + p.nNeg p.n + p.nRow k) :
    c < p.n + p.nUp p.n + p.nNeg p.n ∨ ∃ r < k, p.types r ≠ .eq ∧ c = p.rowCol r := by
  induction k with
  | zero =>
    simp only [nRow] at h
    exact Or.inl (by omega)
  | succ k ih =>
    by_cases h0 : c < p.n + p.nUp p.n + p.nNeg p.n + p.nRow k
    · rcases ih h0 with h1 | ⟨i, h1, h2⟩
      · exact Or.inl h1
      · exact Or.inr ⟨i, by omega, h2⟩
    · by_cases h1 : p.types k = .eq
      · rw [p.nRow_succ' h1] at h
        omega
      · have := p.nRow_succ h1
        refine Or.inr ⟨k, by omega, h1, ?_⟩
        unfold rowCol
        omega

theorem col_cases {c : Nat} (h : c < p.bounds.nFinal) :
    c < p.n ∨ (∃ i < p.n, (p.upp i).isSome ∧ c = p.upCol i) ∨
      (∃ i < p.n, p.low i = none ∧ c = p.negCol i) ∨ ∃ r < p.m, p.types r ≠ .eq ∧ c = p.rowCol r := by
  rw [p.bounds_nFinal] at h
  rcases p.col_rows p.m h with h1 | h1
  · rcases p.col_vars p.n h1 with h2 | h2 | h2
    · exact Or.inl h2
    · exact Or.inr (Or.inl h2)
    · exact Or.inr (Or.inr (Or.inl h2))
  · exact Or.inr (Or.inr (Or.inr h1))

theorem row_cases' (k : Nat) {r : Nat} (h : r < p.m + p.nUp k) :
    r < p.m ∨ ∃ i < k, (p.upp i).isSome ∧ r = p.upRow i := by
  induction k with
  | zero =>
    simp only [nUp] at h
    exact Or.inl (by omega)
  | succ k ih =>
    by_cases h0 : r < p.m + p.nUp k
    · rcases ih h0 with h1 | ⟨i, h1, h2⟩
      · exact Or.inl h1
      · exact Or.inr ⟨i, by omega, h2⟩
    · by_cases h1 : (p.upp k).isSome
      · have := p.nUp_succ h1
        refine Or.inr ⟨k, by omega, h1, ?_⟩
        unfold upRow
        omega
      · have e1 : p.nUp (k + 1) = p.nUp k := by simp [nUp, h1]
        omega

theorem row_cases {r : Nat} (h : r < p.bounds.mFinal) :
    r < p.m ∨ ∃ i < p.n, (p.upp i).isSome ∧ r = p.upRow i := by
  rw [p.bounds_mFinal] at h
  exact p.row_cases' p.n h

theorem upCol_lt {i : Nat} (hi : i < p.n) (h : (p.upp i).isSome) : p.upCol i < p.bounds.nFinal := by
  have := p.nUp_mono (show i + 1 ≤ p.n by omega)
  have := p.nNeg_mono (show i ≤ p.n by omega)
  have := p.nUp_succ h
  rw [p.bounds_nFinal]
  unfold upCol
  omega

theorem negCol_lt {i : Nat} (hi : i < p.n) (h : p.low i = none) : p.negCol i < p.bounds.nFinal := by
  have := p.nUp_mono (show i + 1 ≤ p.n by omega)
  have := p.nNeg_mono (show i + 1 ≤ p.n by omega)
  have := p.nNeg_succ h
  rw [p.bounds_nFinal]
  unfold negCol
  omega

theorem rowCol_lt {r : Nat} (hr : r < p.m) (h : p.types r ≠ .eq) : p.rowCol r < p.bounds.nFinal := by
  have := p.nRow_mono (show r + 1 ≤ p.m by omega)
  have := p.nRow_succ h
  rw [p.bounds_nFinal]
  unfold rowCol
  omega

theorem old_lt {c : Nat} (hc : c < p.n) : c < p.bounds.nFinal := by
  rw [p.bounds_nFinal]
  omega

theorem upRow_lt {i : Nat} (hi : i < p.n) (h : (p.upp i).isSome) : p.upRow i < p.bounds.mFinal := by
  have := p.nUp_mono (show i + 1 ≤ p.n by omega)
  have := p.nUp_succ h
  rw [p.bounds_mFinal]
  unfold upRow
  omega

theorem old_row_lt {r : Nat} (hr : r < p.m) : r < p.bounds.mFinal := by
  rw [p.bounds_mFinal]
  omega

theorem upRow_inj {i j : Nat} (hi : (p.upp i).isSome) (hj : (p.upp j).isSome) (h : p.upRow i = p.upRow j) :
    i = j := by
  have h1 := p.nUp_succ hi
  have h2 := p.nUp_succ hj
  unfold upRow at h
  rcases lt_trichotomy i j with h3 | h3 | h3
  · have := p.nUp_mono (show i + 1 ≤ j by omega)
    omega
  · exact h3
  · have := p.nUp_mono (show j + 1 ≤ i by omega)
    omega

/-- Values can be chosen on every kind of column. -/
theorem exists_values (v up neg row : Nat → K) :
    ∃ Y : Nat → K, (∀ c < p.n, Y c = v c) ∧ (∀ i < p.n, (p.upp i).isSome → Y (p.upCol i) = up i) ∧
      (∀ i < p.n, p.low i = none → Y (p.negCol i) = neg i) ∧
      ∀ r < p.m, p.types r ≠ .eq → Y (p.rowCol r) = row r := by
  have h1 : ∀ k, ∃ Y : Nat → K, (∀ c < p.n, Y c = v c) ∧
      (∀ i < k, (p.upp i).isSome → Y (p.upCol i) = up i) ∧
      ∀ i < k, p.low i = none → Y (p.negCol i) = neg i := by
    intro k
    induction k with
    | zero => exact ⟨v, fun _ _ => rfl, fun _ h => absurd h (Nat.not_lt_zero _),
        fun _ h => absurd h (Nat.not_lt_zero _)⟩
    | succ k ih =>
      obtain ⟨Y, y1, y2, y3⟩ := ih
      have m1 : ∀ i < k, (p.upp i).isSome → p.upCol i < p.n + p.nUp k + p.nNeg k := by
        intro i hi h
        have := p.nUp_mono (show i + 1 ≤ k by omega)
        have := p.nNeg_mono (show i ≤ k by omega)
        have := p.nUp_succ h
        unfold upCol
        omega
      have m2 : ∀ i < k, p.low i = none → p.negCol i < p.n + p.nUp k + p.nNeg k := by
        intro i hi h
        have := p.nUp_mono (show i + 1 ≤ k by omega)
        have := p.nNeg_mono (show i + 1 ≤ k by omega)
        have := p.nNeg_succ h
        unfold negCol
        omega
      have m3 : p.n + p.nUp k + p.nNeg k ≤ p.negCol k := by
        have := p.nUp_mono (show k ≤ k + 1 by omega)
        unfold negCol
        omega
      refine ⟨fun c => if c < p.n + p.nUp k + p.nNeg k then Y c
        else if c = p.upCol k ∧ (p.upp k).isSome then up k else neg k, ?_, ?_, ?_⟩
      · intro c hc
        have : c < p.n + p.nUp k + p.nNeg k := by omega
        simp only [this, if_true]
        exact y1 c hc
      · intro i hi h
        rcases Nat.lt_or_ge i k with h2 | h2
        · simp only [m1 i h2 h, if_true]
          exact y2 i h2 h
        · have : i = k := by omega
          subst this
          have h3 : ¬ p.upCol i < p.n + p.nUp i + p.nNeg i := by unfold upCol; omega
          simp [h3, h]
      · intro i hi h
        rcases Nat.lt_or_ge i k with h2 | h2
        · simp only [m2 i h2 h, if_true]
          exact y3 i h2 h
        · have : i = k := by omega
          subst this
          have h3 : ¬ p.negCol i < p.n + p.nUp i + p.nNeg i := by omega
          have h4 : ¬ (p.negCol i = p.upCol i ∧ (p.upp i).isSome) := by
            rintro ⟨a, b⟩
            have := p.nUp_succ b
            unfold negCol upCol at a
            omega
          simp [h3, h4]
  obtain ⟨Y, y1, y2, y3⟩ := h1 p.n
  have h2 : ∀ k, ∃ Y' : Nat → K, (∀ c < p.n + p.nUp p.n + p.nNeg p.n, Y' c = Y c) ∧
      ∀ r < k, p.types r ≠ .eq → Y' (p.rowCol r) = row r := by
    intro k
    induction k with
    | zero => exact ⟨Y, fun _ _ => rfl, fun _ h => absurd h (Nat.not_lt_zero _)⟩
    | succ k ih =>
      obtain ⟨Y', z1, z2⟩ := ih
      refine ⟨fun c => if c < p.rowCol k then Y' c else row k, ?_, ?_⟩
      · intro c hc
        have : c < p.rowCol k := by unfold rowCol; omega
        simp only [this, if_true]
        exact z1 c hc
      · intro r hr h
        rcases Nat.lt_or_ge r k with h2 | h2
        · have h3 := p.nRow_mono (show r + 1 ≤ k by omega)
          have h4 := p.nRow_succ h
          have : p.rowCol r < p.rowCol k := by unfold rowCol; omega
          simp only [this, if_true]
          exact z2 r h2 h
        · have : r = k := by omega
          subst this
          simp
  obtain ⟨Y', z1, z2⟩ := h2 p.m
  refine ⟨Y', fun c hc => ?_, fun i hi h => ?_, fun i hi h => ?_, z2⟩
  · rw [z1 c (by omega)]
    exact y1 c hc
  · have := p.nUp_mono (show i + 1 ≤ p.n by omega)
    have := p.nNeg_mono (show i ≤ p.n by omega)
    have := p.nUp_succ h
    rw [z1 _ (by unfold upCol; omega)]
    exact y2 i hi h
  · have := p.nUp_mono (show i + 1 ≤ p.n by omega)
    have := p.nNeg_mono (show i + 1 ≤ p.n by omega)
    have := p.nNeg_succ h
    rw [z1 _ (by unfold negCol; omega)]
    exact y3 i hi h

/-! ### The sums -/

/-- A variable minus its negative part. -/
def diff (Y : Nat → K) (i : Nat) : K := Y i - if p.low i = none then Y (p.negCol i) else 0

variable {p}
variable {f : LPFinal K} (h : p.FInv p.n p.n p.n p.m f)

include h

theorem FInv.sum_row (Y : Nat → K) {r : Nat} (hr : r < p.m) :
    ∑ c ∈ Finset.range p.bounds.nFinal, f.A r c * Y c
      = ∑ i ∈ Finset.range p.n, p.bounds.A r i * p.diff Y i
        + if p.types r = .eq then 0 else Y (p.rowCol r) := by
  rw [p.sum_all, ← Finset.sum_add_distrib]
  congr 1
  · refine Finset.sum_congr rfl fun i hi => ?_
    have hi := Finset.mem_range.1 hi
    unfold diff
    rw [h.A_old r i hr hi]
    have h1 : (if (p.upp i).isSome then f.A r (p.upCol i) * Y (p.upCol i) else 0) = 0 := by
      by_cases h1 : (p.upp i).isSome
      · have h3 : r ≠ p.upRow i := by unfold upRow; omega
        simp [h.A_upCol r i hi h1, h3]
      · simp [h1]
    rw [h1]
    by_cases h2 : p.low i = none
    · simp only [h2, if_true]
      rw [h.A_negCol r i hi h2, h.A_old r i hr hi]
      ring
    · simp [h2]
  · rw [Finset.sum_eq_single r]
    · by_cases h1 : p.types r = .eq
      · simp [h1]
      · simp [h1, h.A_rowCol r r hr h1]
    · intro j hj hne
      by_cases h1 : p.types j = .eq
      · simp [h1]
      · simp [h1, h.A_rowCol r j (Finset.mem_range.1 hj) h1, hne.symm]
    · intro hr'
      simp [hr] at hr'

theorem FInv.sum_upRow (Y : Nat → K) {i : Nat} (hi : i < p.n) (hu : (p.upp i).isSome) :
    ∑ c ∈ Finset.range p.bounds.nFinal, f.A (p.upRow i) c * Y c = p.diff Y i + Y (p.upCol i) := by
  have hge : p.m ≤ p.upRow i := by unfold upRow; omega
  have hA : ∀ j < p.n, f.A (p.upRow i) j = if j = i then 1 else 0 := by
    intro j hj
    rw [h.A_up _ j hge hj]
    by_cases hji : j = i
    · subst hji
      simp [hi, hu]
    · have : ¬ (j < p.n ∧ (p.upp j).isSome ∧ p.upRow i = p.upRow j) := by
        rintro ⟨-, a, b⟩
        exact hji (p.upRow_inj a hu b.symm)
      simp [hji, this]
  rw [p.sum_all, ← Finset.sum_add_distrib]
  have e2 : (∑ r ∈ Finset.range p.m, if p.types r = .eq then 0
      else f.A (p.upRow i) (p.rowCol r) * Y (p.rowCol r)) = 0 := by
    refine Finset.sum_eq_zero fun r hr => ?_
    have hr := Finset.mem_range.1 hr
    by_cases h1 : p.types r = .eq
    · simp [h1]
    · simp [h1, h.A_rowCol _ r hr h1, show p.upRow i ≠ r by omega]
  rw [e2, add_zero, Finset.sum_eq_single i]
  · rw [hA i hi]
    simp only [if_true, one_mul, hu]
    rw [h.A_upCol _ i hi hu]
    unfold diff
    by_cases h2 : p.low i = none
    · simp only [h2, if_true]
      rw [h.A_negCol _ i hi h2, hA i hi]
      simp
      ring
    · simp [h2]
  · intro j hj hne
    have hj := Finset.mem_range.1 hj
    rw [hA j hj]
    simp only [hne, if_false, zero_mul, zero_add]
    have h1 : (if (p.upp j).isSome then f.A (p.upRow i) (p.upCol j) * Y (p.upCol j) else 0) = 0 := by
      by_cases h1 : (p.upp j).isSome
      · have h3 : p.upRow i ≠ p.upRow j := fun e => hne (p.upRow_inj h1 hu e.symm)
        simp [h.A_upCol _ j hj h1, h3]
      · simp [h1]
    rw [h1]
    by_cases h2 : p.low j = none
    · simp only [h2, if_true]
      rw [h.A_negCol _ j hj h2, hA j hj]
      simp [hne]
    · simp [h2]
  · intro hr'
    simp [hi] at hr'

theorem FInv.sum_cost (Y : Nat → K) :
    ∑ c ∈ Finset.range p.bounds.nFinal, f.cost c * Y c
      = ∑ i ∈ Finset.range p.n, p.bounds.cost i * p.diff Y i := by
  rw [p.sum_all, ← Finset.sum_add_distrib]
  have e2 : (∑ r ∈ Finset.range p.m, if p.types r = .eq then 0
      else f.cost (p.rowCol r) * Y (p.rowCol r)) = 0 := by
    refine Finset.sum_eq_zero fun r hr => ?_
    have hr := Finset.mem_range.1 hr
    by_cases h1 : p.types r = .eq
    · simp [h1]
    · simp [h1, h.c_rowCol r hr h1]
  rw [e2, add_zero]
  refine Finset.sum_congr rfl fun i hi => ?_
  have hi := Finset.mem_range.1 hi
  unfold diff
  rw [h.c_old i hi]
  have h1 : (if (p.upp i).isSome then f.cost (p.upCol i) * Y (p.upCol i) else 0) = 0 := by
    by_cases h1 : (p.upp i).isSome
    · rw [h.c_upCol i hi h1]
      simp
    · simp [h1]
  rw [h1]
  by_cases h2 : p.low i = none
  · simp only [h2, if_true]
    rw [h.c_negCol i hi h2]
    ring
  · simp [h2]

theorem FInv.sum_map (Y : Nat → K) {i : Nat} (hi : i < p.n) :
    ∑ c ∈ Finset.range p.bounds.nFinal, f.map i c * Y c = p.sgn i * p.diff Y i := by
  rw [p.sum_all, ← Finset.sum_add_distrib]
  have e2 : (∑ r ∈ Finset.range p.m, if p.types r = .eq then 0
      else f.map i (p.rowCol r) * Y (p.rowCol r)) = 0 := by
    refine Finset.sum_eq_zero fun r hr => ?_
    have hr := Finset.mem_range.1 hr
    by_cases h1 : p.types r = .eq
    · simp [h1]
    · simp [h1, h.m_rowCol i r hr h1]
  have h1 : ∀ j < p.n, (if (p.upp j).isSome then f.map i (p.upCol j) * Y (p.upCol j) else 0) = 0 := by
    intro j hj
    by_cases h1 : (p.upp j).isSome
    · rw [h.m_upCol i j hj h1]
      simp
    · simp [h1]
  rw [e2, add_zero, Finset.sum_eq_single i]
  · rw [h1 i hi, h.m_old i i hi]
    simp only [hi, and_self, if_true]
    unfold diff
    by_cases h2 : p.low i = none
    · simp only [h2, if_true]
      rw [h.m_negCol i i hi h2]
      simp
      ring
    · simp [h2]
  · intro j hj hne
    have hj := Finset.mem_range.1 hj
    rw [h1 j hj, h.m_old i j hj]
    simp only [hne.symm, and_false, if_false, zero_mul, zero_add]
    by_cases h2 : p.low j = none
    · simp only [h2, if_true]
      rw [h.m_negCol i j hj h2]
      simp [hne.symm]
    · simp [h2]
  · intro hr'
    simp [hi] at hr'

end LPInput

end Verif
