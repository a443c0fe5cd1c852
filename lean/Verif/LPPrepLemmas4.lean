import Verif.LPPrepLemmas3
import Mathlib.Tactic.LinearCombination

/-
The equality form and the problem of the user: feasible points, values, the first basis.
-/
namespace Verif

open Res

variable {K : Type} [Field K] [LinearOrder K] [IsStrictOrderedRing K]

namespace LPInput

variable (p : LPInput K)

theorem bounds_A {r c : Nat} (hr : r < p.m) (hc : c < p.n) :
    p.bounds.A r c = p.rsgn r * (p.sgn c * p.A r c) := by
  rw [bounds_eq]
  simp [stateR, stateB, hr, hc]
theorem bounds_b {r : Nat} (hr : r < p.m) :
    p.bounds.b r = p.rsgn r * (p.b r - ∑ i ∈ Finset.range p.n, p.sgn i * p.A r i * p.lowv i) := by
  rw [bounds_eq]
  simp [stateR, stateB, hr]
theorem bounds_cost {c : Nat} (hc : c < p.n) : p.bounds.cost c = p.sgn c * p.cost c := by
  rw [bounds_eq]
  simp [stateR, stateB, hc]
theorem bounds_traslCost :
    p.bounds.traslCost = ∑ i ∈ Finset.range p.n, p.sgn i * p.cost i * p.lowv i := by
  rw [bounds_eq]
  simp [stateR, stateB]
theorem bounds_traslSol {i : Nat} (hi : i < p.n) : p.bounds.traslSol i = p.lowv i := by
  rw [bounds_eq]
  simp [stateR, stateB, hi]

theorem sgn_mul_self (i : Nat) : p.sgn i * p.sgn i = 1 := by
  unfold sgn norm
  rcases p.UB i with _ | u <;> rcases p.LB i with _ | l <;> simp
  split <;> simp

theorem rsgn_mul_self (r : Nat) : p.rsgn r * p.rsgn r = 1 := by
  unfold rsgn
  split <;> simp

/-- The variables of the equality form as a function on numbers. -/
def ext {N : Nat} (y : Fin N → K) (c : Nat) : K := if h : c < N then y ⟨c, h⟩ else 0

theorem ext_of_lt {N : Nat} (y : Fin N → K) {c : Nat} (h : c < N) : ext y c = y ⟨c, h⟩ := dif_pos h

theorem ext_nonneg {N : Nat} {y : Fin N → K} (h : ∀ j, 0 ≤ y j) (c : Nat) : 0 ≤ ext y c := by
  unfold ext
  split
  · exact h _
  · exact le_refl _

theorem sum_ext {N : Nat} (g : Nat → K) (y : Fin N → K) :
    ∑ j : Fin N, g j * y j = ∑ c ∈ Finset.range N, g c * ext y c := by
  rw [← Fin.sum_univ_eq_sum_range (fun c => g c * ext y c) N]
  refine Finset.sum_congr rfl fun j _ => ?_
  rw [ext_of_lt y j.2]

/-- The point of the user's problem that belongs to values of the equality form. -/
def point (Y : Nat → K) (i : Nat) : K := p.sgn i * (p.diff Y i + p.lowv i)

theorem diff_point (Y : Nat → K) (i : Nat) : p.diff Y i = p.sgn i * p.point Y i - p.lowv i := by
  unfold point
  rw [← mul_assoc, sgn_mul_self]
  ring

theorem inBounds_iff (x : Nat → K) (i : Nat) :
    p.InBounds x i ↔ (p.low i ≠ none → 0 ≤ p.sgn i * x i - p.lowv i) ∧
      ∀ u, p.upp i = some u → p.sgn i * x i - p.lowv i ≤ u := by
  unfold InBounds sgn lowv low upp norm
  rcases p.UB i with _ | u <;> rcases p.LB i with _ | l
  · simp
  · simp
  · by_cases hu : u ≤ 0
    · simp [hu]
    · simp [hu]
  · simp

theorem lhs_point (Y : Nat → K) (r : Nat) (hr : r < p.m) :
    ∑ i ∈ Finset.range p.n, p.bounds.A r i * p.diff Y i
      = p.rsgn r * p.lhs (p.point Y) r
        - p.rsgn r * ∑ i ∈ Finset.range p.n, p.sgn i * p.A r i * p.lowv i := by
  unfold lhs
  rw [Finset.mul_sum, Finset.mul_sum, ← Finset.sum_sub_distrib]
  refine Finset.sum_congr rfl fun i hi => ?_
  rw [p.bounds_A hr (Finset.mem_range.1 hi), diff_point]
  linear_combination p.rsgn r * p.A r i * p.point Y i * p.sgn_mul_self i

theorem rowHolds_iff (x : Nat → K) (r : Nat) :
    p.RowHolds x r ↔ if p.types r = .eq then p.lhs x r = p.b r
      else p.rsgn r * p.lhs x r ≤ p.rsgn r * p.b r := by
  unfold RowHolds rsgn
  rcases p.types r with _ | _ | _ <;> simp

theorem value_point (Y : Nat → K) :
    ∑ i ∈ Finset.range p.n, p.bounds.cost i * p.diff Y i + p.bounds.traslCost = p.value (p.point Y) := by
  unfold value
  rw [p.bounds_traslCost, ← Finset.sum_add_distrib]
  refine Finset.sum_congr rfl fun i hi => ?_
  rw [p.bounds_cost (Finset.mem_range.1 hi)]
  unfold point
  ring

theorem sgn_of_not_flipped {i : Nat} (h : ¬ p.Flipped i) : p.sgn i = 1 := by
  unfold Flipped at h
  unfold sgn norm
  rcases hU : p.UB i with _ | u <;> rcases hL : p.LB i with _ | l
  · rfl
  · rfl
  · have : ¬ u ≤ 0 := fun hu => h ⟨hL, u, hU, hu⟩
    simp [this]
  · rfl

theorem lowv_of_flipped {i : Nat} (h : p.Flipped i) {u : K} (hu : p.UB i = some u) : p.lowv i = -u := by
  obtain ⟨hL, u', hU, hle⟩ := h
  rw [hU] at hu
  injection hu with hu
  subst hu
  simp [lowv, low, norm, hU, hL, hle]

theorem lowv_of_none {i : Nat} (h : p.low i = none) : p.lowv i = 0 := by simp [lowv, h]

/-! ### The equality form -/

variable {p}
variable {f : LPFinal K} (h : p.FInv p.n p.n p.n p.m f)

include h

theorem FInv.std_iff (y : Fin p.bounds.nFinal → K) :
    (∀ i, ∑ j, (f.std p.bounds).A i j * y j = (f.std p.bounds).b i) ↔
      (∀ r < p.m, p.rsgn r * p.lhs (p.point (ext y)) r + (if p.types r = .eq then 0 else ext y (p.rowCol r))
          = p.rsgn r * p.b r) ∧
        ∀ i < p.n, ∀ u, p.upp i = some u → p.diff (ext y) i + ext y (p.upCol i) = u := by
  have conv : ∀ i : Fin p.bounds.mFinal, ∑ j, (f.std p.bounds).A i j * y j
      = ∑ c ∈ Finset.range p.bounds.nFinal, f.A i c * ext y c := fun i => sum_ext (fun c => f.A i c) y
  constructor
  · intro hy
    constructor
    · intro r hr
      have := hy ⟨r, p.old_row_lt hr⟩
      rw [conv, h.sum_row _ hr] at this
      have hb : (f.std p.bounds).b ⟨r, p.old_row_lt hr⟩ = p.bounds.b r := h.b_old r hr
      rw [hb, p.bounds_b hr, p.lhs_point _ r hr] at this
      linarith
    · intro i hi u hu
      have hs : (p.upp i).isSome := by simp [hu]
      have := hy ⟨p.upRow i, p.upRow_lt hi hs⟩
      rw [conv, h.sum_upRow _ hi hs] at this
      rw [this]
      exact h.b_up i u hi hu
  · rintro ⟨h1, h2⟩ ⟨r, hr⟩
    rw [conv]
    rcases p.row_cases hr with hr' | ⟨i, hi, hs, rfl⟩
    · have := h1 r hr'
      rw [h.sum_row _ hr', p.lhs_point _ r hr']
      have hb : (f.std p.bounds).b ⟨r, hr⟩ = p.bounds.b r := h.b_old r hr'
      rw [hb, p.bounds_b hr']
      linarith
    · obtain ⟨u, hu⟩ := Option.isSome_iff_exists.1 hs
      rw [h.sum_upRow _ hi hs, h2 i hi u hu]
      exact (h.b_up i u hi hu).symm

theorem FInv.hom_iff (y : Fin p.bounds.nFinal → K) :
    (∀ i, ∑ j, (f.std p.bounds).A i j * y j = 0) ↔
      (∀ r < p.m, ∑ i ∈ Finset.range p.n, p.bounds.A r i * p.diff (ext y) i
          + (if p.types r = .eq then 0 else ext y (p.rowCol r)) = 0) ∧
        ∀ i < p.n, (p.upp i).isSome → p.diff (ext y) i + ext y (p.upCol i) = 0 := by
  have conv : ∀ i : Fin p.bounds.mFinal, ∑ j, (f.std p.bounds).A i j * y j
      = ∑ c ∈ Finset.range p.bounds.nFinal, f.A i c * ext y c := fun i => sum_ext (fun c => f.A i c) y
  constructor
  · intro hy
    constructor
    · intro r hr
      have := hy ⟨r, p.old_row_lt hr⟩
      rw [conv, h.sum_row _ hr] at this
      exact this
    · intro i hi hs
      have := hy ⟨p.upRow i, p.upRow_lt hi hs⟩
      rw [conv, h.sum_upRow _ hi hs] at this
      exact this
  · rintro ⟨h1, h2⟩ ⟨r, hr⟩
    rw [conv]
    rcases p.row_cases hr with hr' | ⟨i, hi, hs, rfl⟩
    · rw [h.sum_row _ hr']
      exact h1 r hr'
    · rw [h.sum_upRow _ hi hs]
      exact h2 i hi hs

/-- A feasible point of the equality form gives a feasible point. -/
theorem FInv.feasible_of_std {y : Fin p.bounds.nFinal → K} (hy : (f.std p.bounds).Feasible y) :
    p.Feasible (p.point (ext y)) := by
  obtain ⟨h1, h2⟩ := (h.std_iff y).1 hy.1
  have h0 := ext_nonneg hy.2
  constructor
  · intro i hi
    rw [inBounds_iff]
    rw [← diff_point]
    constructor
    · intro hl
      simp only [diff, hl, if_false, sub_zero]
      exact h0 i
    · intro u hu
      have := h2 i hi u hu
      have := h0 (p.upCol i)
      linarith
  · intro r hr
    rw [rowHolds_iff]
    have := h1 r hr
    by_cases ht : p.types r = .eq
    · have hs : p.rsgn r = 1 := by simp [rsgn, ht]
      simp only [ht, if_true, hs] at this ⊢
      linarith
    · simp only [ht, if_false] at this ⊢
      have := h0 (p.rowCol r)
      linarith

/-- Values of the variables and of the slack variables determine a point of the equality form. -/
theorem FInv.exists_std (v neg : Nat → K) :
    ∃ y : Fin p.bounds.nFinal → K,
      (∀ c < p.n, ext y c = v c) ∧ (∀ i < p.n, p.low i = none → ext y (p.negCol i) = neg i) ∧
      (∀ i < p.n, ∀ u, p.upp i = some u → ext y (p.upCol i) = u - p.diff (ext y) i) ∧
      (∀ r < p.m, p.types r ≠ .eq →
        ext y (p.rowCol r) = p.rsgn r * p.b r - p.rsgn r * p.lhs (p.point (ext y)) r) := by
  have d : ∀ Y : Nat → K, (∀ c < p.n, Y c = v c) → (∀ i < p.n, p.low i = none → Y (p.negCol i) = neg i) →
      ∀ i < p.n, p.diff Y i = v i - if p.low i = none then neg i else 0 := by
    intro Y y1 y2 i hi
    unfold diff
    rw [y1 i hi]
    by_cases hl : p.low i = none
    · simp [hl, y2 i hi hl]
    · simp [hl]
  set D : Nat → K := fun i => v i - if p.low i = none then neg i else 0 with hD
  obtain ⟨Y, y1, y2, y3, y4⟩ := p.exists_values v (fun i => (p.upp i).getD 0 - D i) neg
    (fun r => p.rsgn r * p.b r - p.rsgn r * p.lhs (fun i => p.sgn i * (D i + p.lowv i)) r)
  have e : ∀ c, c < p.bounds.nFinal → ext (fun j : Fin p.bounds.nFinal => Y j) c = Y c :=
    fun c hc => ext_of_lt _ hc
  have f1 : ∀ c < p.n, ext (fun j : Fin p.bounds.nFinal => Y j) c = v c := fun c hc => by
    rw [e c (p.old_lt hc)]
    exact y1 c hc
  have f2 : ∀ i < p.n, p.low i = none → ext (fun j : Fin p.bounds.nFinal => Y j) (p.negCol i) = neg i :=
    fun i hi hl => by
      rw [e _ (p.negCol_lt hi hl)]
      exact y3 i hi hl
  refine ⟨fun j => Y j, f1, f2, fun i hi u hu => ?_, fun r hr ht => ?_⟩
  · rw [e _ (p.upCol_lt hi (by simp [hu])), y2 i hi (by simp [hu]), d _ f1 f2 i hi, hu]
    rfl
  · rw [e _ (p.rowCol_lt hr ht), y4 r hr ht]
    have : p.lhs (p.point (ext fun j : Fin p.bounds.nFinal => Y j)) r
        = p.lhs (fun i => p.sgn i * (D i + p.lowv i)) r := by
      unfold lhs
      refine Finset.sum_congr rfl fun i hi => ?_
      unfold point
      rw [d _ f1 f2 i (Finset.mem_range.1 hi)]
    rw [this]

/-- Every feasible point comes from a feasible point of the equality form. -/
theorem FInv.std_of_feasible {x : Nat → K} (hx : p.Feasible x) :
    ∃ y, (f.std p.bounds).Feasible y ∧ ∀ i < p.n, p.point (ext y) i = x i := by
  set z : Nat → K := fun i => p.sgn i * x i - p.lowv i with hz
  obtain ⟨y, y1, y2, y3, y4⟩ := h.exists_std (fun i => if p.low i = none then max (z i) 0 else z i)
    (fun i => max (-z i) 0)
  have hd : ∀ i < p.n, p.diff (ext y) i = z i := by
    intro i hi
    unfold diff
    rw [y1 i hi]
    by_cases hl : p.low i = none
    · simp only [hl, if_true]
      rw [y2 i hi hl]
      rcases le_total (z i) 0 with h1 | h1
      · rw [max_eq_right h1, max_eq_left (by linarith)]
        ring
      · rw [max_eq_left h1, max_eq_right (by linarith)]
        ring
    · simp [hl]
  have hp : ∀ i < p.n, p.point (ext y) i = x i := by
    intro i hi
    unfold point
    rw [hd i hi, hz]
    dsimp only
    rw [sub_add_cancel, ← mul_assoc, sgn_mul_self, one_mul]
  have hlhs : ∀ r, p.lhs (p.point (ext y)) r = p.lhs x r := by
    intro r
    unfold lhs
    refine Finset.sum_congr rfl fun i hi => ?_
    rw [hp i (Finset.mem_range.1 hi)]
  refine ⟨y, ⟨?_, ?_⟩, hp⟩
  · rw [h.std_iff]
    constructor
    · intro r hr
      by_cases ht : p.types r = .eq
      · have := (p.rowHolds_iff x r).1 (hx.2 r hr)
        simp only [ht, if_true] at this ⊢
        rw [hlhs, this]
        ring
      · simp only [ht, if_false]
        rw [y4 r hr ht]
        ring
    · intro i hi u hu
      rw [y3 i hi u hu]
      ring
  · intro j
    rw [← ext_of_lt y j.2]
    rcases p.col_cases j.2 with hc | ⟨i, hi, hs, hc⟩ | ⟨i, hi, hl, hc⟩ | ⟨r, hr, ht, hc⟩
    · rw [y1 _ hc]
      by_cases hl : p.low j = none
      · simp [hl]
      · simp only [hl, if_false]
        exact ((p.inBounds_iff x j).1 (hx.1 j hc)).1 hl
    · obtain ⟨u, hu⟩ := Option.isSome_iff_exists.1 hs
      rw [hc, y3 i hi u hu, hd i hi]
      have := ((p.inBounds_iff x i).1 (hx.1 i hi)).2 u hu
      rw [hz]
      dsimp only
      linarith
    · rw [hc, y2 i hi hl]
      exact le_max_right _ _
    · rw [hc, y4 r hr ht, hlhs]
      have := (p.rowHolds_iff x r).1 (hx.2 r hr)
      simp only [ht, if_false] at this
      linarith

theorem FInv.value_std (y : Fin p.bounds.nFinal → K) :
    (f.std p.bounds).value y + p.bounds.traslCost = p.value (p.point (ext y)) := by
  rw [← p.value_point, ← h.sum_cost]
  unfold StdLP.value
  rw [show (∑ j, (f.std p.bounds).c j * y j) = ∑ c ∈ Finset.range p.bounds.nFinal, f.cost c * ext y c
    from sum_ext (fun c => f.cost c) y]

theorem FInv.solution_eq (y : Fin p.bounds.nFinal → K) {i : Nat} (hi : i < p.n) :
    f.solution p.bounds y i = p.sgn i * p.diff (ext y) i + p.lowv i := by
  unfold LPFinal.solution
  rw [sum_ext (fun c => f.map i c) y, h.sum_map _ hi, p.bounds_traslSol hi]

/-- The point that is returned is the right one unless the sign of the variable was changed. -/
theorem FInv.solution_point (y : Fin p.bounds.nFinal → K) {i : Nat} (hi : i < p.n)
    (hf : ¬ p.Flipped i ∨ p.UB i = some 0) : f.solution p.bounds y i = p.point (ext y) i := by
  rw [h.solution_eq y hi]
  unfold point
  rcases hf with hf | hf
  · rw [p.sgn_of_not_flipped hf]
    ring
  · have : p.lowv i = 0 ∨ p.sgn i = 1 := by
      by_cases hfl : p.Flipped i
      · exact Or.inl (by rw [p.lowv_of_flipped hfl hf, neg_zero])
      · exact Or.inr (p.sgn_of_not_flipped hfl)
    rcases this with e | e
    · rw [e]
      ring
    · rw [e]
      ring

/-! ### The first basis -/

omit h in
theorem nRow_le (k : Nat) : p.nRow k ≤ k := by
  induction k with
  | zero => simp [nRow]
  | succ k ih =>
    unfold nRow
    split <;> omega

omit h in
theorem nRow_eq_iff (k : Nat) : p.nRow k = k ↔ ∀ r < k, p.types r ≠ .eq := by
  induction k with
  | zero => simp [nRow]
  | succ k ih =>
    have := p.nRow_le k
    constructor
    · intro e r hr
      by_cases ht : p.types k = .eq
      · rw [p.nRow_succ' ht] at e
        omega
      · rw [p.nRow_succ ht] at e
        rcases Nat.lt_or_ge r k with h1 | h1
        · exact (ih.1 (by omega)) r h1
        · rw [show r = k by omega]
          exact ht
    · intro e
      rw [p.nRow_succ (e k (by omega)), ih.2 fun r hr => e r (by omega)]

theorem FInv.slack_length : f.slack.length = p.bounds.mFinal ↔ ∀ r < p.m, p.types r ≠ .eq := by
  rw [h.len, p.bounds_mFinal, ← nRow_eq_iff]
  omega

theorem FInv.addVar_final : f.addVar = p.bounds.nFinal := by
  rw [h.addVar, p.bounds_nFinal]

/-- The columns outside the first basis. -/
theorem FInv.zero_noSlack {y : Fin p.bounds.nFinal → K} {N : Fin f.noSlack.length → Fin p.bounds.nFinal}
    (hN : ∀ q : Fin f.noSlack.length, f.noSlack[q.1]? = some (N q).1) :
    (∀ q, y (N q) = 0) ↔ (∀ c < p.n, ext y c = 0) ∧ ∀ i < p.n, p.low i = none → ext y (p.negCol i) = 0 := by
  have key : ∀ c, c ∈ f.noSlack → ∃ q, (N q).1 = c := by
    intro c hc
    obtain ⟨q, hq, e⟩ := List.getElem_of_mem hc
    have := hN ⟨q, hq⟩
    rw [List.getElem?_eq_getElem hq, e] at this
    exact ⟨⟨q, hq⟩, (Option.some.inj this).symm⟩
  have key2 : ∀ q, (N q).1 ∈ f.noSlack := fun q => List.mem_of_getElem? (hN q)
  have e : ∀ q, y (N q) = ext y (N q).1 := fun q => (ext_of_lt y (N q).2).symm
  constructor
  · intro h0
    constructor
    · intro c hc
      obtain ⟨q, hq⟩ := key c ((h.noSlack c).2 (Or.inl hc))
      rw [← hq, ← e]
      exact h0 q
    · intro i hi hl
      obtain ⟨q, hq⟩ := key (p.negCol i) ((h.noSlack _).2 (Or.inr ⟨i, hi, hl, rfl⟩))
      rw [← hq, ← e]
      exact h0 q
  · rintro ⟨h1, h2⟩ q
    rw [e]
    rcases (h.noSlack _).1 (key2 q) with hc | ⟨i, hi, hl, hc⟩
    · exact h1 _ hc
    · rw [hc]
      exact h2 i hi hl

/-- The first basis is regular. -/
theorem FInv.independent (hne : ∀ r < p.m, p.types r ≠ .eq)
    {N : Fin f.noSlack.length → Fin p.bounds.nFinal}
    (hN : ∀ q : Fin f.noSlack.length, f.noSlack[q.1]? = some (N q).1) (z : Fin p.bounds.nFinal → K)
    (hz : ∀ q, z (N q) = 0) (hA : ∀ i, ∑ j, (f.std p.bounds).A i j * z j = 0) (j : Fin p.bounds.nFinal) :
    z j = 0 := by
  obtain ⟨z1, z2⟩ := (h.zero_noSlack hN).1 hz
  obtain ⟨a1, a2⟩ := (h.hom_iff z).1 hA
  have hd : ∀ i < p.n, p.diff (ext z) i = 0 := by
    intro i hi
    unfold diff
    rw [z1 i hi]
    by_cases hl : p.low i = none
    · simp [hl, z2 i hi hl]
    · simp [hl]
  rw [← ext_of_lt z j.2]
  rcases p.col_cases j.2 with hc | ⟨i, hi, hs, hc⟩ | ⟨i, hi, hl, hc⟩ | ⟨r, hr, ht, hc⟩
  · exact z1 _ hc
  · have := a2 i hi hs
    rw [hc]
    rw [hd i hi] at this
    linarith
  · rw [hc]
    exact z2 i hi hl
  · have := a1 r hr
    rw [hc]
    rw [Finset.sum_eq_zero fun i hi => by rw [hd i (Finset.mem_range.1 hi), mul_zero]] at this
    simp only [ht, if_false, zero_add] at this
    exact this

/-- The point of the first basis. -/
theorem FInv.start (hne : ∀ r < p.m, p.types r ≠ .eq) :
    ∃ y : Fin p.bounds.nFinal → K, (∀ i, ∑ j, (f.std p.bounds).A i j * y j = (f.std p.bounds).b i) ∧
      (∀ c < p.n, ext y c = 0) ∧ (∀ i < p.n, p.low i = none → ext y (p.negCol i) = 0) ∧
      (∀ i < p.n, p.diff (ext y) i = 0) ∧
      (∀ i < p.n, ∀ u, p.upp i = some u → ext y (p.upCol i) = u) ∧
      (∀ r < p.m, ext y (p.rowCol r) = p.rsgn r * p.b r - p.rsgn r * p.lhs (p.point (ext y)) r) := by
  obtain ⟨y, y1, y2, y3, y4⟩ := h.exists_std (fun _ => 0) (fun _ => 0)
  have hd : ∀ i < p.n, p.diff (ext y) i = 0 := by
    intro i hi
    unfold diff
    rw [y1 i hi]
    by_cases hl : p.low i = none
    · simp [hl, y2 i hi hl]
    · simp [hl]
  refine ⟨y, ?_, y1, y2, hd, fun i hi u hu => by rw [y3 i hi u hu, hd i hi, sub_zero],
    fun r hr => y4 r hr (hne r hr)⟩
  rw [h.std_iff]
  constructor
  · intro r hr
    simp only [hne r hr, if_false]
    rw [y4 r hr (hne r hr)]
    ring
  · intro i hi u hu
    rw [y3 i hi u hu]
    ring

/-- The first basis: its two lists, its tableau and its values. -/
theorem FInv.first (hne : ∀ r < p.m, p.types r ≠ .eq) :
    ∃ B N, columns f.slack p.bounds.mFinal p.bounds.nFinal = some B ∧
      columns f.noSlack f.noSlack.length p.bounds.nFinal = some N ∧ IsSplit B N ∧
      (∀ q : Fin f.noSlack.length, f.noSlack[q.1]? = some (N q).1) ∧
      ∃ t, (f.std p.bounds).tableau B N = ok t := by
  have hp := h.perm
  rw [h.addVar_final] at hp
  obtain ⟨B, N, b1, n1, hs, -, n2⟩ := columns_split (m := p.bounds.mFinal) (h.slack_length.2 hne) hp
  exact ⟨B, N, b1, n1, hs, n2, tableau_ok _ N (det_of_independent hs (h.independent hne n2))⟩

end LPInput

end Verif
