import Verif.LPSpec
import Mathlib.Tactic.Ring
import Mathlib.Tactic.Linarith
import Mathlib.Tactic.FieldSimp
import Mathlib.Algebra.BigOperators.Fin
import Mathlib.Algebra.Order.BigOperators.Group.Finset
import Mathlib.Algebra.Order.BigOperators.Ring.Finset

/-
Lemmas on the tableau and on the loop of the simplex algorithm.
-/
namespace Verif

open Res

variable {K : Type} [Field K] [LinearOrder K] [IsStrictOrderedRing K]

section
variable {m n k : Nat}

/-- A basis: the two lists together contain every column once. -/
def IsSplit (B : Fin m → Fin n) (N : Fin k → Fin n) : Prop := Function.Bijective (Sum.elim B N)

theorem IsSplit.sum {B : Fin m → Fin n} {N : Fin k → Fin n} (h : IsSplit B N) (g : Fin n → K) :
    ∑ j, g j = ∑ i, g (B i) + ∑ q, g (N q) := by
  rw [← h.sum_comp g, Fintype.sum_sum_type]
  rfl

theorem IsSplit.swap {B : Fin m → Fin n} {N : Fin k → Fin n} (h : IsSplit B N) (p : Fin m) (q : Fin k) :
    IsSplit (Function.update B p (N q)) (Function.update N q (B p)) := by
  have e : Sum.elim (Function.update B p (N q)) (Function.update N q (B p))
      = Sum.elim B N ∘ Equiv.swap (Sum.inl p) (Sum.inr q) := by
    funext s
    rcases s with i | j
    · by_cases hi : i = p
      · subst hi
        simp
      · simp [hi, Equiv.swap_apply_of_ne_of_ne]
    · by_cases hj : j = q
      · subst hj
        simp
      · simp [hj, Equiv.swap_apply_of_ne_of_ne]
  unfold IsSplit
  rw [e]
  exact Function.Bijective.comp h (Equiv.bijective _)

/-- The dictionary: what the tableau of a basis says about the solutions of the equations. -/
structure Dictionary (P : StdLP K m n) (B : Fin m → Fin n) (N : Fin k → Fin n) (t : Tableau K m k) : Prop where
  eqs : ∀ y : Fin n → K, (∀ i, ∑ j, P.A i j * y j = P.b i) ↔
    ∀ i, y (B i) = t.beta i + ∑ q, t.alpha i q * y (N q)
  hom : ∀ y : Fin n → K, (∀ i, ∑ j, P.A i j * y j = 0) ↔ ∀ i, y (B i) = ∑ q, t.alpha i q * y (N q)
  red : ∀ q, t.r q = P.c (N q) + ∑ i, t.alpha i q * P.c (B i)

theorem tableau_ok (P : StdLP K m n) {B : Fin m → Fin n} (N : Fin k → Fin n)
    (hd : (P.A.submatrix id B).det ≠ 0) : ∃ t, P.tableau B N = ok t := by
  unfold StdLP.tableau
  simp [hd]

theorem tableau_det {P : StdLP K m n} {B : Fin m → Fin n} {N : Fin k → Fin n} {t : Tableau K m k}
    (h : P.tableau B N = ok t) : (P.A.submatrix id B).det ≠ 0 := by
  intro hd
  unfold StdLP.tableau at h
  simp [hd] at h

theorem solve_iff {M : Matrix (Fin m) (Fin m) K} (hd : M.det ≠ 0) (u v : Fin m → K) :
    M.mulVec u = v ↔ u = (M.det⁻¹ • M.adjugate).mulVec v := by
  have h1 : (M.det⁻¹ • M.adjugate) * M = 1 := by
    rw [Matrix.smul_mul, Matrix.adjugate_mul, smul_smul, inv_mul_cancel₀ hd, one_smul]
  have h2 : M * (M.det⁻¹ • M.adjugate) = 1 := by
    rw [Matrix.mul_smul, Matrix.mul_adjugate, smul_smul, inv_mul_cancel₀ hd, one_smul]
  constructor
  · rintro rfl
    rw [Matrix.mulVec_mulVec, h1, Matrix.one_mulVec]
  · rintro rfl
    rw [Matrix.mulVec_mulVec, h2, Matrix.one_mulVec]

theorem rows_iff {P : StdLP K m n} {B : Fin m → Fin n} {N : Fin k → Fin n} {t : Tableau K m k}
    (hs : IsSplit B N) (h : P.tableau B N = ok t) (y : Fin n → K) (b : Fin m → K) :
    (∀ i, ∑ j, P.A i j * y j = b i) ↔
      ∀ i, y (B i) = (((P.A.submatrix id B).det⁻¹ • (P.A.submatrix id B).adjugate).mulVec b) i
        + ∑ q, t.alpha i q * y (N q) := by
  have hd := tableau_det h
  have ht : t.alpha = -(((P.A.submatrix id B).det⁻¹ • (P.A.submatrix id B).adjugate)
      * P.A.submatrix id N) := by
    unfold StdLP.tableau at h
    simp only [hd, if_false] at h
    injection h with h
    rw [← h]
  set AB := P.A.submatrix id B with hAB
  set AN := P.A.submatrix id N with hAN
  have e1 : (∀ i, ∑ j, P.A i j * y j = b i)
      ↔ AB.mulVec (fun i => y (B i)) = fun i => b i - (AN.mulVec fun q => y (N q)) i := by
    rw [funext_iff]
    refine forall_congr' fun i => ?_
    rw [hs.sum fun j => P.A i j * y j]
    change (AB.mulVec (fun i => y (B i))) i + (AN.mulVec fun q => y (N q)) i = b i ↔ _
    constructor
    · intro e
      linarith
    · intro e
      linarith
  rw [e1, solve_iff hd, funext_iff]
  refine forall_congr' fun i => ?_
  have e2 : (AB.det⁻¹ • AB.adjugate).mulVec (fun i => b i - (AN.mulVec fun q => y (N q)) i)
      = (AB.det⁻¹ • AB.adjugate).mulVec b + t.alpha.mulVec fun q => y (N q) := by
    rw [ht, Matrix.neg_mulVec, ← Matrix.mulVec_mulVec, ← sub_eq_add_neg, ← Matrix.mulVec_sub]
    rfl
  rw [e2]
  rfl

theorem dictionary {P : StdLP K m n} {B : Fin m → Fin n} {N : Fin k → Fin n} {t : Tableau K m k}
    (hs : IsSplit B N) (h : P.tableau B N = ok t) : Dictionary P B N t := by
  have hd := tableau_det h
  have ht := h
  unfold StdLP.tableau at ht
  simp only [hd, if_false] at ht
  injection ht with ht
  refine ⟨fun y => ?_, fun y => ?_, fun q => ?_⟩
  · rw [rows_iff hs h y P.b, ← ht]
  · have := rows_iff hs h y (fun _ => 0)
    have z : ((P.A.submatrix id B).det⁻¹ • (P.A.submatrix id B).adjugate).mulVec (fun _ => (0 : K)) = 0 :=
      Matrix.mulVec_zero _
    rw [z] at this
    simpa using this
  · rw [← ht]

/-- The value in the dictionary. -/
theorem Dictionary.value {P : StdLP K m n} {B : Fin m → Fin n} {N : Fin k → Fin n} {t : Tableau K m k}
    (hs : IsSplit B N) (D : Dictionary P B N t) {y : Fin n → K} (hy : ∀ i, ∑ j, P.A i j * y j = P.b i) :
    P.value y = ∑ i, P.c (B i) * t.beta i + ∑ q, t.r q * y (N q) := by
  unfold StdLP.value
  rw [hs.sum fun j => P.c j * y j]
  have e := (D.eqs y).1 hy
  simp only [D.red, add_mul, Finset.sum_add_distrib]
  have e3 : ∑ i, P.c (B i) * y (B i)
      = ∑ i, P.c (B i) * t.beta i + ∑ q, (∑ i, t.alpha i q * P.c (B i)) * y (N q) := by
    simp only [Finset.sum_mul]
    rw [Finset.sum_comm, ← Finset.sum_add_distrib]
    refine Finset.sum_congr rfl fun i _ => ?_
    rw [e i, mul_add, Finset.mul_sum]
    congr 1
    refine Finset.sum_congr rfl fun q _ => ?_
    ring
  rw [e3]
  ring

/-- The value along a direction of the equations. -/
theorem Dictionary.slope {P : StdLP K m n} {B : Fin m → Fin n} {N : Fin k → Fin n} {t : Tableau K m k}
    (hs : IsSplit B N) (D : Dictionary P B N t) {d : Fin n → K} (hy : ∀ i, ∑ j, P.A i j * d j = 0) :
    P.value d = ∑ q, t.r q * d (N q) := by
  unfold StdLP.value
  rw [hs.sum fun j => P.c j * d j]
  have e := (D.hom d).1 hy
  simp only [D.red, add_mul, Finset.sum_add_distrib]
  have e3 : ∑ i, P.c (B i) * d (B i) = ∑ q, (∑ i, t.alpha i q * P.c (B i)) * d (N q) := by
    simp only [Finset.sum_mul]
    rw [Finset.sum_comm]
    refine Finset.sum_congr rfl fun i _ => ?_
    rw [e i, Finset.mul_sum]
    refine Finset.sum_congr rfl fun q _ => ?_
    ring
  rw [e3]
  ring

/-! ### Points given by their values on the two parts -/

theorem IsSplit.exists_point {B : Fin m → Fin n} {N : Fin k → Fin n} (h : IsSplit B N) (u : Fin m → K)
    (v : Fin k → K) : ∃ y : Fin n → K, (∀ i, y (B i) = u i) ∧ ∀ q, y (N q) = v q := by
  let e := Equiv.ofBijective _ h
  refine ⟨fun j => Sum.elim u v (e.symm j), fun i => ?_, fun q => ?_⟩
  · have : e (Sum.inl i) = B i := rfl
    simp [← this]
  · have : e (Sum.inr q) = N q := rfl
    simp [← this]

theorem IsSplit.cases {B : Fin m → Fin n} {N : Fin k → Fin n} (h : IsSplit B N) (j : Fin n) :
    (∃ i, B i = j) ∨ ∃ q, N q = j := by
  obtain ⟨s, hs⟩ := h.2 j
  rcases s with i | q
  · exact Or.inl ⟨i, hs⟩
  · exact Or.inr ⟨q, hs⟩

theorem IsSplit.inj {B : Fin m → Fin n} {N : Fin k → Fin n} (h : IsSplit B N) {i j : Fin m}
    (e : B i = B j) : i = j := by
  have := h.1 (a₁ := Sum.inl i) (a₂ := Sum.inl j) e
  simpa using this

theorem IsSplit.disj {B : Fin m → Fin n} {N : Fin k → Fin n} (h : IsSplit B N) (i : Fin m) (q : Fin k) :
    B i ≠ N q := by
  intro e
  have := h.1 (a₁ := Sum.inl i) (a₂ := Sum.inr q) e
  simp at this

theorem basicSolution_foldl (B : Fin m → Fin n) (hB : Function.Injective B) (beta : Fin m → K) (l : List (Fin m))
    (y : Fin n → K) (hl : l.Nodup) :
    (∀ i ∈ l, (l.foldl (fun y i => Function.update y (B i) (beta i)) y) (B i) = beta i) ∧
      ∀ j, (∀ i ∈ l, B i ≠ j) → (l.foldl (fun y i => Function.update y (B i) (beta i)) y) j = y j := by
  induction l generalizing y with
  | nil => simp
  | cons a l ih =>
    obtain ⟨h1, h2⟩ := ih (Function.update y (B a) (beta a)) (List.nodup_cons.1 hl).2
    refine ⟨fun i hi => ?_, fun j hj => ?_⟩
    · rcases List.mem_cons.1 hi with rfl | hi
      · rw [List.foldl_cons, h2]
        · simp
        · intro i' hi' e
          rw [hB e] at hi'
          exact (List.nodup_cons.1 hl).1 hi'
      · exact h1 i hi
    · rw [List.foldl_cons, h2 j fun i hi => hj i (List.mem_cons_of_mem _ hi)]
      rw [Function.update_of_ne]
      exact fun e => hj a List.mem_cons_self e.symm

theorem basicSolution_basic {B : Fin m → Fin n} {N : Fin k → Fin n} (h : IsSplit B N) (beta : Fin m → K)
    (i : Fin m) : basicSolution B beta (B i) = beta i :=
  (basicSolution_foldl B (fun _ _ e => h.inj e) beta _ _ (List.nodup_finRange m)).1 i
    (List.mem_finRange i)

theorem basicSolution_other {B : Fin m → Fin n} {N : Fin k → Fin n} (h : IsSplit B N) (beta : Fin m → K)
    (q : Fin k) : basicSolution B beta (N q) = 0 :=
  (basicSolution_foldl B (fun _ _ e => h.inj e) beta _ _ (List.nodup_finRange m)).2 (N q)
    fun i _ => h.disj i q

theorem basicSolution_eqs {P : StdLP K m n} {B : Fin m → Fin n} {N : Fin k → Fin n} {t : Tableau K m k}
    (hs : IsSplit B N) (D : Dictionary P B N t) (i : Fin m) :
    ∑ j, P.A i j * basicSolution B t.beta j = P.b i := by
  refine (D.eqs _).2 (fun i => ?_) i
  simp [basicSolution_basic hs, basicSolution_other hs]

theorem basicSolution_value {P : StdLP K m n} {B : Fin m → Fin n} {N : Fin k → Fin n} {t : Tableau K m k}
    (hs : IsSplit B N) (D : Dictionary P B N t) :
    P.value (basicSolution B t.beta) = ∑ i, P.c (B i) * t.beta i := by
  rw [D.value hs (basicSolution_eqs hs D)]
  simp [basicSolution_other hs]

/-- The values of a basis are those of the solution that vanishes outside it. -/
theorem beta_unique {P : StdLP K m n} {B : Fin m → Fin n} {N : Fin k → Fin n} {t : Tableau K m k}
    (D : Dictionary P B N t) {y : Fin n → K} (hy : ∀ i, ∑ j, P.A i j * y j = P.b i)
    (h0 : ∀ q, y (N q) = 0) (i : Fin m) : t.beta i = y (B i) := by
  have := (D.eqs y).1 hy i
  simp [h0] at this
  exact this.symm

/-! ### One exchange -/

theorem exchange_det {P : StdLP K m n} {B : Fin m → Fin n} {N : Fin k → Fin n} {t : Tableau K m k}
    (h : P.tableau B N = ok t) (p : Fin m) (q : Fin k) :
    (P.A.submatrix id (Function.update B p (N q))).det = -(P.A.submatrix id B).det * t.alpha p q := by
  have hd := tableau_det h
  have ht : t.alpha = -(((P.A.submatrix id B).det⁻¹ • (P.A.submatrix id B).adjugate)
      * P.A.submatrix id N) := by
    unfold StdLP.tableau at h
    simp only [hd, if_false] at h
    injection h with h
    rw [← h]
  have e1 : P.A.submatrix id (Function.update B p (N q))
      = (P.A.submatrix id B).updateCol p (fun i => P.A i (N q)) := by
    ext i j
    by_cases hj : j = p
    · subst hj
      simp
    · simp [hj]
  rw [e1, ← Matrix.cramer_apply, Matrix.cramer_eq_adjugate_mulVec, ht]
  have e2 : (((P.A.submatrix id B).adjugate).mulVec fun i => P.A i (N q)) p
      = ((P.A.submatrix id B).adjugate * P.A.submatrix id N) p q := rfl
  rw [e2, Matrix.neg_apply, Matrix.smul_mul, Matrix.smul_apply, smul_eq_mul]
  field_simp

/-- The direction of an edge: the column `N q` grows by one. -/
theorem Dictionary.edge {P : StdLP K m n} {B : Fin m → Fin n} {N : Fin k → Fin n} {t : Tableau K m k}
    (hs : IsSplit B N) (D : Dictionary P B N t) (q : Fin k) :
    ∃ d : Fin n → K, (∀ i, ∑ j, P.A i j * d j = 0) ∧ (∀ i, d (B i) = t.alpha i q) ∧ d (N q) = 1 ∧
      (∀ q', q' ≠ q → d (N q') = 0) ∧ P.value d = t.r q := by
  obtain ⟨d, h1, h2⟩ := hs.exists_point (fun i => t.alpha i q) (fun q' => if q' = q then (1 : K) else 0)
  have h3 : ∀ i, ∑ j, P.A i j * d j = 0 := by
    refine (D.hom d).2 fun i => ?_
    simp [h1, h2]
  refine ⟨d, h3, h1, by simp [h2], fun q' hq' => by simp [h2, hq'], ?_⟩
  rw [D.slope hs h3]
  simp [h2]

theorem eqs_add {P : StdLP K m n} {y d : Fin n → K} (hy : ∀ i, ∑ j, P.A i j * y j = P.b i)
    (hd : ∀ i, ∑ j, P.A i j * d j = 0) (s : K) (i : Fin m) :
    ∑ j, P.A i j * (y j + s * d j) = P.b i := by
  have : ∑ j, P.A i j * (y j + s * d j) = ∑ j, P.A i j * y j + s * ∑ j, P.A i j * d j := by
    rw [Finset.mul_sum, ← Finset.sum_add_distrib]
    refine Finset.sum_congr rfl fun j _ => ?_
    ring
  rw [this, hy, hd]
  simp

theorem value_add {P : StdLP K m n} (y d : Fin n → K) (s : K) :
    P.value (fun j => y j + s * d j) = P.value y + s * P.value d := by
  unfold StdLP.value
  rw [Finset.mul_sum, ← Finset.sum_add_distrib]
  refine Finset.sum_congr rfl fun j _ => ?_
  ring

/-- The values after an exchange. -/
theorem exchange_beta {P : StdLP K m n} {B : Fin m → Fin n} {N : Fin k → Fin n} {t t' : Tableau K m k}
    (hs : IsSplit B N) (h : P.tableau B N = ok t) (p : Fin m) (q : Fin k) (hpq : t.alpha p q ≠ 0)
    (h' : P.tableau (Function.update B p (N q)) (Function.update N q (B p)) = ok t') :
    t'.beta p = -t.beta p / t.alpha p q ∧
      (∀ i, i ≠ p → t'.beta i = t.beta i + -t.beta p / t.alpha p q * t.alpha i q) ∧
      P.value (basicSolution (Function.update B p (N q)) t'.beta)
        = P.value (basicSolution B t.beta) + -t.beta p / t.alpha p q * t.r q := by
  have D := dictionary hs h
  have hs' := hs.swap p q
  have D' := dictionary hs' h'
  obtain ⟨d, d1, d2, d3, d4, d5⟩ := D.edge hs q
  set s := -t.beta p / t.alpha p q with hsdef
  set y : Fin n → K := fun j => basicSolution B t.beta j + s * d j with hy
  have y1 := eqs_add (basicSolution_eqs hs D) d1 s
  have y2 : ∀ q', y (Function.update N q (B p) q') = 0 := by
    intro q'
    by_cases hq : q' = q
    · subst hq
      simp only [Function.update_self, hy, basicSolution_basic hs, d2]
      rw [hsdef]
      field_simp
      ring
    · simp [hy, hq, basicSolution_other hs, d4 q' hq]
  have key := beta_unique D' y1 y2
  have yB : ∀ i, y (B i) = t.beta i + s * t.alpha i q := fun i => by
    simp [hy, basicSolution_basic hs, d2]
  refine ⟨?_, fun i hi => ?_, ?_⟩
  · rw [key p]
    simp [basicSolution_other hs, d3]
  · rw [key i, Function.update_of_ne hi]
    exact yB i
  · rw [show basicSolution (Function.update B p (N q)) t'.beta = y from ?_]
    · rw [hy, value_add, d5]
    · funext j
      rcases hs'.cases j with ⟨i, rfl⟩ | ⟨q', rfl⟩
      · rw [basicSolution_basic hs']
        exact key i
      · rw [basicSolution_other hs', y2]

/-! ### The two searches -/

theorem entering_none {r : Fin k → K} {tol : K} (h : entering r tol = none) (q : Fin k) : r q ≤ tol := by
  unfold entering at h
  have := List.find?_eq_none.1 h q (List.mem_finRange q)
  simpa using this

theorem entering_some {r : Fin k → K} {tol : K} {q : Fin k} (h : entering r tol = some q) : tol < r q := by
  unfold entering at h
  simpa using List.find?_some h

theorem leaving_foldl (alpha beta : Fin m → K) (tol : K) (l : List (Fin m)) (s : Option (K × Fin m))
    (hs : ∀ v, s = some v → v.1 = -beta v.2 / alpha v.2 ∧ alpha v.2 < -tol) :
    let s' := l.foldl (leavingStep alpha beta tol) s
    (∀ v, s' = some v → v.1 = -beta v.2 / alpha v.2 ∧ alpha v.2 < -tol) ∧
      (∀ v, s = some v → ∃ v', s' = some v' ∧ v'.1 ≤ v.1) ∧
      ∀ i ∈ l, alpha i < -tol → ∃ v', s' = some v' ∧ v'.1 ≤ -beta i / alpha i := by
  induction l generalizing s with
  | nil =>
    refine ⟨hs, fun v hv => ⟨v, hv, le_refl _⟩, fun i hi => ?_⟩
    simp at hi
  | cons a l ih =>
    intro s'
    by_cases ha : -tol ≤ alpha a
    · have e : s' = l.foldl (leavingStep alpha beta tol) s := by
        simp only [s', List.foldl_cons, leavingStep, ha, if_true]
      obtain ⟨i1, i2, i3⟩ := ih s hs
      rw [e]
      refine ⟨i1, i2, fun i hi hlt => ?_⟩
      rcases List.mem_cons.1 hi with rfl | hi
      · exact absurd ha (not_le.2 hlt)
      · exact i3 i hi hlt
    · have ha' : alpha a < -tol := not_le.1 ha
      cases s with
      | none =>
        have e : s' = l.foldl (leavingStep alpha beta tol) (some (-beta a / alpha a, a)) := by
          simp only [s', List.foldl_cons, leavingStep, ha, if_false]
        obtain ⟨i1, i2, i3⟩ := ih (some (-beta a / alpha a, a)) (by
          intro v hv
          injection hv with hv
          subst hv
          exact ⟨rfl, ha'⟩)
        rw [e]
        refine ⟨i1, (fun v hv => nomatch hv), fun i hi hlt => ?_⟩
        rcases List.mem_cons.1 hi with rfl | hi
        · exact i2 _ rfl
        · exact i3 i hi hlt
      | some w =>
        obtain ⟨least, j⟩ := w
        by_cases hr : -beta a / alpha a < least
        · have e : s' = l.foldl (leavingStep alpha beta tol) (some (-beta a / alpha a, a)) := by
            simp only [s', List.foldl_cons, leavingStep, ha, if_false, hr, if_true]
          obtain ⟨i1, i2, i3⟩ := ih (some (-beta a / alpha a, a)) (by
            intro v hv
            injection hv with hv
            subst hv
            exact ⟨rfl, ha'⟩)
          rw [e]
          refine ⟨i1, fun v hv => ?_, fun i hi hlt => ?_⟩
          · obtain ⟨v', e', l'⟩ := i2 _ rfl
            injection hv with hv
            subst hv
            exact ⟨v', e', l'.trans hr.le⟩
          · rcases List.mem_cons.1 hi with rfl | hi
            · exact i2 _ rfl
            · exact i3 i hi hlt
        · have e : s' = l.foldl (leavingStep alpha beta tol) (some (least, j)) := by
            simp only [s', List.foldl_cons, leavingStep, ha, if_false, hr]
          obtain ⟨i1, i2, i3⟩ := ih (some (least, j)) hs
          rw [e]
          refine ⟨i1, i2, fun i hi hlt => ?_⟩
          rcases List.mem_cons.1 hi with rfl | hi
          · obtain ⟨v', e', l'⟩ := i2 _ rfl
            exact ⟨v', e', l'.trans (not_lt.1 hr)⟩
          · exact i3 i hi hlt

theorem leaving_some {alpha beta : Fin m → K} {tol : K} {p : Fin m}
    (h : leaving alpha beta tol = some p) :
    alpha p < -tol ∧ ∀ i, alpha i < -tol → -beta p / alpha p ≤ -beta i / alpha i := by
  obtain ⟨h1, -, h3⟩ := leaving_foldl alpha beta tol (List.finRange m) none (fun _ hv => nomatch hv)
  unfold leaving at h
  rw [Option.map_eq_some_iff] at h
  obtain ⟨v, hv, rfl⟩ := h
  obtain ⟨e, hlt⟩ := h1 v hv
  refine ⟨hlt, fun i hi => ?_⟩
  obtain ⟨v', hv', hle⟩ := h3 i (List.mem_finRange i) hi
  rw [hv] at hv'
  injection hv' with hv'
  rw [← e, hv']
  exact hle

theorem leaving_none {alpha beta : Fin m → K} {tol : K} (h : leaving alpha beta tol = none) (i : Fin m) :
    -tol ≤ alpha i := by
  obtain ⟨-, -, h3⟩ := leaving_foldl alpha beta tol (List.finRange m) none (fun _ hv => nomatch hv)
  unfold leaving at h
  rw [Option.map_eq_none_iff] at h
  by_contra hlt
  obtain ⟨v', hv', -⟩ := h3 i (List.mem_finRange i) (not_le.1 hlt)
  rw [h] at hv'
  exact nomatch hv'

/-! ### The loop -/

/-- What holds of the basis with which the loop ends. -/
def SimplexExit.Ends (P : StdLP K m n) (tol : K) (B : Fin m → Fin n) (N : Fin k → Fin n) (t : Tableau K m k) :
    SimplexExit K m n k → Prop
  | .success B' N' beta => B' = B ∧ N' = N ∧ beta = t.beta ∧ entering t.r tol = none
  | .unbounded => ∃ q, entering t.r tol = some q ∧ leaving (fun i => t.alpha i q) t.beta tol = none
  | .maxIt => True

theorem simplexLoop_inv (P : StdLP K m n) (tol : K) (h0 : 0 ≤ tol)
    (Inv : (Fin m → Fin n) → (Fin k → Fin n) → Tableau K m k → Prop)
    (step : ∀ B N t t' q p, IsSplit B N → P.tableau B N = ok t → Inv B N t →
      entering t.r tol = some q → leaving (fun i => t.alpha i q) t.beta tol = some p →
      P.tableau (Function.update B p (N q)) (Function.update N q (B p)) = ok t' →
      Inv (Function.update B p (N q)) (Function.update N q (B p)) t')
    (fuel : Nat) (B : Fin m → Fin n) (N : Fin k → Fin n) (t : Tableau K m k) (hs : IsSplit B N)
    (ht : P.tableau B N = ok t) (hi : Inv B N t) :
    ∃ e, P.simplexLoop tol fuel B N = ok e ∧
      ∃ B' N' t', IsSplit B' N' ∧ P.tableau B' N' = ok t' ∧ Inv B' N' t' ∧ e.Ends P tol B' N' t' := by
  induction fuel generalizing B N t with
  | zero =>
    unfold StdLP.simplexLoop
    rw [ht]
    cases he : entering t.r tol with
    | none => exact ⟨.success B N t.beta, by simp [ok_bind, he], B, N, t, hs, ht, hi, rfl, rfl, rfl, he⟩
    | some q => exact ⟨.maxIt, by simp [ok_bind, he], B, N, t, hs, ht, hi, trivial⟩
  | succ fuel ih =>
    unfold StdLP.simplexLoop
    rw [ht]
    cases he : entering t.r tol with
    | none => exact ⟨.success B N t.beta, by simp [ok_bind, he], B, N, t, hs, ht, hi, rfl, rfl, rfl, he⟩
    | some q =>
      cases hl : leaving (fun i => t.alpha i q) t.beta tol with
      | none => exact ⟨.unbounded, by simp [ok_bind, he, hl], B, N, t, hs, ht, hi, q, he, hl⟩
      | some p =>
        have hp := leaving_some hl
        have hne : t.alpha p q ≠ 0 := by
          have := hp.1
          intro e
          rw [e] at this
          linarith
        obtain ⟨t', ht'⟩ := tableau_ok P (B := Function.update B p (N q)) (Function.update N q (B p)) (by
          rw [exchange_det ht p q]
          exact mul_ne_zero (neg_ne_zero.2 (tableau_det ht)) hne)
        obtain ⟨e, h1, h2⟩ := ih _ _ t' (hs.swap p q) ht' (step B N t t' q p hs ht hi he hl ht')
        refine ⟨e, ?_, h2⟩
        simp [ok_bind, he, hl]
        exact h1

end

end Verif
