import Verif.LPPrepLemmas

/-
The equality form that the preparation of a linear program builds.
-/
namespace Verif

open Res

variable {K : Type} [Field K] [LinearOrder K] [IsStrictOrderedRing K]

namespace LPInput

variable (p : LPInput K)

def upCol (i : Nat) : Nat := p.n + p.nUp i + p.nNeg i
def negCol (i : Nat) : Nat := p.n + p.nUp (i + 1) + p.nNeg i
def upRow (i : Nat) : Nat := p.m + p.nUp i
def rowCol (r : Nat) : Nat := p.n + p.nUp p.n + p.nNeg p.n + p.nRow r

theorem nUp_mono {a b : Nat} (h : a ≤ b) : p.nUp a ≤ p.nUp b := by
  induction b with
  | zero => rw [Nat.le_zero.1 h]
  | succ b ih =>
    rcases Nat.lt_or_ge a (b + 1) with h1 | h1
    · exact (ih (by omega)).trans (by simp [nUp])
    · rw [show a = b + 1 by omega]

theorem nNeg_mono {a b : Nat} (h : a ≤ b) : p.nNeg a ≤ p.nNeg b := by
  induction b with
  | zero => rw [Nat.le_zero.1 h]
  | succ b ih =>
    rcases Nat.lt_or_ge a (b + 1) with h1 | h1
    · exact (ih (by omega)).trans (by simp [nNeg])
    · rw [show a = b + 1 by omega]

theorem nRow_mono {a b : Nat} (h : a ≤ b) : p.nRow a ≤ p.nRow b := by
  induction b with
  | zero => rw [Nat.le_zero.1 h]
  | succ b ih =>
    rcases Nat.lt_or_ge a (b + 1) with h1 | h1
    · exact (ih (by omega)).trans (by simp [nRow])
    · rw [show a = b + 1 by omega]

theorem nUp_succ {i : Nat} (h : (p.upp i).isSome) : p.nUp (i + 1) = p.nUp i + 1 := by
  simp [nUp, h]
theorem nUp_succ' {i : Nat} (h : p.upp i = none) : p.nUp (i + 1) = p.nUp i := by
  simp [nUp, h]
theorem nNeg_succ {i : Nat} (h : p.low i = none) : p.nNeg (i + 1) = p.nNeg i + 1 := by
  simp [nNeg, h]
theorem nNeg_succ' {i : Nat} {l : K} (h : p.low i = some l) : p.nNeg (i + 1) = p.nNeg i := by
  simp [nNeg, h]
theorem nRow_succ {i : Nat} (h : p.types i ≠ .eq) : p.nRow (i + 1) = p.nRow i + 1 := by
  simp [nRow, h]
theorem nRow_succ' {i : Nat} (h : p.types i = .eq) : p.nRow (i + 1) = p.nRow i := by
  simp [nRow, h]

/-- The equality form after the upper bounds of `ku` variables, the negative parts of `kn` variables, the
map of `km` variables and the slack variables of `kr` constraints. -/
structure FInv (ku kn km kr : Nat) (f : LPFinal K) : Prop where
  addVar : f.addVar = p.n + p.nUp ku + p.nNeg kn + p.nRow kr
  addEq : f.addEq = p.m + p.nUp ku
  A_old : ∀ r c, r < p.m → c < p.n → f.A r c = p.bounds.A r c
  A_up : ∀ r c, p.m ≤ r → c < p.n → f.A r c = if c < ku ∧ (p.upp c).isSome ∧ r = p.upRow c then 1 else 0
  A_upCol : ∀ r i, i < ku → (p.upp i).isSome → f.A r (p.upCol i) = if r = p.upRow i then 1 else 0
  A_negCol : ∀ r i, i < kn → p.low i = none → f.A r (p.negCol i) = -f.A r i
  A_rowCol : ∀ r i, i < kr → p.types i ≠ .eq → f.A r (p.rowCol i) = if r = i then 1 else 0
  A_new : ∀ r c, f.addVar ≤ c → f.A r c = 0
  b_old : ∀ r, r < p.m → f.b r = p.bounds.b r
  b_up : ∀ i u, i < ku → p.upp i = some u → f.b (p.upRow i) = u
  c_old : ∀ c, c < p.n → f.cost c = p.bounds.cost c
  c_upCol : ∀ i, i < ku → (p.upp i).isSome → f.cost (p.upCol i) = 0
  c_negCol : ∀ i, i < kn → p.low i = none → f.cost (p.negCol i) = -p.bounds.cost i
  c_rowCol : ∀ i, i < kr → p.types i ≠ .eq → f.cost (p.rowCol i) = 0
  c_new : ∀ c, f.addVar ≤ c → f.cost c = 0
  m_old : ∀ r c, c < p.n → f.map r c = if c < km ∧ r = c then p.sgn c else 0
  m_upCol : ∀ r i, i < ku → (p.upp i).isSome → f.map r (p.upCol i) = 0
  m_negCol : ∀ r i, i < kn → p.low i = none → f.map r (p.negCol i) = if r = i then -p.sgn i else 0
  m_rowCol : ∀ r i, i < kr → p.types i ≠ .eq → f.map r (p.rowCol i) = 0
  m_new : ∀ r c, f.addVar ≤ c → f.map r c = 0
  perm : (f.slack ++ f.noSlack).Perm (List.range f.addVar)
  len : f.slack.length = p.nUp ku + p.nRow kr
  noSlack : ∀ c, c ∈ f.noSlack ↔ c < p.n ∨ ∃ i < kn, p.low i = none ∧ c = p.negCol i

theorem bounds_UB {i : Nat} (h : i < p.n) : p.bounds.UB i = p.upp i := by
  rw [bounds_eq]
  simp [stateR, stateB, h]
theorem bounds_LB {i : Nat} (h : i < p.n) : p.bounds.LB i = p.low i := by
  rw [bounds_eq]
  simp [stateR, stateB, h]
theorem bounds_sgn {i : Nat} (h : i < p.n) : p.bounds.signSol i = p.sgn i := by
  rw [bounds_eq]
  simp [stateR, stateB, h]
theorem bounds_nFinal : p.bounds.nFinal = p.n + p.nUp p.n + p.nNeg p.n + p.nRow p.m := by
  rw [bounds_eq]
  simp [stateR, stateB]
  omega
theorem bounds_mFinal : p.bounds.mFinal = p.m + p.nUp p.n := by
  rw [bounds_eq]
  simp [stateR, stateB]

theorem perm_left {a b : List Nat} {v : Nat} (h : (a ++ b).Perm (List.range v)) :
    ((a ++ [v]) ++ b).Perm (List.range (v + 1)) := by
  rw [List.range_succ]
  refine List.Perm.trans ?_ (h.append_right [v])
  rw [List.append_assoc, List.append_assoc]
  exact List.Perm.append_left a List.perm_append_comm

theorem perm_right {a b : List Nat} {v : Nat} (h : (a ++ b).Perm (List.range v)) :
    (a ++ (b ++ [v])).Perm (List.range (v + 1)) := by
  rw [List.range_succ, ← List.append_assoc]
  exact h.append_right [v]

theorem upper_inv {k : Nat} {f : LPFinal K} (hk : k < p.n) (h : p.FInv k k k 0 f) :
    ∃ f', LPFinal.upper p.bounds f k = ok f' ∧ p.FInv (k + 1) k k 0 f' := by
  unfold LPFinal.upper
  rw [p.bounds_UB hk]
  rcases hu : p.upp k with _ | u
  · refine ⟨f, rfl, ?_⟩
    have e : p.nUp (k + 1) = p.nUp k := p.nUp_succ' hu
    have hlt : ∀ i, i < k + 1 → (p.upp i).isSome → i < k := by
      intro i hi hs
      rcases Nat.lt_or_ge i k with h1 | h1
      · exact h1
      · rw [show i = k by omega, hu] at hs
        simp at hs
    exact
      { addVar := by rw [h.addVar, e]
        addEq := by rw [h.addEq, e]
        A_old := h.A_old
        A_up := fun r c hr hc => by
          rw [h.A_up r c hr hc]
          congr 1
          apply propext
          constructor
          · rintro ⟨a, b, c⟩
            exact ⟨by omega, b, c⟩
          · rintro ⟨a, b, c⟩
            exact ⟨hlt _ a b, b, c⟩
        A_upCol := fun r i hi hs => h.A_upCol r i (hlt i hi hs) hs
        A_negCol := h.A_negCol
        A_rowCol := h.A_rowCol
        A_new := h.A_new
        b_old := h.b_old
        b_up := fun i u hi hs => h.b_up i u (hlt i hi (by simp [hs])) hs
        c_old := h.c_old
        c_upCol := fun i hi hs => h.c_upCol i (hlt i hi hs) hs
        c_negCol := h.c_negCol
        c_rowCol := h.c_rowCol
        c_new := h.c_new
        m_old := h.m_old
        m_upCol := fun r i hi hs => h.m_upCol r i (hlt i hi hs) hs
        m_negCol := h.m_negCol
        m_rowCol := h.m_rowCol
        m_new := h.m_new
        perm := h.perm
        len := by rw [h.len, e]
        noSlack := h.noSlack }
  · have hs : (p.upp k).isSome := by simp [hu]
    have e : p.nUp (k + 1) = p.nUp k + 1 := p.nUp_succ hs
    have hv : f.addVar = p.upCol k := by rw [h.addVar, upCol]; simp [nRow]
    have he : f.addEq = p.upRow k := by rw [h.addEq, upRow]
    have m1 := p.nUp_mono (show k + 1 ≤ p.n by omega)
    have m2 := p.nNeg_mono (show k ≤ p.n by omega)
    have c1 : f.addVar < p.bounds.nFinal ∧ f.addEq < p.bounds.mFinal := by
      rw [h.addVar, h.addEq, p.bounds_nFinal, p.bounds_mFinal]
      simp only [nRow]
      omega
    simp only [c1, and_self, if_true]
    refine ⟨_, rfl, ?_⟩
    have up_lt : ∀ i, i < k → (p.upp i).isSome → p.upCol i < f.addVar := by
      intro i hi hs
      have := p.nUp_mono (show i + 1 ≤ k by omega)
      have := p.nNeg_mono (show i ≤ k by omega)
      rw [p.nUp_succ hs] at *
      rw [hv]
      unfold upCol
      omega
    have neg_lt : ∀ i, i < k → p.low i = none → p.negCol i < f.addVar := by
      intro i hi hs
      have := p.nUp_mono (show i + 1 ≤ k by omega)
      have := p.nNeg_mono (show i + 1 ≤ k by omega)
      rw [p.nNeg_succ hs] at *
      rw [hv]
      unfold upCol negCol
      omega
    have old_lt : ∀ c, c < p.n → c < f.addVar := by
      intro c hc
      rw [hv]
      unfold upCol
      omega
    have neg_ge : ∀ i, p.n ≤ p.negCol i := fun i => by unfold negCol; omega
    have row_ge : ∀ i, p.m ≤ p.upRow i := fun i => by unfold upRow; omega
    exact
      { addVar := by simp only [h.addVar, e, nRow]; omega
        addEq := by simp only [h.addEq, e]; omega
        A_old := fun r c hr hc => by
          have : r ≠ f.addEq := by rw [he]; have := row_ge k; omega
          simp only [this, false_and, if_false]
          exact h.A_old r c hr hc
        A_up := fun r c hr hc => by
          have h1 := old_lt c hc
          have h2 : c ≠ f.addVar := by omega
          simp only [h2, or_false]
          by_cases hck : c = k
          · subst hck
            rw [h.A_up r c hr hc]
            by_cases hr' : r = p.upRow c
            · simp [he, hr', hs]
            · simp [he, hr']
          · simp only [hck, and_false, if_false]
            rw [h.A_up r c hr hc]
            congr 1
            apply propext
            constructor
            · rintro ⟨a, b, c⟩
              exact ⟨by omega, b, c⟩
            · rintro ⟨a, b, c⟩
              exact ⟨by omega, b, c⟩
        A_upCol := fun r i hi hs => by
          rcases Nat.lt_or_ge i k with h1 | h1
          · have h2 := up_lt i h1 hs
            have h3 : p.upCol i ≠ f.addVar := by omega
            have h4 : p.upCol i ≠ k := by unfold upCol; omega
            simp only [h3, h4, or_self, and_false, if_false]
            exact h.A_upCol r i h1 hs
          · have h2 : i = k := by omega
            subst h2
            simp only [hv, or_true, and_true, he]
            by_cases hr : r = p.upRow i
            · simp [hr]
            · simp only [hr, if_false]
              exact h.A_new r _ (by rw [hv])
        A_negCol := fun r i hi hs => by
          have h2 := neg_lt i hi hs
          have h3 : p.negCol i ≠ f.addVar := by omega
          have h4 : p.negCol i ≠ k := by have := neg_ge i; omega
          have h5 : i ≠ f.addVar := by have := old_lt i (by omega); omega
          have h6 : i ≠ k := by omega
          simp only [h3, h4, h5, h6, or_self, and_false, if_false]
          exact h.A_negCol r i hi hs
        A_rowCol := fun r i hi => by omega
        A_new := fun r c hc => by
          have hc' : f.addVar + 1 ≤ c := hc
          have h3 : c ≠ f.addVar := by omega
          have h4 : c ≠ k := by have := old_lt k hk; omega
          simp only [h3, h4, or_self, and_false, if_false]
          exact h.A_new r c (by omega)
        b_old := fun r hr => by
          have : r ≠ f.addEq := by rw [he]; have := row_ge k; omega
          dsimp only
          rw [Function.update_of_ne this]
          exact h.b_old r hr
        b_up := fun i u' hi hs' => by
          rcases Nat.lt_or_ge i k with h1 | h1
          · have h2 := p.nUp_mono (show i + 1 ≤ k by omega)
            rw [p.nUp_succ (by simp [hs'])] at h2
            have : p.upRow i ≠ f.addEq := by rw [he]; unfold upRow; omega
            dsimp only
            rw [Function.update_of_ne this]
            exact h.b_up i u' h1 hs'
          · have h2 : i = k := by omega
            subst h2
            dsimp only
            rw [← he, Function.update_self]
            rw [hu] at hs'
            exact Option.some.inj hs'
        c_old := h.c_old
        c_upCol := fun i hi hs => by
          rcases Nat.lt_or_ge i k with h1 | h1
          · exact h.c_upCol i h1 hs
          · have h2 : i = k := by omega
            subst h2
            exact h.c_new _ (by rw [hv])
        c_negCol := h.c_negCol
        c_rowCol := fun i hi => by omega
        c_new := fun c hc => h.c_new c (by have : f.addVar + 1 ≤ c := hc; omega)
        m_old := h.m_old
        m_upCol := fun r i hi hs => by
          rcases Nat.lt_or_ge i k with h1 | h1
          · exact h.m_upCol r i h1 hs
          · have h2 : i = k := by omega
            subst h2
            exact h.m_new _ _ (by rw [hv])
        m_negCol := h.m_negCol
        m_rowCol := fun r i hi => by omega
        m_new := fun r c hc => h.m_new r c (by have : f.addVar + 1 ≤ c := hc; omega)
        perm := perm_left h.perm
        len := by simp [h.len, e, nRow]
        noSlack := h.noSlack }

theorem negative_inv {k : Nat} {f : LPFinal K} (hk : k < p.n) (h : p.FInv (k + 1) k k 0 f) :
    ∃ f', LPFinal.negative p.bounds f k = ok f' ∧ p.FInv (k + 1) (k + 1) k 0 f' := by
  unfold LPFinal.negative
  rw [p.bounds_LB hk]
  rcases hu : p.low k with _ | l
  · have e : p.nNeg (k + 1) = p.nNeg k + 1 := p.nNeg_succ hu
    have hv : f.addVar = p.negCol k := by rw [h.addVar, negCol]; simp [nRow]
    have m1 := p.nUp_mono (show k + 1 ≤ p.n by omega)
    have m2 := p.nNeg_mono (show k + 1 ≤ p.n by omega)
    have c1 : f.addVar < p.bounds.nFinal := by
      rw [h.addVar, p.bounds_nFinal]
      simp only [nRow]
      omega
    simp only [c1, if_true]
    refine ⟨_, rfl, ?_⟩
    have up_lt : ∀ i, i < k + 1 → (p.upp i).isSome → p.upCol i < f.addVar := by
      intro i hi hs
      have := p.nUp_mono (show i + 1 ≤ k + 1 by omega)
      have := p.nNeg_mono (show i ≤ k by omega)
      have := p.nUp_succ hs
      rw [hv]
      unfold upCol negCol
      omega
    have neg_lt : ∀ i, i < k → p.low i = none → p.negCol i < f.addVar := by
      intro i hi hs
      have := p.nUp_mono (show i + 1 ≤ k + 1 by omega)
      have := p.nNeg_mono (show i + 1 ≤ k by omega)
      rw [p.nNeg_succ hs] at *
      rw [hv]
      unfold negCol
      omega
    have old_lt : ∀ c, c < p.n → c < f.addVar := by
      intro c hc
      rw [hv]
      unfold negCol
      omega
    exact
      { addVar := by simp only [h.addVar, e, nRow]; omega
        addEq := h.addEq
        A_old := fun r c hr hc => by
          have := old_lt c hc
          have : c ≠ f.addVar := by omega
          simp only [this, if_false]
          exact h.A_old r c hr hc
        A_up := fun r c hr hc => by
          have := old_lt c hc
          have : c ≠ f.addVar := by omega
          simp only [this, if_false]
          exact h.A_up r c hr hc
        A_upCol := fun r i hi hs => by
          have := up_lt i hi hs
          have : p.upCol i ≠ f.addVar := by omega
          simp only [this, if_false]
          exact h.A_upCol r i hi hs
        A_negCol := fun r i hi hs => by
          have := old_lt i (by omega)
          have hne : i ≠ f.addVar := by omega
          simp only [hne, if_false]
          rcases Nat.lt_or_ge i k with h1 | h1
          · have := neg_lt i h1 hs
            have : p.negCol i ≠ f.addVar := by omega
            simp only [this, if_false]
            exact h.A_negCol r i h1 hs
          · have h2 : i = k := by omega
            subst h2
            simp only [hv, if_true]
        A_rowCol := fun r i hi => by omega
        A_new := fun r c hc => by
          have hc' : f.addVar + 1 ≤ c := hc
          have : c ≠ f.addVar := by omega
          simp only [this, if_false]
          exact h.A_new r c (by omega)
        b_old := h.b_old
        b_up := h.b_up
        c_old := fun c hc => by
          have := old_lt c hc
          have : c ≠ f.addVar := by omega
          dsimp only
          rw [Function.update_of_ne this]
          exact h.c_old c hc
        c_upCol := fun i hi hs => by
          have := up_lt i hi hs
          have : p.upCol i ≠ f.addVar := by omega
          dsimp only
          rw [Function.update_of_ne this]
          exact h.c_upCol i hi hs
        c_negCol := fun i hi hs => by
          rcases Nat.lt_or_ge i k with h1 | h1
          · have := neg_lt i h1 hs
            have : p.negCol i ≠ f.addVar := by omega
            dsimp only
            rw [Function.update_of_ne this]
            exact h.c_negCol i h1 hs
          · have h2 : i = k := by omega
            subst h2
            dsimp only
            rw [← hv, Function.update_self]
        c_rowCol := fun i hi => by omega
        c_new := fun c hc => by
          have hc' : f.addVar + 1 ≤ c := hc
          have : c ≠ f.addVar := by omega
          dsimp only
          rw [Function.update_of_ne this]
          exact h.c_new c (by omega)
        m_old := fun r c hc => by
          have := old_lt c hc
          have : c ≠ f.addVar := by omega
          simp only [this, and_false, if_false]
          exact h.m_old r c hc
        m_upCol := fun r i hi hs => by
          have := up_lt i hi hs
          have : p.upCol i ≠ f.addVar := by omega
          simp only [this, and_false, if_false]
          exact h.m_upCol r i hi hs
        m_negCol := fun r i hi hs => by
          rcases Nat.lt_or_ge i k with h1 | h1
          · have := neg_lt i h1 hs
            have : p.negCol i ≠ f.addVar := by omega
            simp only [this, and_false, if_false]
            exact h.m_negCol r i h1 hs
          · have h2 : i = k := by omega
            subst h2
            simp only [hv, and_true, p.bounds_sgn hk]
            by_cases hr : r = i
            · simp [hr]
            · simp only [hr, if_false]
              exact h.m_new _ _ (by rw [hv])
        m_rowCol := fun r i hi => by omega
        m_new := fun r c hc => by
          have hc' : f.addVar + 1 ≤ c := hc
          have : c ≠ f.addVar := by omega
          simp only [this, and_false, if_false]
          exact h.m_new r c (by omega)
        perm := perm_right h.perm
        len := h.len
        noSlack := fun c => by
          rw [List.mem_append, h.noSlack, List.mem_singleton, hv]
          constructor
          · rintro ((h1 | ⟨i, h1, h2, h3⟩) | h1)
            · exact Or.inl h1
            · exact Or.inr ⟨i, by omega, h2, h3⟩
            · exact Or.inr ⟨k, by omega, hu, h1⟩
          · rintro (h1 | ⟨i, h1, h2, h3⟩)
            · exact Or.inl (Or.inl h1)
            · rcases Nat.lt_or_ge i k with h4 | h4
              · exact Or.inl (Or.inr ⟨i, h4, h2, h3⟩)
              · have h5 : i = k := by omega
                subst h5
                exact Or.inr h3 }
  · refine ⟨f, rfl, ?_⟩
    have e : p.nNeg (k + 1) = p.nNeg k := p.nNeg_succ' hu
    have hlt : ∀ i, i < k + 1 → p.low i = none → i < k := by
      intro i hi hs
      rcases Nat.lt_or_ge i k with h1 | h1
      · exact h1
      · rw [show i = k by omega, hu] at hs
        simp at hs
    exact
      { addVar := by rw [h.addVar, e]
        addEq := h.addEq
        A_old := h.A_old
        A_up := h.A_up
        A_upCol := h.A_upCol
        A_negCol := fun r i hi hs => h.A_negCol r i (hlt i hi hs) hs
        A_rowCol := h.A_rowCol
        A_new := h.A_new
        b_old := h.b_old
        b_up := h.b_up
        c_old := h.c_old
        c_upCol := h.c_upCol
        c_negCol := fun i hi hs => h.c_negCol i (hlt i hi hs) hs
        c_rowCol := h.c_rowCol
        c_new := h.c_new
        m_old := h.m_old
        m_upCol := h.m_upCol
        m_negCol := fun r i hi hs => h.m_negCol r i (hlt i hi hs) hs
        m_rowCol := h.m_rowCol
        m_new := h.m_new
        perm := h.perm
        len := h.len
        noSlack := fun c => by
          rw [h.noSlack]
          constructor
          · rintro (h1 | ⟨i, h1, h2, h3⟩)
            · exact Or.inl h1
            · exact Or.inr ⟨i, by omega, h2, h3⟩
          · rintro (h1 | ⟨i, h1, h2, h3⟩)
            · exact Or.inl h1
            · exact Or.inr ⟨i, hlt i h1 h2, h2, h3⟩ }

theorem variable_inv {k : Nat} {f : LPFinal K} (hk : k < p.n) (h : p.FInv k k k 0 f) :
    ∃ f', LPFinal.variable p.bounds f k = ok f' ∧ p.FInv (k + 1) (k + 1) (k + 1) 0 f' := by
  obtain ⟨f1, e1, h1⟩ := p.upper_inv hk h
  obtain ⟨f2, e2, h2⟩ := p.negative_inv hk h1
  unfold LPFinal.variable
  rw [e1]
  simp only [ok_bind]
  rw [e2]
  simp only [ok_bind]
  refine ⟨_, rfl, ?_⟩
  have up_ne : ∀ i, p.upCol i ≠ k := fun i => by unfold upCol; omega
  have neg_ne : ∀ i, p.negCol i ≠ k := fun i => by unfold negCol; omega
  exact
    { addVar := h2.addVar
      addEq := h2.addEq
      A_old := h2.A_old
      A_up := h2.A_up
      A_upCol := h2.A_upCol
      A_negCol := h2.A_negCol
      A_rowCol := h2.A_rowCol
      A_new := h2.A_new
      b_old := h2.b_old
      b_up := h2.b_up
      c_old := h2.c_old
      c_upCol := h2.c_upCol
      c_negCol := h2.c_negCol
      c_rowCol := h2.c_rowCol
      c_new := h2.c_new
      m_old := fun r c hc => by
        dsimp only
        rw [h2.m_old r c hc, p.bounds_sgn hk]
        by_cases hck : c = k
        · subst hck
          simp
        · have : c < k + 1 ↔ c < k := by omega
          simp [hck, this]
      m_upCol := fun r i hi hs => by
        simp only [up_ne, and_false, if_false]
        exact h2.m_upCol r i hi hs
      m_negCol := fun r i hi hs => by
        simp only [neg_ne, and_false, if_false]
        exact h2.m_negCol r i hi hs
      m_rowCol := fun r i hi => by omega
      m_new := fun r c hc => by
        have h3 : c ≠ k := by
          have h4 : f2.addVar ≤ c := hc
          rw [h2.addVar] at h4
          omega
        simp only [h3, and_false, if_false]
        exact h2.m_new r c hc
      perm := h2.perm
      len := h2.len
      noSlack := h2.noSlack }

theorem row_inv {k : Nat} {f : LPFinal K} (hk : k < p.m) (h : p.FInv p.n p.n p.n k f) :
    ∃ f', LPFinal.row p.types p.bounds f k = ok f' ∧ p.FInv p.n p.n p.n (k + 1) f' := by
  by_cases ht : p.types k = .eq
  · refine ⟨f, by simp [LPFinal.row, ht], ?_⟩
    have e := p.nRow_succ' ht
    have hlt : ∀ i, i < k + 1 → p.types i ≠ .eq → i < k := by
      intro i hi hs
      rcases Nat.lt_or_ge i k with h1 | h1
      · exact h1
      · rw [show i = k by omega] at hs
        exact absurd ht hs
    exact
      { addVar := by rw [h.addVar, e]
        addEq := h.addEq
        A_old := h.A_old
        A_up := h.A_up
        A_upCol := h.A_upCol
        A_negCol := h.A_negCol
        A_rowCol := fun r i hi hs => h.A_rowCol r i (hlt i hi hs) hs
        A_new := h.A_new
        b_old := h.b_old
        b_up := h.b_up
        c_old := h.c_old
        c_upCol := h.c_upCol
        c_negCol := h.c_negCol
        c_rowCol := fun i hi hs => h.c_rowCol i (hlt i hi hs) hs
        c_new := h.c_new
        m_old := h.m_old
        m_upCol := h.m_upCol
        m_negCol := h.m_negCol
        m_rowCol := fun r i hi hs => h.m_rowCol r i (hlt i hi hs) hs
        m_new := h.m_new
        perm := h.perm
        len := by rw [h.len, e]
        noSlack := h.noSlack }
  · have e := p.nRow_succ ht
    have hv : f.addVar = p.rowCol k := h.addVar
    have m1 := p.nRow_mono (show k + 1 ≤ p.m by omega)
    have c1 : f.addVar < p.bounds.nFinal := by
      rw [h.addVar, p.bounds_nFinal]
      omega
    refine ⟨{ f with
          A := fun r c => if r = k ∧ c = f.addVar then 1 else f.A r c
          slack := f.slack ++ [f.addVar]
          addVar := f.addVar + 1 }, ?_, ?_⟩
    · unfold LPFinal.row
      rcases hty : p.types k with _ | _ | _
      · simp [c1]
      · exact absurd hty ht
      · simp [c1]
    have up_lt : ∀ i, i < p.n → (p.upp i).isSome → p.upCol i < f.addVar := by
      intro i hi hs
      have := p.nUp_mono (show i + 1 ≤ p.n by omega)
      have := p.nNeg_mono (show i ≤ p.n by omega)
      have := p.nUp_succ hs
      rw [hv]
      unfold upCol rowCol
      omega
    have neg_lt : ∀ i, i < p.n → p.low i = none → p.negCol i < f.addVar := by
      intro i hi hs
      have := p.nUp_mono (show i + 1 ≤ p.n by omega)
      have := p.nNeg_mono (show i + 1 ≤ p.n by omega)
      have := p.nNeg_succ hs
      rw [hv]
      unfold negCol rowCol
      omega
    have row_lt : ∀ i, i < k → p.types i ≠ .eq → p.rowCol i < f.addVar := by
      intro i hi hs
      have := p.nRow_mono (show i + 1 ≤ k by omega)
      have := p.nRow_succ hs
      rw [hv]
      unfold rowCol
      omega
    have old_lt : ∀ c, c < p.n → c < f.addVar := by
      intro c hc
      rw [hv]
      unfold rowCol
      omega
    have keepA : ∀ r c, c < f.addVar → (if r = k ∧ c = f.addVar then (1 : K) else f.A r c) = f.A r c := by
      intro r c hc
      have : c ≠ f.addVar := by omega
      simp [this]
    exact
      { addVar := by simp only [h.addVar, e]; omega
        addEq := h.addEq
        A_old := fun r c hr hc => by
          simp only [keepA r c (old_lt c hc)]
          exact h.A_old r c hr hc
        A_up := fun r c hr hc => by
          simp only [keepA r c (old_lt c hc)]
          exact h.A_up r c hr hc
        A_upCol := fun r i hi hs => by
          simp only [keepA r _ (up_lt i hi hs)]
          exact h.A_upCol r i hi hs
        A_negCol := fun r i hi hs => by
          simp only [keepA r _ (neg_lt i hi hs), keepA r _ (old_lt i hi)]
          exact h.A_negCol r i hi hs
        A_rowCol := fun r i hi hs => by
          rcases Nat.lt_or_ge i k with h1 | h1
          · simp only [keepA r _ (row_lt i h1 hs)]
            exact h.A_rowCol r i h1 hs
          · have h2 : i = k := by omega
            subst h2
            simp only [hv, and_true]
            by_cases hr : r = i
            · simp [hr]
            · simp only [hr, if_false]
              exact h.A_new r _ (by rw [hv])
        A_new := fun r c hc => by
          have hc' : f.addVar + 1 ≤ c := hc
          have : c ≠ f.addVar := by omega
          simp only [this, and_false, if_false]
          exact h.A_new r c (by omega)
        b_old := h.b_old
        b_up := h.b_up
        c_old := h.c_old
        c_upCol := h.c_upCol
        c_negCol := h.c_negCol
        c_rowCol := fun i hi hs => by
          rcases Nat.lt_or_ge i k with h1 | h1
          · exact h.c_rowCol i h1 hs
          · have h2 : i = k := by omega
            subst h2
            exact h.c_new _ (by rw [hv])
        c_new := fun c hc => h.c_new c (by have : f.addVar + 1 ≤ c := hc; omega)
        m_old := h.m_old
        m_upCol := h.m_upCol
        m_negCol := h.m_negCol
        m_rowCol := fun r i hi hs => by
          rcases Nat.lt_or_ge i k with h1 | h1
          · exact h.m_rowCol r i h1 hs
          · have h2 : i = k := by omega
            subst h2
            exact h.m_new _ _ (by rw [hv])
        m_new := fun r c hc => h.m_new r c (by have : f.addVar + 1 ≤ c := hc; omega)
        perm := perm_left h.perm
        len := by simp [h.len, e]; omega
        noSlack := h.noSlack }

theorem final_inv : ∃ f, p.final = ok f ∧ p.FInv p.n p.n p.n p.m f := by
  have h0 : p.FInv 0 0 0 0
      { A := fun r c => if r < p.m ∧ c < p.n then p.bounds.A r c else 0
        b := fun r => if r < p.m then p.bounds.b r else 0
        cost := fun c => if c < p.n then p.bounds.cost c else 0
        map := fun _ _ => 0
        slack := []
        noSlack := List.range p.n
        addVar := p.n
        addEq := p.m } := by
    constructor <;> intros <;> first | rfl | omega | skip
    · simp [*]
    · rename_i r c hr hc
      have : ¬ r < p.m := by omega
      simp [this]
    · rename_i r c hc
      have hc' : p.n ≤ c := hc
      have : ¬ c < p.n := by omega
      simp [this]
    · simp [*]
    · simp [*]
    · rename_i c hc
      have hc' : p.n ≤ c := hc
      have : ¬ c < p.n := by omega
      simp [this]
    · simp
  have step1 : ∀ k, k ≤ p.n → ∃ f, foldRes (LPFinal.variable p.bounds)
      { A := fun r c => if r < p.m ∧ c < p.n then p.bounds.A r c else 0
        b := fun r => if r < p.m then p.bounds.b r else 0
        cost := fun c => if c < p.n then p.bounds.cost c else 0
        map := fun _ _ => 0
        slack := []
        noSlack := List.range p.n
        addVar := p.n
        addEq := p.m } (List.range k) = ok f ∧ p.FInv k k k 0 f := by
    intro k
    induction k with
    | zero => exact fun _ => ⟨_, rfl, h0⟩
    | succ k ih =>
      intro hk
      obtain ⟨f, e, h⟩ := ih (by omega)
      obtain ⟨f', e', h'⟩ := p.variable_inv (by omega) h
      refine ⟨f', ?_, h'⟩
      rw [List.range_succ, foldRes_append, e, ok_bind, foldRes_cons, e', ok_bind, foldRes_nil]
  obtain ⟨f1, e1, h1⟩ := step1 p.n (le_refl _)
  have step2 : ∀ k, k ≤ p.m → ∃ f, foldRes (LPFinal.row p.types p.bounds) f1 (List.range k) = ok f ∧
      p.FInv p.n p.n p.n k f := by
    intro k
    induction k with
    | zero => exact fun _ => ⟨_, rfl, h1⟩
    | succ k ih =>
      intro hk
      obtain ⟨f, e, h⟩ := ih (by omega)
      obtain ⟨f', e', h'⟩ := p.row_inv (by omega) h
      refine ⟨f', ?_, h'⟩
      rw [List.range_succ, foldRes_append, e, ok_bind, foldRes_cons, e', ok_bind, foldRes_nil]
  obtain ⟨f2, e2, h2⟩ := step2 p.m (le_refl _)
  refine ⟨f2, ?_, h2⟩
  unfold final
  dsimp only
  rw [e1, ok_bind, e2]

end LPInput

end Verif
