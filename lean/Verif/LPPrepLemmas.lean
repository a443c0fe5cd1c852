import Verif.LPLemmas2
import Verif.SplitLemmas

/-
The result of the preparation of a linear program.
-/
namespace Verif

open Res

variable {K : Type} [Field K] [LinearOrder K] [IsStrictOrderedRing K]

namespace LPInput

/-- The sign of a variable, its lower bound and its upper bound after the first part of the loop. -/
def norm (p : LPInput K) (i : Nat) : K × Option K × Option K :=
  match p.UB i, p.LB i with
  | some u, none => if u ≤ 0 then (-1, some (-u), none) else (1, none, some u)
  | some u, some l => (1, some l, some (u - l))
  | none, l => (1, l, none)

def sgn (p : LPInput K) (i : Nat) : K := (p.norm i).1
def low (p : LPInput K) (i : Nat) : Option K := (p.norm i).2.1
def upp (p : LPInput K) (i : Nat) : Option K := (p.norm i).2.2
def lowv (p : LPInput K) (i : Nat) : K := (p.low i).getD 0

def nUp (p : LPInput K) : Nat → Nat
  | 0 => 0
  | k + 1 => p.nUp k + if (p.upp k).isSome then 1 else 0
def nNeg (p : LPInput K) : Nat → Nat
  | 0 => 0
  | k + 1 => p.nNeg k + if p.low k = none then 1 else 0
def nRow (p : LPInput K) : Nat → Nat
  | 0 => 0
  | k + 1 => p.nRow k + if p.types k = .eq then 0 else 1

/-- The state after `k` variables. -/
def stateB (p : LPInput K) (k : Nat) : LPBounds K where
  cost := fun c => if c < k then p.sgn c * p.cost c else p.cost c
  A := fun r c => if c < k then p.sgn c * p.A r c else p.A r c
  b := fun r => p.b r - ∑ i ∈ Finset.range k, p.sgn i * p.A r i * p.lowv i
  LB := fun c => if c < k then p.low c else p.LB c
  UB := fun c => if c < k then p.upp c else p.UB c
  traslCost := ∑ i ∈ Finset.range k, p.sgn i * p.cost i * p.lowv i
  traslSol := fun c => if c < k then p.lowv c else 0
  signSol := fun c => if c < k then p.sgn c else 1
  nFinal := p.n + p.nNeg k + p.nUp k
  mFinal := p.m + p.nUp k

theorem lt_succ_ite {α : Type} (f : Nat → α) (g : Nat → α) (k : Nat) (v : α) (hv : v = f k) :
    Function.update (fun c => if c < k then f c else g c) k v = fun c => if c < k + 1 then f c else g c := by
  funext c
  by_cases h : c = k
  · subst h
    simp [hv]
  · rw [Function.update_of_ne h]
    have : c < k + 1 ↔ c < k := by omega
    simp [this]

theorem keep_ite {α : Type} (f : Nat → α) (g : Nat → α) (k : Nat) (hv : f k = g k) :
    (fun c => if c < k then f c else g c) = fun c => if c < k + 1 then f c else g c := by
  funext c
  by_cases h : c = k
  · subst h
    simp [hv]
  · have : c < k + 1 ↔ c < k := by omega
    simp [this]

theorem bound_stateB (p : LPInput K) (k : Nat) : (p.stateB k).bound k = p.stateB (k + 1) := by
  have hb : ∀ v r, p.sgn k * p.A r k * p.lowv k = v →
      p.b r - ∑ i ∈ Finset.range k, p.sgn i * p.A r i * p.lowv i - v
        = p.b r - ∑ i ∈ Finset.range (k + 1), p.sgn i * p.A r i * p.lowv i := by
    intro v r hv
    rw [Finset.sum_range_succ, hv]
    ring
  have hA : ∀ v : Nat → K, (∀ r, v r = p.sgn k * p.A r k) → ∀ r c, (if c = k then v r
      else if c < k then p.sgn c * p.A r c else p.A r c)
        = if c < k + 1 then p.sgn c * p.A r c else p.A r c := by
    intro v hv r c
    by_cases h : c = k
    · subst h
      simp [hv]
    · have : c < k + 1 ↔ c < k := by omega
      simp [h, this]
  have hA1 : p.sgn k = 1 → (fun r c => if c < k then p.sgn c * p.A r c else p.A r c)
        = fun r c => if c < k + 1 then p.sgn c * p.A r c else p.A r c := by
    intro h
    funext r c
    exact congrFun (keep_ite (fun c => p.sgn c * p.A r c) (p.A r) k (by simp [h])) c
  rcases hU : p.UB k with _ | u
  · rcases hL : p.LB k with _ | l
    · have n1 : p.norm k = (1, none, none) := by simp [norm, hU, hL]
      have s1 : p.sgn k = 1 := by simp [sgn, n1]
      have s2 : p.low k = none := by simp [low, n1]
      have s3 : p.upp k = none := by simp [upp, n1]
      have s4 : p.lowv k = 0 := by simp [lowv, s2]
      have e : (p.stateB k).bound k = { p.stateB k with nFinal := (p.stateB k).nFinal + 1 } := by
        simp [LPBounds.bound, LPBounds.flip, LPBounds.shift, stateB, hU, hL]
      rw [e]
      simp only [stateB, LPBounds.mk.injEq]
      refine ⟨keep_ite _ _ _ (by simp [s1]), hA1 s1, ?_, keep_ite _ _ _ (by simp [s2, hL]),
        keep_ite _ _ _ (by simp [s3, hU]), ?_, keep_ite _ _ _ s4, keep_ite _ _ _ s1, ?_, ?_⟩
      · funext r
        rw [← hb 0 r (by simp [s4])]
        ring
      · rw [Finset.sum_range_succ, s4]
        ring
      · simp [nNeg, nUp, s2, s3]
        omega
      · simp [nUp, s3]
    · have n1 : p.norm k = (1, some l, none) := by simp [norm, hU, hL]
      have s1 : p.sgn k = 1 := by simp [sgn, n1]
      have s2 : p.low k = some l := by simp [low, n1]
      have s3 : p.upp k = none := by simp [upp, n1]
      have s4 : p.lowv k = l := by simp [lowv, s2]
      have e : (p.stateB k).bound k =
          { p.stateB k with
            traslSol := Function.update (p.stateB k).traslSol k l
            traslCost := (p.stateB k).traslCost + p.cost k * l
            b := fun r => (p.stateB k).b r - p.A r k * l
            UB := Function.update (p.stateB k).UB k none } := by
        simp [LPBounds.bound, LPBounds.flip, LPBounds.shift, stateB, hU, hL]
      rw [e]
      simp only [stateB, LPBounds.mk.injEq]
      refine ⟨keep_ite _ _ _ (by simp [s1]), hA1 s1, ?_, keep_ite _ _ _ (by simp [s2, hL]),
        lt_succ_ite _ _ _ _ (by simp [s3]), ?_, lt_succ_ite _ _ _ _ s4.symm, keep_ite _ _ _ s1, ?_, ?_⟩
      · funext r
        exact hb _ r (by simp [s1, s4])
      · rw [Finset.sum_range_succ, s4, s1]
        ring
      · simp [nNeg, nUp, s2, s3]
      · simp [nUp, s3]
  · rcases hL : p.LB k with _ | l
    · by_cases hu : u ≤ 0
      · have n1 : p.norm k = (-1, some (-u), none) := by simp [norm, hU, hL, hu]
        have s1 : p.sgn k = -1 := by simp [sgn, n1]
        have s2 : p.low k = some (-u) := by simp [low, n1]
        have s3 : p.upp k = none := by simp [upp, n1]
        have s4 : p.lowv k = -u := by simp [lowv, s2]
        have e : (p.stateB k).bound k =
            { p.stateB k with
              signSol := Function.update (p.stateB k).signSol k (-1)
              A := fun r c => if c = k then -(p.A r k) else (p.stateB k).A r c
              cost := Function.update (p.stateB k).cost k (-p.cost k)
              LB := Function.update (p.stateB k).LB k (some (-u))
              traslSol := Function.update (p.stateB k).traslSol k (-u)
              traslCost := (p.stateB k).traslCost + -p.cost k * -u
              b := fun r => (p.stateB k).b r - -p.A r k * -u
              UB := Function.update (p.stateB k).UB k none } := by
          simp only [LPBounds.bound, LPBounds.flip, LPBounds.shift, stateB, hU, hL, hu, if_true,
            lt_irrefl, if_false, Function.update_self]
          simp only [Function.update_self, Option.map_none, Option.isSome_none, Bool.false_eq_true,
            if_false, if_true, LPBounds.mk.injEq, true_and, and_true, Function.update_idem]
          funext r c
          by_cases h : c = k
          · subst h
            simp
          · simp [h]
        rw [e]
        simp only [stateB, LPBounds.mk.injEq]
        refine ⟨lt_succ_ite _ _ _ _ (by simp [s1]), ?_, ?_, lt_succ_ite _ _ _ _ (by simp [s2]),
          lt_succ_ite _ _ _ _ (by simp [s3]), ?_, lt_succ_ite _ _ _ _ s4.symm,
          lt_succ_ite _ _ _ _ s1.symm, ?_, ?_⟩
        · funext r c
          exact hA (fun r => -p.A r k) (fun r => by simp [s1]) r c
        · funext r
          exact hb _ r (by simp [s1, s4])
        · rw [Finset.sum_range_succ, s4, s1]
          ring
        · simp [nNeg, nUp, s2, s3]
        · simp [nUp, s3]
      · have n1 : p.norm k = (1, none, some u) := by simp [norm, hU, hL, hu]
        have s1 : p.sgn k = 1 := by simp [sgn, n1]
        have s2 : p.low k = none := by simp [low, n1]
        have s3 : p.upp k = some u := by simp [upp, n1]
        have s4 : p.lowv k = 0 := by simp [lowv, s2]
        have e : (p.stateB k).bound k = { p.stateB k with
            nFinal := (p.stateB k).nFinal + 1 + 1
            mFinal := (p.stateB k).mFinal + 1 } := by
          simp [LPBounds.bound, LPBounds.flip, LPBounds.shift, stateB, hU, hL, hu]
        rw [e]
        simp only [stateB, LPBounds.mk.injEq]
        refine ⟨keep_ite _ _ _ (by simp [s1]), hA1 s1, ?_, keep_ite _ _ _ (by simp [s2, hL]),
          keep_ite _ _ _ (by simp [s3, hU]), ?_, keep_ite _ _ _ s4, keep_ite _ _ _ s1, ?_, ?_⟩
        · funext r
          rw [← hb 0 r (by simp [s4])]
          ring
        · rw [Finset.sum_range_succ, s4]
          ring
        · simp [nNeg, nUp, s2, s3]
          omega
        · simp [nUp, s3]
          omega
    · have n1 : p.norm k = (1, some l, some (u - l)) := by simp [norm, hU, hL]
      have s1 : p.sgn k = 1 := by simp [sgn, n1]
      have s2 : p.low k = some l := by simp [low, n1]
      have s3 : p.upp k = some (u - l) := by simp [upp, n1]
      have s4 : p.lowv k = l := by simp [lowv, s2]
      have e : (p.stateB k).bound k =
          { p.stateB k with
            traslSol := Function.update (p.stateB k).traslSol k l
            traslCost := (p.stateB k).traslCost + p.cost k * l
            b := fun r => (p.stateB k).b r - p.A r k * l
            UB := Function.update (p.stateB k).UB k (some (u - l))
            nFinal := (p.stateB k).nFinal + 1
            mFinal := (p.stateB k).mFinal + 1 } := by
        simp [LPBounds.bound, LPBounds.flip, LPBounds.shift, stateB, hU, hL]
      rw [e]
      simp only [stateB, LPBounds.mk.injEq]
      refine ⟨keep_ite _ _ _ (by simp [s1]), hA1 s1, ?_, keep_ite _ _ _ (by simp [s2, hL]),
        lt_succ_ite _ _ _ _ (by simp [s3]), ?_, lt_succ_ite _ _ _ _ s4.symm, keep_ite _ _ _ s1, ?_, ?_⟩
      · funext r
        exact hb _ r (by simp [s1, s4])
      · rw [Finset.sum_range_succ, s4, s1]
        ring
      · simp [nNeg, nUp, s2, s3]
        omega
      · simp [nUp, s3]
        omega

theorem foldl_bound (p : LPInput K) (k : Nat) :
    (List.range k).foldl LPBounds.bound (p.stateB 0) = p.stateB k := by
  induction k with
  | zero => rfl
  | succ k ih => rw [List.range_succ, List.foldl_append, ih]; exact p.bound_stateB k

/-- The sign of a constraint. -/
def rsgn (p : LPInput K) (r : Nat) : K := if p.types r = .ge then -1 else 1

/-- The state after `k` constraints. -/
def stateR (p : LPInput K) (k : Nat) : LPBounds K :=
  { p.stateB p.n with
    A := fun r c => if r < k then p.rsgn r * (p.stateB p.n).A r c else (p.stateB p.n).A r c
    b := fun r => if r < k then p.rsgn r * (p.stateB p.n).b r else (p.stateB p.n).b r
    nFinal := (p.stateB p.n).nFinal + p.nRow k }

theorem row_stateR (p : LPInput K) (k : Nat) : (p.stateR k).row p.types k = p.stateR (k + 1) := by
  have keep : p.rsgn k = 1 → (p.stateR (k + 1)).A = (p.stateR k).A ∧ (p.stateR (k + 1)).b = (p.stateR k).b := by
    intro h
    constructor
    · funext r c
      exact (congrFun (keep_ite (fun r => p.rsgn r * (p.stateB p.n).A r c) (fun r => (p.stateB p.n).A r c) k
        (by simp [h])) r).symm
    · funext r
      exact (congrFun (keep_ite (fun r => p.rsgn r * (p.stateB p.n).b r) (fun r => (p.stateB p.n).b r) k
        (by simp [h])) r).symm
  unfold LPBounds.row
  rcases ht : p.types k with _ | _ | _
  · have h : p.rsgn k = -1 := by simp [rsgn, ht]
    simp only [stateR, LPBounds.mk.injEq, true_and, and_true]
    refine ⟨?_, ?_, ?_⟩
    · funext r c
      by_cases hr : r = k
      · subst hr
        simp [h]
      · have : r < k + 1 ↔ r < k := by omega
        simp [hr, this]
    · exact lt_succ_ite _ _ _ _ (by simp [h])
    · simp [nRow, ht]
      omega
  · have h : p.rsgn k = 1 := by simp [rsgn, ht]
    obtain ⟨k1, k2⟩ := keep h
    simp only [stateR, LPBounds.mk.injEq, true_and, and_true]
    exact ⟨k1.symm, k2.symm, by simp [nRow, ht]⟩
  · have h : p.rsgn k = 1 := by simp [rsgn, ht]
    obtain ⟨k1, k2⟩ := keep h
    simp only [stateR, LPBounds.mk.injEq, true_and, and_true]
    exact ⟨k1.symm, k2.symm, by simp [nRow, ht]; omega⟩

theorem foldl_row (p : LPInput K) (k : Nat) :
    (List.range k).foldl (LPBounds.row p.types) (p.stateB p.n) = p.stateR k := by
  induction k with
  | zero => simp [stateR, nRow]
  | succ k ih => rw [List.range_succ, List.foldl_append, ih]; exact p.row_stateR k

theorem bounds_eq (p : LPInput K) : p.bounds = p.stateR p.m := by
  rw [← p.foldl_row, ← p.foldl_bound]
  unfold bounds
  simp only [stateB, Finset.range_zero, Finset.sum_empty, sub_zero, Nat.not_lt_zero, if_false, nNeg, nUp,
    add_zero]

end LPInput

end Verif
