import Verif.ConformPointsSpec
import Verif.CutEndsLemmas

/-
Lemmas for the points of the conformed mesh of a segment.
-/
namespace Verif

open Res

variable {K : Type} [Field K] [LinearOrder K] [IsStrictOrderedRing K]

theorem insertConform_far {g : GeoCfg K} (h0 : 0 ≤ g.minTolerance) {c : K} {m : List (K × ConformPoint)}
    (h : ∀ q ∈ m, g.tol1D < |q.1 - c|) : insertConform g c m = (kmapInsert c {} m, c) := by
  have : m.find? (fun p => !g.isValuePositive |p.1 - c| g.tol1D) = none := by
    rw [List.find?_eq_none]
    intro q hq hn
    rw [g.near_iff h0] at hn
    exact absurd hn (not_le.2 (h q hq))
  unfold insertConform
  rw [this]
  simp

theorem kmapModify_end {β : Type} {k : K} {b : β} {f : β → β} {m : List (K × β)} (h : ∀ p ∈ m, p.1 < k) :
    kmapModify k (fun x => ok (f x)) (m ++ [(k, b)]) = ok (m ++ [(k, f b)]) := by
  induction m with
  | nil => simp [kmapModify, ok_bind]
  | cons a m ih =>
    have ha := h a (by simp)
    rw [List.cons_append, kmapModify, if_neg ha.ne, ih fun p hp => h p (by simp [hp])]
    rfl

theorem type_ne_iff (position : Nat) (u : UPoint) : u.type ≠ (if position = 0 then UnionType.second else .first) ↔ OwnPoint position u := by
  unfold OwnPoint
  by_cases h : position = 0 <;> simp [h]

/-- One point behind all others. -/
theorem conformStep_eq {g : GeoCfg K} (h0 : 0 ≤ g.minTolerance) {position : Nat} {pts : List (K × CutPoint)} {segs : List (CutSegment K)}
    {m : List (K × ConformPoint)} {j : Nat} {u : K × UPoint} (hu : ∀ p ∈ m, p.1 + g.tol1D < u.1) :
    (OwnPoint position u.2 → ∀ p, pts[j]? = some p →
      conformStep g (if position = 0 then .second else .first) pts segs (m, j) u =
        ok (m ++ [(u.1, ⟨p.2.cells2, p.2.cells1, p.2.cells0, .original⟩)], j + 1)) ∧
    (¬ OwnPoint position u.2 → ∀ i s, j = i + 1 → segs[i]? = some s →
      conformStep g (if position = 0 then .second else .first) pts segs (m, j) u =
        ok (m ++ [(u.1, ⟨s.cells2, s.cells1, [], .inherited⟩)], j)) ∧
    (¬ OwnPoint position u.2 → j = 0 → conformStep g (if position = 0 then .second else .first) pts segs (m, j) u = abort) := by
  have hT0 : 0 ≤ g.tol1D := le_trans h0 (le_max_left _ _)
  have low : ∀ p ∈ m, p.1 < u.1 := fun p hp => by linarith [hu p hp]
  have e : insertConform g u.1 m = (m ++ [(u.1, ({} : ConformPoint))], u.1) := by
    rw [insertConform_far h0 (by
      intro q hq
      rw [abs_sub_comm]
      exact lt_of_lt_of_le (by linarith [hu q hq]) (le_abs_self _)), kmapInsert_last low]
  unfold conformStep
  simp only [e, type_ne_iff]
  refine ⟨?_, ?_, ?_⟩
  · intro ho p hp
    rw [if_pos ho]
    simp only [vget, hp, ok_bind]
    rw [kmapModify_end (f := fun x => { x with type := .original, cells0 := p.2.cells0, cells1 := p.2.cells1, cells2 := p.2.cells2 }) low]
    rfl
  · intro ho i s hj hs
    have hi := (List.getElem?_eq_some_iff.1 hs).1
    rw [if_neg ho, assert_true (by omega), ok_bind]
    subst hj
    simp only [Nat.add_sub_cancel, vget, hs, ok_bind]
    rw [kmapModify_end (f := fun x => { x with type := .inherited, cells1 := s.cells1, cells2 := s.cells2 }) low]
    rfl
  · intro ho hj
    rw [if_neg ho, assert_false (by omega)]
    rfl

theorem ownBefore_le {position : Nat} {union : List (K × UPoint)} {i k : Nat} (h : i ≤ k) :
    ownBefore position union i ≤ ownBefore position union k := by
  unfold ownBefore
  refine (List.Sublist.filter _ ?_).length_le
  have : union.take i = (union.take k).take i := by rw [List.take_take, Nat.min_eq_left h]
  rw [this]
  exact List.take_sublist _ _

theorem ownBefore_succ {position : Nat} {union : List (K × UPoint)} {i : Nat} {u : K × UPoint} (h : union[i]? = some u) :
    ownBefore position union (i + 1) = ownBefore position union i + (if OwnPoint position u.2 then 1 else 0) := by
  unfold ownBefore
  rw [List.take_add_one, h, List.filter_append, List.length_append]
  by_cases ho : OwnPoint position u.2 <;> simp [ho]

/-- The loop after `n` points. -/
theorem conform_loop {g : GeoCfg K} (h0 : 0 ≤ g.minTolerance) {position : Nat} {pts : List (K × CutPoint)} {segs : List (CutSegment K)}
    {union : List (K × UPoint)} (hU : UnionOf g.tol1D position pts.length union) (hsegs : segs.length + 1 = pts.length) (n : Nat)
    (hn : n ≤ union.length) : ∃ m, foldRes (conformStep g (if position = 0 then .second else .first) pts segs) ([], 0) (union.take n) =
      ok (m, ownBefore position union n) ∧ m.map Prod.fst = (union.take n).map Prod.fst ∧
      (∀ (i : Nat) u c, union[i]? = some u → m[i]? = some c → OwnPoint position u.2 →
        ∃ p, pts[ownBefore position union i]? = some p ∧ c.2 = ⟨p.2.cells2, p.2.cells1, p.2.cells0, .original⟩) ∧
      ∀ (i : Nat) u c, union[i]? = some u → m[i]? = some c → ¬ OwnPoint position u.2 →
        ∃ j s, ownBefore position union i = j + 1 ∧ segs[j]? = some s ∧ c.2 = ⟨s.cells2, s.cells1, [], .inherited⟩ := by
  induction n with
  | zero => exact ⟨[], by simp [foldRes, ownBefore], by simp, by simp, by simp⟩
  | succ n ih =>
    obtain ⟨m, e, hk, h1, h2⟩ := ih (by omega)
    have hlt : n < union.length := by omega
    have hu : union[n]? = some union[n] := List.getElem?_eq_getElem hlt
    generalize union[n] = u at hu
    have hlen : m.length = n := by
      have := congrArg List.length hk
      simpa [Nat.min_eq_left (show n ≤ union.length by omega)] using this
    have far : ∀ p ∈ m, p.1 + g.tol1D < u.1 := by
      intro p hp
      have hm : p.1 ∈ (union.take n).map Prod.fst := by rw [← hk]; exact List.mem_map_of_mem hp
      have hs : union.take (n + 1) = union.take n ++ [u] := by rw [List.take_add_one, hu]; rfl
      have ha := hU.apart
      unfold Separated at ha
      have ha2 : ((union.take (n + 1)).map Prod.fst).Pairwise fun x y => x + g.tol1D < y :=
        ha.sublist ((List.take_sublist _ _).map _)
      rw [hs, List.map_append, List.pairwise_append] at ha2
      exact ha2.2.2 _ hm u.1 (by simp)
    obtain ⟨so, si, _⟩ := conformStep_eq h0 (position := position) (pts := pts) (segs := segs) (j := ownBefore position union n) far
    have hsucc := ownBefore_succ (position := position) hu
    have split : ∀ (i : Nat) (x : K × ConformPoint) c, (m ++ [x])[i]? = some c → m[i]? = some c ∨ (i = n ∧ c = x) := by
      intro i x c hc
      rcases Nat.lt_or_ge i m.length with hi | hi
      · rw [List.getElem?_append_left hi] at hc; exact Or.inl hc
      · rw [List.getElem?_append_right hi] at hc
        obtain ⟨hz, hc⟩ := List.getElem?_eq_some_iff.1 hc
        simp only [List.length_singleton] at hz
        refine Or.inr ⟨by omega, ?_⟩
        simpa using hc.symm
    rw [List.take_add_one, hu, Option.toList_some, foldRes_append, e, ok_bind]
    have one : ∀ r, conformStep g (if position = 0 then .second else .first) pts segs (m, ownBefore position union n) u = ok r →
        foldRes (conformStep g (if position = 0 then .second else .first) pts segs) (m, ownBefore position union n) [u] = ok r := by
      intro r hr
      simp only [foldRes, hr, ok_bind]
    by_cases ho : OwnPoint position u.2
    · rw [if_pos ho] at hsucc
      have hj : ownBefore position union n < pts.length := by
        have := ownBefore_le (position := position) (union := union) (show n + 1 ≤ union.length by omega)
        rw [hU.number] at this
        omega
      have hp : pts[ownBefore position union n]? = some pts[ownBefore position union n] := List.getElem?_eq_getElem hj
      refine ⟨_, by rw [one _ (so ho _ hp), hsucc], by simp [hk], ?_, ?_⟩
      · intro i v c hv hc hov
        rcases split i _ c hc with hc | ⟨rfl, rfl⟩
        · exact h1 i v c hv hc hov
        · exact ⟨_, hp, rfl⟩
      · intro i v c hv hc hov
        rcases split i _ c hc with hc | ⟨rfl, rfl⟩
        · exact h2 i v c hv hc hov
        · rw [hu] at hv
          rw [← Option.some.inj hv] at hov
          exact absurd ho hov
    · rw [if_neg ho] at hsucc
      replace hsucc : ownBefore position union (n + 1) = ownBefore position union n := hsucc
      -- own points before and behind
      have hn0 : n ≠ 0 := by
        rintro rfl
        refine ho (hU.first u ?_)
        rw [List.head?_eq_getElem?]; exact hu
      have hpos : 0 < ownBefore position union n := by
        have h0' : union[0]? = some (union[0]'(by omega)) := List.getElem?_eq_getElem _
        have hf := hU.first _ (by rw [List.head?_eq_getElem?]; exact h0')
        have := ownBefore_succ (position := position) h0'
        rw [if_pos hf] at this
        have := ownBefore_le (position := position) (union := union) (show 0 + 1 ≤ n by omega)
        omega
      have hle : ownBefore position union n + 1 ≤ pts.length := by
        have hl : union[union.length - 1]? = some (union[union.length - 1]'(by omega)) := List.getElem?_eq_getElem _
        have hlo := hU.last _ (by rw [List.getLast?_eq_getElem?]; exact hl)
        have hne : n ≠ union.length - 1 := by
          rintro rfl
          rw [hu] at hl
          rw [← Option.some.inj hl] at hlo
          exact ho hlo
        have a1 := ownBefore_succ (position := position) hl
        rw [if_pos hlo, Nat.sub_add_cancel (by omega), hU.number] at a1
        have := ownBefore_le (position := position) (union := union) (show n ≤ union.length - 1 by omega)
        omega
      obtain ⟨j, hj⟩ : ∃ j, ownBefore position union n = j + 1 := ⟨ownBefore position union n - 1, by omega⟩
      obtain ⟨s, hs⟩ : ∃ s, segs[j]? = some s := ⟨_, List.getElem?_eq_getElem (show j < segs.length by omega)⟩
      refine ⟨m ++ [(u.1, ⟨s.cells2, s.cells1, [], .inherited⟩)], by rw [one _ (si ho j s hj hs), hsucc], by simp [hk], ?_, ?_⟩
      · intro i v c hv hc hov
        rcases split i _ c hc with hc | ⟨rfl, rfl⟩
        · exact h1 i v c hv hc hov
        · rw [hu] at hv
          rw [← Option.some.inj hv] at hov
          exact absurd hov ho
      · intro i v c hv hc hov
        rcases split i _ c hc with hc | ⟨rfl, rfl⟩
        · exact h2 i v c hv hc hov
        · exact ⟨j, _, hj, hs, rfl⟩

end Verif
