import Verif.ConcatModel
import Verif.ConcatSpec
import Mathlib.Tactic.Ring
import Mathlib.Tactic.Linarith
import Mathlib.Data.List.Perm.Subperm
import Mathlib.Algebra.Order.BigOperators.Group.List
import Mathlib.Algebra.BigOperators.Group.List.Basic

/-
Invariant of the loop of `MakeConcatenation`, degrees along a chain.
-/
namespace Verif

open Res

theorem ChainFrom.snoc {segments : List (Int × Int)} {s e f : Int} {l : List (Int × Nat)} {i : Nat}
    (h : ChainFrom segments s l e) {a b : Int} (hi : segments[i]? = some (a, b))
    (hab : (a = e ∧ b = f) ∨ (b = e ∧ a = f)) : ChainFrom segments s (l ++ [(e, i)]) f := by
  induction l generalizing s with
  | nil =>
    simp only [ChainFrom] at h
    subst h
    refine ⟨rfl, a, b, hi, ?_⟩
    rcases hab with ⟨h1, h2⟩ | ⟨h1, h2⟩
    · exact Or.inl ⟨h1, h2⟩
    · exact Or.inr ⟨h1, h2⟩
  | cons x l ih =>
    obtain ⟨v, j⟩ := x
    obtain ⟨h1, a', b', h2, h3⟩ := h
    refine ⟨h1, a', b', h2, ?_⟩
    rcases h3 with ⟨h3, h4⟩ | ⟨h3, h4⟩
    · exact Or.inl ⟨h3, ih h4⟩
    · exact Or.inr ⟨h3, ih h4⟩

/-- State of the loop of `MakeConcatenation`. -/
structure ConcatInv (segments : List (Int × Int)) (start : Int) (s : ConcatState) : Prop where
  clen : s.concatenation.length = segments.length
  tlen : s.taken.length = segments.length
  idx : s.segmentIndex < segments.length
  nt : s.numTaken ≤ segments.length
  nv : s.numVisited ≤ segments.length
  chain : ChainFrom segments start (s.concatenation.take s.numTaken) s.nextVertex
  nodup : ((s.concatenation.take s.numTaken).map Prod.snd).Nodup
  mem : ∀ j, j ∈ (s.concatenation.take s.numTaken).map Prod.snd ↔ s.taken[j]? = some true
  seen : ∃ c, s.segmentIndex = (c + s.numVisited) % segments.length ∧ ∀ k < s.numVisited,
    ∀ a b, segments[(c + k) % segments.length]? = some (a, b) →
      s.taken[(c + k) % segments.length]? = some true ∨ (a ≠ s.nextVertex ∧ b ≠ s.nextVertex)

theorem ConcatInv.skip {segments : List (Int × Int)} {start : Int} {s : ConcatState}
    (h : ConcatInv segments start s) (hv : s.numVisited < segments.length)
    (hg : ∀ a b, segments[s.segmentIndex]? = some (a, b) →
      s.taken[s.segmentIndex]? = some true ∨ (a ≠ s.nextVertex ∧ b ≠ s.nextVertex)) :
    ConcatInv segments start (s.skip segments.length) := by
  obtain ⟨c, hc1, hc2⟩ := h.seen
  refine ⟨h.clen, h.tlen, Nat.mod_lt _ (by omega), h.nt, hv, h.chain, h.nodup, h.mem, c, ?_, ?_⟩
  · simp only [ConcatState.skip]
    rw [hc1, Nat.mod_add_mod]
    rfl
  · intro k hk
    simp only [ConcatState.skip] at hk ⊢
    rcases Nat.lt_succ_iff_lt_or_eq.1 hk with hk | hk
    · exact hc2 k hk
    · subst hk
      rw [← hc1]
      exact hg

theorem ConcatInv.take {segments : List (Int × Int)} {start : Int} {s : ConcatState}
    (h : ConcatInv segments start s) (ht : s.numTaken < segments.length)
    (hf : s.taken[s.segmentIndex]? = some false) {a b f : Int}
    (hi : segments[s.segmentIndex]? = some (a, b))
    (hab : (a = s.nextVertex ∧ b = f) ∨ (b = s.nextVertex ∧ a = f)) :
    ∃ s', s.take segments.length f = ok s' ∧ ConcatInv segments start s' ∧
      s'.numTaken = s.numTaken + 1 ∧ s'.numVisited = 1 := by
  have h1 : s.numTaken < s.concatenation.length := by rw [h.clen]; exact ht
  have h2 : s.segmentIndex < s.taken.length := by rw [h.tlen]; exact h.idx
  have e : (s.concatenation.set s.numTaken (s.nextVertex, s.segmentIndex)).take (s.numTaken + 1) =
      s.concatenation.take s.numTaken ++ [(s.nextVertex, s.segmentIndex)] := by
    rw [List.take_add_one, List.take_set_of_le (le_refl _)]
    simp [h1]
  refine ⟨_, by simp only [ConcatState.take, vset_of_lt _ h1, vset_of_lt _ h2, ok_bind]; rfl,
    ?_, rfl, rfl⟩
  have hnot : s.segmentIndex ∉ (s.concatenation.take s.numTaken).map Prod.snd := by
    rw [h.mem, hf]; simp
  refine ⟨by simpa using h.clen, by simpa using h.tlen, Nat.mod_lt _ (by omega), ht,
    by have := h.idx; show 1 ≤ segments.length; omega, ?_, ?_, ?_, s.segmentIndex, rfl, ?_⟩
  · simp only [e]
    exact h.chain.snoc hi hab
  · simp only [e, List.map_append, List.map_cons, List.map_nil]
    exact List.nodup_append.2 ⟨h.nodup, by simp, by
      intro x hx y hy hxy
      simp only [List.mem_singleton] at hy
      subst hxy
      subst hy
      exact hnot hx⟩
  · intro j
    simp only [e, List.map_append, List.map_cons, List.map_nil, List.mem_append,
      List.mem_singleton, h.mem]
    by_cases hj : j = s.segmentIndex
    · subst hj; simp [h2]
    · simp [hj, List.getElem?_set, Ne.symm hj]
  · intro k hk
    have : k = 0 := by simp only at hk; omega
    subst this
    intro a b _
    left
    simp only [Nat.add_zero]
    rw [Nat.mod_eq_of_lt h.idx]
    simp [h2]

/-- Rounds the loop has left at most. -/
def concatRounds (n : Nat) (s : ConcatState) : Nat :=
  (n - s.numTaken) * (n + 1) + (n - s.numVisited)

theorem concatLoop_spec {segments : List (Int × Int)} {start : Int} (fuel : Nat) (s : ConcatState)
    (h : ConcatInv segments start s) (hf : concatRounds segments.length s < fuel) :
    ∃ s', concatLoop segments fuel s = ok s' ∧ ConcatInv segments start s' ∧
      ¬(s'.numVisited < segments.length ∧ s'.numTaken < segments.length) := by
  induction fuel generalizing s with
  | zero => omega
  | succ fuel ih =>
    rw [concatLoop]
    by_cases hc : s.numVisited < segments.length ∧ s.numTaken < segments.length
    · rw [if_pos hc]
      have h2 : s.segmentIndex < s.taken.length := by rw [h.tlen]; exact h.idx
      have hidx : s.segmentIndex < segments.length := h.idx
      have hskip : concatRounds segments.length (s.skip segments.length) < fuel := by
        simp only [concatRounds, ConcatState.skip] at hf ⊢
        omega
      have htake : ∀ s' : ConcatState, s'.numTaken = s.numTaken + 1 → s'.numVisited = 1 →
          concatRounds segments.length s' < fuel := by
        intro s' e1 e2
        simp only [concatRounds] at hf ⊢
        rw [e1, e2]
        obtain ⟨d, hd⟩ : ∃ d, segments.length - s.numTaken = d + 1 :=
          ⟨segments.length - s.numTaken - 1, by omega⟩
        have hd' : segments.length - (s.numTaken + 1) = d := by omega
        rw [hd] at hf
        rw [hd']
        have : (d + 1) * (segments.length + 1) = d * (segments.length + 1) +
          (segments.length + 1) := by ring
        omega
      rw [vget_of_lt h2, ok_bind]
      cases ht : s.taken[s.segmentIndex] with
      | true =>
        rw [if_pos rfl]
        refine ih _ (h.skip hc.1 ?_) hskip
        intro _ _ _
        left
        rw [List.getElem?_eq_getElem h2, ht]
      | false =>
        have ht' : s.taken[s.segmentIndex]? = some false := by
          rw [List.getElem?_eq_getElem h2, ht]
        simp only [Bool.false_eq_true, if_false]
        rw [vget_of_lt h.idx, ok_bind]
        have hi : segments[s.segmentIndex]? =
            some (segments[s.segmentIndex].1, segments[s.segmentIndex].2) :=
          List.getElem?_eq_getElem h.idx
        by_cases h3 : segments[s.segmentIndex].1 = s.nextVertex
        · rw [if_pos h3]
          obtain ⟨s', e1, e2, e3, e4⟩ := h.take hc.2 ht' hi (Or.inl ⟨h3, rfl⟩)
          rw [e1, ok_bind]
          exact ih _ e2 (htake _ e3 e4)
        · rw [if_neg h3]
          by_cases h4 : segments[s.segmentIndex].2 = s.nextVertex
          · rw [if_pos h4]
            obtain ⟨s', e1, e2, e3, e4⟩ := h.take hc.2 ht' hi (Or.inr ⟨h4, rfl⟩)
            rw [e1, ok_bind]
            exact ih _ e2 (htake _ e3 e4)
          · rw [if_neg h4]
            refine ih _ (h.skip hc.1 ?_) hskip
            intro a b hab
            rw [hi] at hab
            injection hab with hab
            injection hab with ha hb
            right
            rw [← ha, ← hb]
            exact ⟨h3, h4⟩
    · rw [if_neg hc]
      exact ⟨s, rfl, h, hc⟩

theorem le_sum_of_mem {l : List Nat} {a : Nat} (h : a ∈ l) : a ≤ l.sum := by
  induction l with
  | nil => simp at h
  | cons b l ih =>
    rw [List.sum_cons]
    rcases List.mem_cons.1 h with rfl | h
    · omega
    · have := ih h; omega

theorem ChainFrom.degree {segments : List (Int × Int)} {s e : Int} {l : List (Int × Nat)}
    (h : ChainFrom segments s l e) (x : Int) :
    degreeOn segments x (l.map Prod.snd) + (if s = x then 1 else 0) + (if e = x then 1 else 0) =
      2 * (l.map Prod.fst ++ [e]).count x := by
  induction l generalizing s with
  | nil =>
    simp only [ChainFrom] at h
    subst h
    by_cases hx : s = x <;> simp [degreeOn, List.count_cons, hx]
  | cons y l ih =>
    obtain ⟨v, i⟩ := y
    obtain ⟨rfl, a, b, h2, h3⟩ := h
    have hd : degreeOn segments x (((v, i) :: l).map Prod.snd) =
        (if a = x then 1 else 0) + (if b = x then 1 else 0) +
          degreeOn segments x (l.map Prod.snd) := by
      simp [degreeOn, endsAt, h2]
    have hc : (((v, i) :: l).map Prod.fst ++ [e]).count x =
        (if v = x then 1 else 0) + (l.map Prod.fst ++ [e]).count x := by
      simp [List.count_cons]; omega
    rw [hd, hc]
    rcases h3 with ⟨rfl, h4⟩ | ⟨rfl, h4⟩
    · have := ih h4
      omega
    · have := ih h4
      omega

theorem ChainFrom.visited {segments : List (Int × Int)} {s e : Int} {l : List (Int × Nat)}
    (h : ChainFrom segments s l e) {x : Int} {j : Nat} (hj : j ∈ l.map Prod.snd)
    (hx : 0 < endsAt segments x j) : 0 < (l.map Prod.fst ++ [e]).count x := by
  have hd := h.degree x
  have : endsAt segments x j ≤ degreeOn segments x (l.map Prod.snd) :=
    le_sum_of_mem (List.mem_map_of_mem hj)
  omega

theorem degree_rest {segments : List (Int × Int)} {js : List Nat} (hn : js.Nodup)
    (hs : ∀ j ∈ js, j < segments.length) (x : Int) :
    degreeOn segments x js ≤ degreeOn segments x (List.range segments.length) ∧
    ∀ j < segments.length, j ∉ js → 0 < endsAt segments x j →
      degreeOn segments x js < degreeOn segments x (List.range segments.length) := by
  have hp : (List.range segments.length).Perm
      (js ++ (List.range segments.length).filter (fun j => j ∉ js)) := by
    refine (List.perm_ext_iff_of_nodup List.nodup_range ?_).2 ?_
    · refine List.nodup_append.2 ⟨hn, List.nodup_range.filter _, ?_⟩
      intro a ha b hb hab
      subst hab
      have := (List.mem_filter.1 hb).2
      simp [ha] at this
    · intro a
      simp only [List.mem_range, List.mem_append, List.mem_filter, decide_eq_true_eq]
      constructor
      · intro h
        by_cases h' : a ∈ js
        · exact Or.inl h'
        · exact Or.inr ⟨h, h'⟩
      · rintro (h | h)
        · exact hs a h
        · exact h.1
  have hsum : degreeOn segments x (List.range segments.length) = degreeOn segments x js +
      degreeOn segments x ((List.range segments.length).filter (fun j => j ∉ js)) := by
    simp only [degreeOn]
    rw [(hp.map _).sum_eq, List.map_append, List.sum_append]
  refine ⟨by omega, ?_⟩
  intro j hj hjs hx
  have : endsAt segments x j ≤
      degreeOn segments x ((List.range segments.length).filter (fun j => j ∉ js)) :=
    le_sum_of_mem (List.mem_map_of_mem
      (List.mem_filter.2 ⟨List.mem_range.2 hj, by simpa using hjs⟩))
  omega

theorem ChainFrom.valid {segments : List (Int × Int)} {s e : Int} {l : List (Int × Nat)}
    (h : ChainFrom segments s l e) : ∀ j ∈ l.map Prod.snd, j < segments.length := by
  induction l generalizing s with
  | nil => simp
  | cons y l ih =>
    obtain ⟨v, i⟩ := y
    obtain ⟨rfl, a, b, h2, h3⟩ := h
    intro j hj
    simp only [List.map_cons, List.mem_cons] at hj
    rcases hj with rfl | hj
    · exact (List.getElem?_eq_some_iff.1 h2).1
    · rcases h3 with ⟨_, h4⟩ | ⟨_, h4⟩
      · exact ih h4 j hj
      · exact ih h4 j hj

end Verif
