import Verif.ConcatLemmas

/-
C35, C52: `MakeConcatenation` returns maximal chains and closed loops.
-/
namespace Verif

open Res

/-- C35: for all segments and start vertices the call ends within `(n + 1) ^ 2 + 1` rounds and
returns a chain that starts at the given vertex, uses no segment twice and cannot be extended: no
unused segment touches the vertex at which it ends. -/
theorem c35_maximal_chain (segments : List (Int × Int)) (start : Int) (fuel : Nat)
    (hf : (segments.length + 1) * (segments.length + 1) < fuel) :
    ∃ l e, makeConcatenation fuel segments start = ok l ∧ ChainFrom segments start l e ∧
      (l.map Prod.snd).Nodup ∧
      ∀ j a b, segments[j]? = some (a, b) → j ∉ l.map Prod.snd → a ≠ e ∧ b ≠ e := by
  by_cases hn : segments.length = 0
  · refine ⟨[], start, by simp [makeConcatenation, hn], rfl, by simp, ?_⟩
    intro j a b hj
    have := (List.getElem?_eq_some_iff.1 hj).1
    omega
  · have hn0 : 0 < segments.length := Nat.pos_of_ne_zero hn
    have hinv : ConcatInv segments start ⟨List.replicate segments.length (0, 0),
        List.replicate segments.length false, 0, start, 0, 0⟩ := by
      refine ⟨by simp, by simp, hn0, Nat.zero_le _, Nat.zero_le _, by simp [ChainFrom], by simp,
        ?_, 0, by simp, by intro k hk; simp at hk⟩
      intro j
      simp [List.getElem?_replicate]
    obtain ⟨s, h1, h2, h3⟩ := concatLoop_spec fuel _ hinv (by
      simp only [concatRounds, Nat.sub_zero]
      have : segments.length * (segments.length + 1) + segments.length ≤
        (segments.length + 1) * (segments.length + 1) := by nlinarith
      omega)
    refine ⟨s.concatenation.take s.numTaken, s.nextVertex, ?_, h2.chain, h2.nodup, ?_⟩
    · simp only [makeConcatenation, hn, if_false, h1, ok_bind]
      by_cases h0 : s.numTaken = 0
      · rw [if_pos h0, h0, List.take_zero]
      · rw [if_neg h0]
    · intro j a b hj hmem
      have hjlt : j < segments.length := (List.getElem?_eq_some_iff.1 hj).1
      rw [h2.mem] at hmem
      by_cases hv : s.numVisited < segments.length
      · -- all segments are taken
        exfalso
        have hnt : s.numTaken = segments.length := by
          have := h2.nt
          by_contra h
          exact h3 ⟨hv, by omega⟩
        have hlen : ((s.concatenation.take s.numTaken).map Prod.snd).length = segments.length := by
          simp [h2.clen, hnt]
        have hsub : (s.concatenation.take s.numTaken).map Prod.snd ⊆
            List.range segments.length := by
          intro x hx
          rw [h2.mem] at hx
          have := (List.getElem?_eq_some_iff.1 hx).1
          rw [h2.tlen] at this
          exact List.mem_range.2 this
        have hp := (h2.nodup.subperm hsub).perm_of_length_le (by
          rw [hlen, List.length_range])
        have := hp.mem_iff.2 (List.mem_range.2 hjlt)
        rw [h2.mem] at this
        exact hmem this
      · have hveq : s.numVisited = segments.length := by have := h2.nv; omega
        obtain ⟨c, _, hc⟩ := h2.seen
        have hk : (c + (j + segments.length - c % segments.length) % segments.length) %
            segments.length = j := by
          have hcl := Nat.mod_lt c hn0
          rw [Nat.add_mod_mod, ← Nat.mod_add_mod]
          rw [show c % segments.length + (j + segments.length - c % segments.length) =
            j + segments.length by omega, Nat.add_mod_right, Nat.mod_eq_of_lt hjlt]
        have := hc ((j + segments.length - c % segments.length) % segments.length)
          (by rw [hveq]; exact Nat.mod_lt _ hn0) a b
        rw [hk] at this
        rcases this hj with h | h
        · exact absurd h hmem
        · exact h

/-- A closed loop given in arbitrary order and direction, and a segment apart. -/
example : makeConcatenation 50 [(3, 1), (1, 2), (7, 8), (2, 3)] 1 =
    ok [(1, 0), (3, 3), (2, 1)] := by decide

example : ∃ l e, makeConcatenation 50 [(3, 1), (1, 2), (7, 8), (2, 3)] 1 = ok l ∧
    ChainFrom [(3, 1), (1, 2), (7, 8), (2, 3)] 1 l e ∧ (l.map Prod.snd).Nodup ∧
    ∀ (j : Nat) (a b : Int), ([(3, 1), (1, 2), (7, 8), (2, 3)] : List (Int × Int))[j]? =
      some (a, b) → j ∉ l.map Prod.snd → a ≠ e ∧ b ≠ e :=
  c35_maximal_chain _ _ _ (by decide)

/-- C52: if the segments, in any order and direction, form one closed loop through the start vertex,
the result goes once around the loop: it ends where it started and uses every segment exactly
once. -/
theorem c52_closed_loop (segments : List (Int × Int)) (start : Int) (fuel : Nat)
    (hf : (segments.length + 1) * (segments.length + 1) < fuel)
    (hd : LoopDegrees segments) (hc : Connected segments)
    (hs : ∃ j < segments.length, 0 < endsAt segments start j) :
    ∃ l, makeConcatenation fuel segments start = ok l ∧ ChainFrom segments start l start ∧
      (l.map Prod.snd).Perm (List.range segments.length) := by
  obtain ⟨l, e, h1, h2, h3, h4⟩ := c35_maximal_chain segments start fuel hf
  have hv := h2.valid
  have hmax : ∀ j < segments.length, j ∉ l.map Prod.snd → endsAt segments e j = 0 := by
    intro j hj hjl
    have hg := List.getElem?_eq_getElem hj
    have := h4 j segments[j].1 segments[j].2 hg hjl
    simp [endsAt, hg, this.1, this.2]
  have heq : degreeOn segments e (l.map Prod.snd) =
      degreeOn segments e (List.range segments.length) := by
    refine le_antisymm (degree_rest h3 hv e).1 ?_
    by_contra hlt
    -- the used segments and the others together
    have hle : degreeOn segments e (List.range segments.length) ≤
        degreeOn segments e (l.map Prod.snd) := by
      have hp : ∀ js : List Nat, js.Nodup → (∀ j ∈ js, j < segments.length) →
          degreeOn segments e js ≤ degreeOn segments e (l.map Prod.snd) := by
        intro js hn hjs
        have e1 : degreeOn segments e js =
            degreeOn segments e (js.filter fun j => j ∈ l.map Prod.snd) := by
          clear hn
          induction js with
          | nil => rfl
          | cons j js ih =>
            have ih' := ih fun k hk => hjs k (List.mem_cons_of_mem _ hk)
            simp only [degreeOn] at ih' ⊢
            rw [List.filter_cons]
            by_cases hj : j ∈ l.map Prod.snd
            · simp [hj, ih']
            · have := hmax j (hjs j List.mem_cons_self) hj
              simp [hj, ih', this]
        rw [e1]
        have hsp : (js.filter fun j => j ∈ l.map Prod.snd).Subperm (l.map Prod.snd) :=
          List.Nodup.subperm (hn.filter _) (by intro k hk; simpa using (List.mem_filter.1 hk).2)
        obtain ⟨m, hm1, hm2⟩ := hsp
        rw [degreeOn, ← (hm1.map _).sum_eq, degreeOn]
        exact (hm2.map _).sum_le_sum (by simp)
      exact hp _ List.nodup_range (by simp)
    omega
  have hdeg := h2.degree
  have hse : start = e := by
    by_contra hne
    have h := hdeg e
    simp only [hne, if_false, if_true] at h
    rcases hd e with h0 | h0 <;> omega
  subst hse
  have hvis : ∀ x, 0 < (l.map Prod.fst ++ [start]).count x →
      degreeOn segments x (l.map Prod.snd) = degreeOn segments x (List.range segments.length) := by
    intro x hx
    by_cases hxs : start = x
    · subst hxs; exact heq
    · have h := hdeg x
      simp only [hxs, if_false] at h
      have hle := (degree_rest h3 hv x).1
      rcases hd x with h0 | h0 <;> omega
  have hclosed : ∀ x, 0 < (l.map Prod.fst ++ [start]).count x → ∀ j < segments.length,
      0 < endsAt segments x j → j ∈ l.map Prod.snd := by
    intro x hx j hj he
    by_contra hjl
    have := (degree_rest h3 hv x).2 j hj hjl he
    rw [hvis x hx] at this
    omega
  refine ⟨l, h1, h2, (List.perm_ext_iff_of_nodup h3 List.nodup_range).2 ?_⟩
  intro j
  rw [List.mem_range]
  refine ⟨hv j, ?_⟩
  refine hc (fun j => j ∈ l.map Prod.snd) ?_ ?_ j
  · obtain ⟨j, hj, hsj⟩ := hs
    exact ⟨j, hj, hclosed start (by simp) j hj hsj⟩
  · intro i j x hi hj hS hxi hxj
    exact hclosed x (h2.visited hS hxi) j hj hxj

/-- A triangle given in arbitrary order and direction. -/
example : ∃ l, makeConcatenation 17 [(3, 1), (1, 2), (3, 2)] 2 = ok l ∧
    ChainFrom [(3, 1), (1, 2), (3, 2)] 2 l 2 ∧ (l.map Prod.snd).Perm [0, 1, 2] := by
  refine c52_closed_loop [(3, 1), (1, 2), (3, 2)] 2 17 (by decide) ?_ ?_ ⟨1, by decide, by decide⟩
  · intro x
    by_cases h1 : (1 : Int) = x
    · subst h1; decide
    by_cases h2 : (2 : Int) = x
    · subst h2; decide
    by_cases h3 : (3 : Int) = x
    · subst h3; decide
    left
    simp [degreeOn, endsAt, List.range_succ, h1, h2, h3]
  · intro S ⟨i, hi, hSi⟩ hcl j hj
    have h01 : S 0 → S 1 := fun h => hcl 0 1 1 (by decide) (by decide) h (by decide) (by decide)
    have h12 : S 1 → S 2 := fun h => hcl 1 2 2 (by decide) (by decide) h (by decide) (by decide)
    have h20 : S 2 → S 0 := fun h => hcl 2 0 3 (by decide) (by decide) h (by decide) (by decide)
    simp only [List.length_cons, List.length_nil] at hi hj
    have all : S 0 ∧ S 1 ∧ S 2 := by
      rcases (show i = 0 ∨ i = 1 ∨ i = 2 by omega) with rfl | rfl | rfl
      · exact ⟨hSi, h01 hSi, h12 (h01 hSi)⟩
      · exact ⟨h20 (h12 hSi), hSi, h12 hSi⟩
      · exact ⟨h20 hSi, h01 (h20 hSi), hSi⟩
    rcases (show j = 0 ∨ j = 1 ∨ j = 2 by omega) with rfl | rfl | rfl
    · exact all.1
    · exact all.2.1
    · exact all.2.2

end Verif
