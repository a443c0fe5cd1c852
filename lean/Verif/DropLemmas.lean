import Verif.DropSpec
import Verif.NeighLemmas
import Verif.ExtractLemmas

/-
Lemmas on removing an entry and on the largest mark.
-/
namespace Verif

open Res

theorem dropEntry_moves {α : Type} (L : List α) (k n : Nat) (hn : n + 1 = L.length) (hk : k < n) : ∀ m, m ≤ n - k →
    ∃ M, foldRes (fun M i => do
        let x ← vget M (L.length - (n - k) + i)
        vset M (k + i) x) L (List.range m) = ok M ∧ M.length = L.length ∧
      ∀ j, M[j]? = if k ≤ j ∧ j < k + m then L[j + 1]? else L[j]? := by
  intro m
  induction m with
  | zero => intro _; exact ⟨L, by simp, rfl, fun j => by rw [if_neg (by omega)]⟩
  | succ m ih =>
    intro hm
    obtain ⟨M, e, hl, hj⟩ := ih (by omega)
    have h1 : L.length - (n - k) + m = k + m + 1 := by omega
    have h2 : k + m + 1 < M.length := by omega
    refine ⟨M.set (k + m) M[k + m + 1], ?_, by simp [hl], ?_⟩
    · rw [foldRes_range_succ, e, ok_bind, h1, vget_of_lt h2, ok_bind, vset_of_lt _ (by omega)]
    · intro j
      rw [List.getElem?_set]
      by_cases hjm : k + m = j
      · subst hjm
        have := hj (k + m + 1)
        rw [if_neg (by omega), List.getElem?_eq_getElem h2] at this
        rw [if_pos rfl, if_pos (by omega), if_pos (by omega), this]
      · rw [if_neg hjm, hj j]
        by_cases hc : k ≤ j ∧ j < k + m
        · rw [if_pos hc, if_pos (by omega)]
        · rw [if_neg hc, if_neg (by omega)]

theorem dropEntry_without {α : Type} (L : List α) (k : Nat) (hk : k < L.length) : ∃ M, dropEntry L k = ok M ∧ IsWithout L k M := by
  obtain ⟨n, hn⟩ : ∃ n, n + 1 = L.length := ⟨L.length - 1, by omega⟩
  have hu : usub L.length 1 = n := by rw [usub_of_le (by omega)]; omega
  by_cases h : k < n
  · obtain ⟨M, e, hl, hj⟩ := dropEntry_moves L k n hn h (n - k) (by omega)
    refine ⟨M.take n, ?_, by simp; omega, ?_, ?_⟩
    · simp only [dropEntry, hu, if_pos h]
      rw [e, ok_bind, if_pos (by omega)]
    · intro i hi hi'
      rw [List.getElem?_take_of_lt (by omega), hj, if_neg (by omega)]
    · intro i hi
      by_cases hin : i < n
      · rw [List.getElem?_take_of_lt hin, hj, if_pos (by omega)]
      · rw [List.getElem?_eq_none (by simp; omega), List.getElem?_eq_none (by omega)]
  · refine ⟨L.take n, ?_, by simp; omega, ?_, ?_⟩
    · simp only [dropEntry, hu, if_neg h, ok_bind]
      rw [if_pos (by omega)]
    · intro i hi hi'
      rw [List.getElem?_take_of_lt (by omega)]
    · intro i hi
      rw [List.getElem?_eq_none (by simp; omega), List.getElem?_eq_none (by omega)]

theorem dropEntry_beyond {α : Type} (L : List α) (k : Nat) (h0 : L ≠ []) (hk : L.length ≤ k) : dropEntry L k = ok L.dropLast := by
  have := List.length_pos_iff.2 h0
  have hu : usub L.length 1 = L.length - 1 := usub_of_le (by omega)
  simp only [dropEntry, hu]
  rw [if_neg (by omega), ok_bind, if_pos (by omega), List.dropLast_eq_take]

theorem foldl_max_spec (xs : List Int) : ∀ x : Int, (xs.foldl max x) ∈ x :: xs ∧ ∀ z ∈ x :: xs, z ≤ xs.foldl max x := by
  induction xs with
  | nil => intro x; simp
  | cons y ys ih =>
    intro x
    obtain ⟨h1, h2⟩ := ih (max x y)
    have h3 := h2 (max x y) (by simp)
    simp only [List.foldl_cons]
    refine ⟨?_, ?_⟩
    · rcases List.mem_cons.1 h1 with h | h
      · rw [h]
        rcases le_total x y with g | g
        · rw [max_eq_right g]; simp
        · rw [max_eq_left g]; simp
      · simp [h]
    · intro z hz
      rcases List.mem_cons.1 hz with rfl | hz
      · exact le_trans (le_max_left _ _) h3
      · rcases List.mem_cons.1 hz with rfl | hz
        · exact le_trans (le_max_right _ _) h3
        · exact h2 z (by simp [hz])

end Verif
