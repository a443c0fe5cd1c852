import Verif.CoordsSpec
import Verif.PointBoxLemmas
import Verif.IntersectLemmas
import Mathlib.Algebra.Order.Floor.Semiring

/-
Lemmas on coordinates on a segment.
-/
namespace Verif

open Res

variable {K : Type} [Field K] [LinearOrder K] [IsStrictOrderedRing K]

theorem linSpaced_length (n : Nat) (a b : K) : (linSpaced n a b).length = n := by
  unfold linSpaced
  split
  · rename_i h; simp [h]
  · simp

theorem linSpaced_get {n : Nat} (h : n ≠ 1) (a b : K) {i : Nat} (hi : i < n) :
    (linSpaced n a b)[i]? = some (a + i * ((b - a) / (n - 1))) := by
  unfold linSpaced
  rw [if_neg h, List.getElem?_map, List.getElem?_range hi]
  rfl

theorem linSpaced_equispaced {n : Nat} (h : 2 ≤ n) (a b : K) :
    Equispaced (linSpaced n a b) a b ((b - a) / (n - 1)) := by
  have hn : (n : K) - 1 ≠ 0 := by
    have : (2 : K) ≤ n := by exact_mod_cast h
    intro h0
    linarith
  refine ⟨?_, ?_, ?_⟩
  · rw [List.head?_eq_getElem?, linSpaced_get (by omega) a b (by omega)]
    simp
  · rw [List.getLast?_eq_getElem?, linSpaced_length, linSpaced_get (by omega) a b (by omega),
      Nat.cast_sub (by omega), Nat.cast_one]
    congr 1
    field_simp
    ring
  · intro i x y hx hy
    have hi : i + 1 < n := by
      have := (List.getElem?_eq_some_iff.1 hy).1
      rwa [linSpaced_length] at this
    rw [linSpaced_get (by omega) a b (by omega)] at hx
    rw [linSpaced_get (by omega) a b hi] at hy
    injection hx with hx
    injection hy with hy
    rw [← hx, ← hy]
    push_cast
    ring

theorem copyFrom_eq (l : List K) (o n s : Nat) (h : s + n + o ≤ l.length) :
    copyFrom l o (List.range' s n) = ok ((l.drop (s + o)).take n) := by
  induction n generalizing s with
  | zero => simp [copyFrom]
  | succ n ih =>
    rw [List.range'_succ]
    unfold copyFrom
    rw [vget_of_some (List.getElem?_eq_getElem (by omega)), ok_bind, ih (s + 1) (by omega), ok_bind]
    rw [List.drop_eq_getElem_cons (by omega : s + o < l.length), List.take_succ_cons]
    rw [show s + 1 + o = s + o + 1 by omega]

/-- The result of the function that takes the number of coordinates. -/
theorem equispace_eq {size : Nat} (h0 : size ≠ 0) {ins : Bool} (h1 : ¬ (size = 1 ∧ ins = true)) (a b : K) :
    ∃ l, equispaceCoordinates size a b ins = ok l ∧ l.length = size ∧
      withExtremes ins a b l = linSpaced (if ins then size else size + 2) a b := by
  unfold equispaceCoordinates
  rw [if_neg h0, if_neg (by simpa using h1)]
  cases ins with
  | true =>
    simp only [if_true, linSpaced_length]
    refine ⟨linSpaced size a b, ?_, linSpaced_length _ _ _, rfl⟩
    rw [List.range_eq_range', copyFrom_eq _ _ _ _ (by rw [linSpaced_length]; omega)]
    simp only [List.drop_zero, Nat.zero_add]
    rw [List.take_of_length_le (by rw [linSpaced_length])]
  | false =>
    simp only [linSpaced_length, Bool.false_eq_true, if_false]
    refine ⟨_, (by rw [List.range_eq_range', copyFrom_eq _ _ _ _ (by rw [linSpaced_length]; omega)]), ?_, ?_⟩
    · simp [linSpaced_length]
    · unfold withExtremes
      simp only [Bool.false_eq_true, if_false]
      obtain ⟨e1, e2, -⟩ := linSpaced_equispaced (n := size + 2) (by omega) a b
      have hl := linSpaced_length (size + 2) a b
      set l := linSpaced (size + 2) a b with hle
      obtain ⟨x, l', hx⟩ := List.exists_cons_of_length_eq_add_one hl
      rw [hx] at e1 hl ⊢
      simp only [List.head?_cons, Option.some.injEq] at e1
      subst e1
      simp only [List.length_cons, Nat.add_right_cancel_iff] at hl
      have hne : l' ≠ [] := by
        intro h
        rw [h] at hl
        simp at hl
      rw [hx, List.getLast?_cons_of_ne_nil hne, List.getLast?_eq_getLast_of_ne_nil hne] at e2
      simp only [Option.some.injEq] at e2
      have h3 : (List.drop (0 + 1) (x :: l')).take (size + 2 - 2) = l'.dropLast := by
        simp [List.dropLast_eq_take, hl]
      rw [h3, List.cons_append, ← e2, List.dropLast_append_getLast]

theorem castUnsigned_ok [FloorSemiring K] {x : K} (h0 : 0 ≤ x) (h1 : x < 2 ^ 32) :
    castUnsigned x = ok ⌊x⌋₊ := by
  unfold castUnsigned
  rw [if_pos ⟨by linarith, h1⟩]


theorem middle_first {x y d : K} {l : List K} (hd : 0 ≤ d) (h : Apart d (x :: y :: l)) :
    Apart (d / 2) (x :: 1 / 2 * (x + y) :: y :: l) := by
  unfold Apart at h ⊢
  rw [List.pairwise_cons] at h
  obtain ⟨h1, h2⟩ := h
  rw [List.pairwise_cons] at h2
  obtain ⟨h2, h3⟩ := h2
  have hxy := h1 y (by simp)
  have hd2 : d / 2 ≤ d := by linarith
  refine List.Pairwise.cons ?_ (List.Pairwise.cons ?_ (List.Pairwise.cons ?_ ?_))
  · intro z hz
    rcases List.mem_cons.1 hz with rfl | hz
    · linarith
    · linarith [h1 z hz]
  · intro z hz
    rcases List.mem_cons.1 hz with rfl | hz
    · linarith
    · linarith [h2 z hz]
  · intro z hz
    linarith [h2 z hz]
  · exact h3.imp fun h => by linarith

theorem Apart.mono {d e : K} {l : List K} (h : Apart d l) (he : e ≤ d) : Apart e l :=
  h.imp fun h => by linarith

/-- Sorted numbers without repetition, divided by the number that exceeds all of them. -/
theorem apart_map {l : List Nat} (h : l.Pairwise (· < ·)) {m : Nat} (hm : 0 < m) :
    Apart (1 / (m : K)) (l.map fun r : Nat => (r : K) / m) := by
  unfold Apart
  rw [List.pairwise_map]
  refine h.imp fun {a b} hab => ?_
  have hm' : (0 : K) < m := by exact_mod_cast hm
  rw [← add_div]
  refine div_le_div_of_nonneg_right ?_ hm'.le
  exact_mod_cast hab

theorem insertionSort_strict {l : List Nat} (h : l.Nodup) : (l.insertionSort (· ≤ ·)).Pairwise (· < ·) := by
  have h1 : (l.insertionSort (· ≤ ·)).Pairwise (· ≤ ·) := List.pairwise_insertionSort _ l
  have h2 : (l.insertionSort (· ≤ ·)).Nodup := (List.perm_insertionSort _ l).nodup_iff.2 h
  exact (h1.and h2).imp fun ⟨a, b⟩ => lt_of_le_of_ne a b

theorem filter_zero_length {l : List Nat} (h : l.Nodup) :
    l.length ≤ (l.filter fun r => !(r == 0)).length + 1 := by
  have h1 := List.length_eq_length_filter_add (l := l) fun r => r == 0
  have h2 : (l.filter fun r => r == 0).length ≤ 1 := by
    rw [← List.countP_eq_length_filter]
    exact List.nodup_iff_count_le_one.1 h 0
  omega

/-- The random numbers that the function draws. -/
theorem sample_spec (shuffle : List Nat → List Nat) (hs : ∀ l, (shuffle l).Perm l) (m n : Nat) (hn : n ≤ m) :
    ((if n = 0 then [] else (shuffle (List.range m)).take n).insertionSort (· ≤ ·)).Pairwise (· < ·) ∧
      ((if n = 0 then [] else (shuffle (List.range m)).take n).insertionSort (· ≤ ·)).length = n ∧
      ∀ r ∈ (if n = 0 then [] else (shuffle (List.range m)).take n).insertionSort (· ≤ ·), r < m := by
  have hp := hs (List.range m)
  have hnd : (if n = 0 then [] else (shuffle (List.range m)).take n).Nodup := by
    split
    · exact List.nodup_nil
    · exact (hp.nodup_iff.2 List.nodup_range).sublist (List.take_sublist _ _)
  refine ⟨insertionSort_strict hnd, ?_, ?_⟩
  · rw [List.length_insertionSort]
    split
    · rename_i h; simp [h]
    · rw [List.length_take, hp.length_eq, List.length_range]
      omega
  · intro r hr
    have hr := (List.perm_insertionSort _ _).mem_iff.1 hr
    split at hr
    · simp at hr
    · have := hp.mem_iff.1 (List.mem_of_mem_take hr)
      simpa using this

theorem floor_facts [FloorSemiring K] {d : K} (hd : 0 < d) (h1 : 0 < ⌊1 / d⌋₊) :
    d ≤ 1 / (⌊1 / d⌋₊ : K) := by
  have h2 : (0 : K) < ⌊1 / d⌋₊ := by exact_mod_cast h1
  have h3 := Nat.floor_le (a := 1 / d) (by positivity)
  rw [le_div_iff₀ h2]
  calc d * (⌊1 / d⌋₊ : K) ≤ d * (1 / d) := mul_le_mul_of_nonneg_left h3 hd.le
    _ = 1 := by field_simp

end Verif
