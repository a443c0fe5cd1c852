import Verif.StringLemmas

/-
Properties C23 and C24: printing and parsing, splitting of strings.
-/
namespace Verif

open Res

/-! ### C23 -/

/-- C23 for vectors of `int`: every vector that is printed is read back. -/
theorem c23_vector_int (v : List Int) (h : ∀ i ∈ v, -2147483648 ≤ i ∧ i ≤ 2147483647) :
    parseVector parseInt (showVector 0 0 showInt v) = ok v := by
  apply parseVector_show
  · intro x _
    obtain ⟨h1, h2⟩ := showInt_safe x
    refine ⟨h1, fun c hc => ?_⟩
    rcases h2 c hc with rfl | hd
    · decide
    · exact (isSpace_of_isDigit hd).2.2.2
  · intro x hx
    exact stoi_showInt (h x hx).1 (h x hx).2

/-- C23 for vectors of `unsigned int`, part that holds: values up to the largest `int`.

Missing from the full statement: larger values and sets, see the violations below. -/
theorem c23_vector_uint_partial (v : List Nat) (h : ∀ n ∈ v, n < 2147483648) :
    parseVector parseUInt (showVector 0 0 showUInt v) = ok v := by
  apply parseVector_show
  · intro x _
    obtain ⟨h1, h2⟩ := showUInt_safe x
    exact ⟨h1, fun c hc => (isSpace_of_isDigit (h2 c hc)).2.2.2⟩
  · intro x hx
    exact parseUInt_show (h x hx)

example : showVector 0 0 showInt [3, -12, 0] = "[3,-12,0]".toList ∧
    parseVector parseInt "[3,-12,0]".toList = ok [3, -12, 0] ∧
    showVector 0 0 showUInt ([] : List Nat) = "[]".toList ∧
    parseVector parseUInt "[]".toList = ok [] ∧
    parseVector parseUInt "[7,2147483647]".toList = ok [7, 2147483647] := by
  refine ⟨?_, ?_, ?_, ?_, ?_⟩ <;> decide

/-- C23 fails for large `unsigned int` values: the printed text is read with `stoi`, which throws. -/
theorem c23_large_violated : ∃ n, n < 4294967296 ∧
    parseVector parseUInt (showVector 0 0 showUInt [n]) = throw :=
  ⟨2147483648, by decide, by decide⟩

/-- C23 fails for sets, and not only for some: whatever the set, reading the printed text throws. -/
theorem c23_set_violated (s : List Nat) : parseSet (showSet 0 0 showUInt s) = throw := by
  -- the first piece begins with the brace
  have hsplit : ∀ (c : Char), c ≠ '{' → ∀ x : Str, ∃ y ys, split c ('{' :: x) = ('{' :: y) :: ys := by
    intro c hc x
    rcases split_cases c x with h | ⟨a, rest, ha, rfl⟩
    · exact ⟨x, [], split_single (by simp [hc, h]) (by simp)⟩
    · refine ⟨a, split c rest, ?_⟩
      rw [← List.cons_append, split_append (by simp [hc, ha])]
  have hfirst : ∀ (cs : List Char), '{' ∉ cs → ∀ (l : List Str), (∃ y ys, l = ('{' :: y) :: ys) →
      ∃ y ys, cs.foldl (fun strings c => strings.flatMap (split c)) l = ('{' :: y) :: ys := by
    intro cs
    induction cs with
    | nil => intro _ l h; exact h
    | cons c cs ih =>
      rintro hc l ⟨y, ys, rfl⟩
      simp only [List.mem_cons, not_or] at hc
      rw [List.foldl_cons]
      apply ih hc.2
      obtain ⟨z, zs, hz⟩ := hsplit c (Ne.symm hc.1) y
      exact ⟨z, zs ++ ys.flatMap (split c), by rw [List.flatMap_cons, hz]; rfl⟩
  obtain ⟨y, ys, hy⟩ := hfirst parseSeparators (by decide) [showSet 0 0 showUInt s]
    ⟨_, [], rfl⟩
  unfold parseSet parseVector splitMany
  rw [hy, mapRes]
  have : parseUInt ('{' :: y) = throw := by
    have h1 : List.dropWhile isSpace ('{' :: y) = '{' :: y := by
      rw [List.dropWhile_cons, if_neg (by decide)]
    have h2 : List.takeWhile Char.isDigit ('{' :: y) = [] := by
      rw [List.takeWhile_cons, if_neg (by decide)]
    have h3 : stoi ('{' :: y) = throw := by
      unfold stoi
      simp only [h1, List.head?_cons, Option.some.injEq, (by decide : ¬ '{' = '-'),
        (by decide : ¬ '{' = '+'), or_self, if_false, h2, if_true]
    unfold parseUInt
    rw [h3]; rfl
  rw [this]; rfl

/-- What a set prints as: all its elements, separated by commas, in braces. -/
theorem c23_set_text (s : List Nat) :
    showSet 0 0 showUInt s = '{' :: List.intercalate [','] (s.map showUInt) ++ ['}'] := by
  rw [showSet_eq, showElems_eq]

/-- C23 for sets, part that holds: if the braces of the printed text are replaced by brackets, the set
is read back. -/
theorem c23_set_partial (s : List Nat) (h : ∀ n ∈ s, n < 2147483648) (hs : s.Pairwise (· < ·)) :
    ∃ text, showSet 0 0 showUInt s = '{' :: text ++ ['}'] ∧ parseSet ('[' :: text ++ [']']) = ok s := by
  refine ⟨_, showSet_eq showUInt s, ?_⟩
  have h1 : '[' :: showElems showUInt true s ++ [']'] = showVector 0 0 showUInt s := by
    unfold showVector
    simp
  rw [h1]
  unfold parseSet
  rw [c23_vector_uint_partial s h, ok_bind, foldl_sortedInsert_sorted hs]

/-- Reading a set from numbers in brackets: the increasing list of the numbers without repetitions. -/
theorem c23_set_read (v : List Nat) (h : ∀ n ∈ v, n < 2147483648) :
    ∃ s, parseSet (showVector 0 0 showUInt v) = ok s ∧ s.Pairwise (· < ·) ∧ ∀ n, n ∈ s ↔ n ∈ v := by
  unfold parseSet
  rw [c23_vector_uint_partial v h, ok_bind]
  obtain ⟨h1, h2⟩ := foldl_sortedInsert_spec v [] List.Pairwise.nil
  exact ⟨_, rfl, h1, by simpa using h2⟩

example : (∀ n ∈ [1, 5], n < 2147483648) ∧ [1, 5].Pairwise (· < ·) ∧
    ∀ n ∈ [5, 1, 5], n < 2147483648 := by decide

example : showSet 0 0 showUInt [1, 5] = "{1,5}".toList ∧
    parseSet "[5,1,5]".toList = ok [1, 5] := by
  constructor <;> decide

/-! ### C24 -/

/-- C24, part that holds: for a text that does not end in the separator the pieces joined by the
separator are the text, and no piece contains the separator.

Missing from the full statement: texts that end in the separator, see the violation below. -/
theorem c24_split_partial (c : Char) (s : Str) (h : s.getLast? ≠ some c) :
    List.intercalate [c] (split c s) = s ∧ ∀ p ∈ split c s, c ∉ p := by
  refine ⟨?_, fun p hp => not_mem_of_mem_split hp⟩
  have := split_join (c := c) s
  rw [if_neg h, List.append_nil] at this
  exact this

/-- C24, what happens to a text that ends in the separator: exactly one separator, the last one, is
lost; no piece contains the separator. -/
theorem c24_split_trailing (c : Char) (s : Str) (h : s.getLast? = some c) :
    List.intercalate [c] (split c s) ++ [c] = s ∧ ∀ p ∈ split c s, c ∉ p := by
  refine ⟨?_, fun p hp => not_mem_of_mem_split hp⟩
  have := split_join (c := c) s
  rw [if_pos h] at this
  exact this

/-- C24, nothing is invented: pieces without separator, the last one not empty, are what `Split`
returns for their join. -/
theorem c24_split_unique (c : Char) (ps : List Str) (h : ∀ p ∈ ps, c ∉ p)
    (hl : ps.getLast? ≠ some []) : split c (List.intercalate [c] ps) = ps :=
  split_intercalate h hl

/-- C24 fails for a text that ends in the separator: the empty piece behind it is lost, so that
joining the pieces does not give the text. -/
theorem c24_trailing_violated : ∃ c s, List.intercalate [c] (split c s) ≠ s :=
  ⟨',', "a,".toList, by decide⟩

/-- C24 for several separators: no piece contains any of them, and the pieces that are not empty are
the maximal runs of other characters, in order. -/
theorem c24_split_many (cs : List Char) (s : Str) :
    (∀ p ∈ splitMany cs s, ∀ c ∈ cs, c ∉ p) ∧
    (splitMany cs s).filter (· ≠ []) = (s.splitOnP (· ∈ cs)).filter (· ≠ []) :=
  ⟨fun _ hp => (foldl_flatMap_mem hp).1, nonEmpty_splitMany cs s⟩

example : split ',' "a,,b".toList = ["a".toList, [], "b".toList] ∧
    ("a,,b".toList).getLast? ≠ some ',' ∧ split ',' ",a,".toList = [[], "a".toList] ∧
    (",a,".toList).getLast? = some ',' ∧
    splitMany ['_', ':'] "pippo_pe:pu".toList = ["pippo".toList, "pe".toList, "pu".toList] := by
  refine ⟨?_, ?_, ?_, ?_, ?_⟩ <;> decide

end Verif
