import Verif.StringModel
import Verif.CsrLemmas

/-
Helper lemmas for strings.
-/
namespace Verif

open Res

/-! ### Split -/

theorem splitGo_append {c : Char} {x : Str} (hx : c ∉ x) (rest : Str) : ∀ (cur : Str) (any : Bool),
    splitGo c cur any (x ++ c :: rest) = (cur ++ x) :: split c rest := by
  induction x with
  | nil => intro cur any; simp [splitGo, split]
  | cons y x ih =>
    intro cur any
    simp only [List.mem_cons, not_or] at hx
    rw [List.cons_append, splitGo, if_neg (Ne.symm hx.1), ih hx.2]
    simp

theorem splitGo_single {c : Char} {x : Str} (hx : c ∉ x) : ∀ (cur : Str) (any : Bool),
    splitGo c cur any x = if any = true ∨ x ≠ [] then [cur ++ x] else [] := by
  induction x with
  | nil => intro cur any; simp [splitGo]
  | cons y x ih =>
    intro cur any
    simp only [List.mem_cons, not_or] at hx
    rw [splitGo, if_neg (Ne.symm hx.1), ih hx.2]
    simp

theorem split_append {c : Char} {x : Str} (hx : c ∉ x) (rest : Str) :
    split c (x ++ c :: rest) = x :: split c rest := by
  unfold split
  rw [splitGo_append hx]; simp [split]

theorem split_single {c : Char} {x : Str} (hx : c ∉ x) (hne : x ≠ []) : split c x = [x] := by
  unfold split
  rw [splitGo_single hx]; simp [hne]

@[simp] theorem split_nil (c : Char) : split c [] = [] := rfl

/-- Every text is either free of the separator, or a free piece, the separator, and a rest. -/
theorem split_cases (c : Char) (s : Str) : c ∉ s ∨ ∃ x rest, c ∉ x ∧ s = x ++ c :: rest := by
  by_cases h : c ∈ s
  · right
    obtain ⟨x, rest, h1, h2⟩ := List.eq_append_cons_of_mem h
    exact ⟨x, rest, h2, h1⟩
  · exact .inl h

theorem split_induction (c : Char) {P : Str → Prop} (h1 : ∀ s, c ∉ s → P s)
    (h2 : ∀ x rest, c ∉ x → P rest → P (x ++ c :: rest)) (s : Str) : P s := by
  suffices h : ∀ n (s : Str), s.length ≤ n → P s from h _ s (Nat.le_refl _)
  intro n
  induction n with
  | zero =>
    intro s hs
    have : s = [] := List.length_eq_zero_iff.1 (by omega)
    subst this; exact h1 _ (by simp)
  | succ n ih =>
    intro s hs
    rcases split_cases c s with h | ⟨x, rest, hx, rfl⟩
    · exact h1 s h
    · refine h2 x rest hx (ih rest ?_)
      simp at hs; omega

theorem not_mem_of_mem_split {c : Char} {s p : Str} : p ∈ split c s → c ∉ p := by
  induction s using split_induction c with
  | h1 s hs =>
    intro hp
    by_cases hne : s = []
    · subst hne; simp at hp
    · rw [split_single hs hne, List.mem_singleton] at hp
      rw [hp]; exact hs
  | h2 x rest hx ih =>
    intro hp
    rw [split_append hx, List.mem_cons] at hp
    rcases hp with rfl | hp
    · exact hx
    · exact ih hp

theorem split_eq_nil {c : Char} {s : Str} : split c s = [] ↔ s = [] := by
  constructor
  · rcases split_cases c s with h | ⟨x, rest, hx, rfl⟩
    · intro hs
      by_contra hne
      rw [split_single h hne] at hs
      simp at hs
    · rw [split_append hx]; simp
  · rintro rfl; rfl

theorem intercalate_cons {c : Char} {x : Str} {ps : List Str} (h : ps ≠ []) :
    List.intercalate [c] (x :: ps) = x ++ c :: List.intercalate [c] ps := by
  cases ps with
  | nil => exact absurd rfl h
  | cons y ps => simp [List.intercalate, List.intersperse]

@[simp] theorem intercalate_single {c : Char} {x : Str} : List.intercalate [c] [x] = x := by
  simp [List.intercalate, List.intersperse]

@[simp] theorem intercalate_nil {c : Char} : List.intercalate [c] ([] : List Str) = [] := rfl

theorem split_join {c : Char} (s : Str) :
    List.intercalate [c] (split c s) ++ (if s.getLast? = some c then [c] else []) = s := by
  induction s using split_induction c with
  | h1 s hs =>
    have hl : s.getLast? ≠ some c := fun h => hs (List.mem_of_getLast? h)
    rw [if_neg hl]
    by_cases hne : s = []
    · subst hne; simp
    · rw [split_single hs hne]; simp
  | h2 x rest hx ih =>
    rw [split_append hx]
    by_cases hr : rest = []
    · subst hr; simp
    · have hsp : split c rest ≠ [] := fun h => hr (split_eq_nil.1 h)
      rw [intercalate_cons hsp]
      have hl : (x ++ c :: rest).getLast? = rest.getLast? := by
        rw [List.getLast?_append, List.getLast?_cons]
        cases h : rest.getLast? with
        | none => exact absurd (List.getLast?_eq_none_iff.1 h) hr
        | some y => simp
      rw [hl]
      conv_rhs => rw [← ih]
      simp

theorem split_intercalate {c : Char} : ∀ {ps : List Str}, (∀ p ∈ ps, c ∉ p) →
    ps.getLast? ≠ some [] → split c (List.intercalate [c] ps) = ps
  | [], _, _ => rfl
  | [x], h, hl => by
    rw [intercalate_single, split_single (h x (by simp))]
    simpa using hl
  | x :: y :: ps, h, hl => by
    rw [intercalate_cons (by simp), split_append (h x (by simp)),
      split_intercalate (fun p hp => h p (by simp [hp])) (by simpa [List.getLast?_cons] using hl)]

theorem mem_of_mem_split {c : Char} {s p : Str} {x : Char} : p ∈ split c s → x ∈ p → x ∈ s := by
  induction s using split_induction c with
  | h1 s hs =>
    intro hp hx
    by_cases hne : s = []
    · subst hne; simp at hp
    · rw [split_single hs hne, List.mem_singleton] at hp
      rw [← hp]; exact hx
  | h2 y rest hy ih =>
    intro hp hx
    rw [split_append hy, List.mem_cons] at hp
    rcases hp with rfl | hp
    · simp [hx]
    · simp [ih hp hx]

/-! ### Splitting by several characters -/

theorem foldl_flatMap_mem {cs : List Char} : ∀ {strings : List Str} {p : Str},
    p ∈ cs.foldl (fun strings c => strings.flatMap (split c)) strings →
    (∀ c ∈ cs, c ∉ p) ∧ ∃ q ∈ strings, ∀ x ∈ p, x ∈ q := by
  induction cs with
  | nil => intro strings p hp; exact ⟨by simp, p, hp, fun _ h => h⟩
  | cons c cs ih =>
    intro strings p hp
    rw [List.foldl_cons] at hp
    obtain ⟨h1, q, hq, h2⟩ := ih hp
    obtain ⟨q', hq', hqq⟩ := List.mem_flatMap.1 hq
    refine ⟨?_, q', hq', fun x hx => mem_of_mem_split hqq (h2 x hx)⟩
    intro d hd
    rcases List.mem_cons.1 hd with rfl | hd
    · exact fun h => not_mem_of_mem_split hqq (h2 _ h)
    · exact h1 d hd

/-- Pieces that are not empty. -/
abbrev nonEmpty (l : List Str) : List Str := l.filter (· ≠ [])

theorem nonEmpty_append (a b : List Str) : nonEmpty (a ++ b) = nonEmpty a ++ nonEmpty b :=
  List.filter_append ..

theorem nonEmpty_split (c : Char) (s : Str) : nonEmpty (split c s) = nonEmpty (s.splitOnP (· = c)) := by
  induction s using split_induction c with
  | h1 s hs =>
    rw [List.splitOnP_eq_singleton (fun x hx => by simp; rintro rfl; exact hs hx)]
    by_cases hne : s = []
    · subst hne; simp [nonEmpty]
    · rw [split_single hs hne]
  | h2 x rest hx ih =>
    rw [split_append hx, List.splitOnP_append_cons_of_forall_mem
      (fun y hy => by simp; rintro rfl; exact hx hy) c (by simp)]
    unfold nonEmpty at ih ⊢
    rw [List.filter_cons, List.filter_cons, ih]

/-- Splitting the pieces again with a second predicate is splitting with the disjunction. -/
theorem nonEmpty_flatMap_splitOnP (p q : Char → Bool) (s : Str) :
    nonEmpty ((s.splitOnP p).flatMap (·.splitOnP q)) = nonEmpty (s.splitOnP fun x => p x || q x) := by
  suffices h : (s.splitOnP p).flatMap (·.splitOnP q) = s.splitOnP fun x => p x || q x by rw [h]
  induction s with
  | nil => simp
  | cons x s ih =>
    rw [List.splitOnP_cons_eq_if_modifyHead, List.splitOnP_cons_eq_if_modifyHead, ← ih]
    obtain ⟨y, ys, hy⟩ : ∃ y ys, s.splitOnP p = y :: ys := by
      cases h : s.splitOnP p with
      | nil => exact absurd h (List.splitOnP_ne_nil p s)
      | cons y ys => exact ⟨y, ys, rfl⟩
    by_cases hp : p x
    · simp [hp]
    · rw [hy]
      simp only [hp, Bool.false_or, List.modifyHead_cons, List.flatMap_cons, Bool.false_eq_true,
        if_false]
      rw [List.splitOnP_cons_eq_if_modifyHead]
      by_cases hq : q x
      · simp [hq]
      · simp only [hq, Bool.false_eq_true, if_false]
        obtain ⟨z, zs, hz⟩ : ∃ z zs, y.splitOnP q = z :: zs := by
          cases h : y.splitOnP q with
          | nil => exact absurd h (List.splitOnP_ne_nil q y)
          | cons z zs => exact ⟨z, zs, rfl⟩
        rw [hz]; simp

theorem nonEmpty_flatMap_split {c : Char} {a b : List Str} (h : nonEmpty a = nonEmpty b) :
    nonEmpty (a.flatMap (split c)) = nonEmpty (b.flatMap (·.splitOnP (· = c))) := by
  have key : ∀ l : List Str, nonEmpty (l.flatMap (split c)) =
      (nonEmpty l).flatMap fun s => nonEmpty (s.splitOnP (· = c)) := by
    intro l
    induction l with
    | nil => rfl
    | cons x l ih =>
      rw [List.flatMap_cons, nonEmpty_append, ih, nonEmpty_split]
      by_cases hx : x = []
      · subst hx; simp [nonEmpty]
      · simp [nonEmpty, List.filter_cons, hx]
  have key2 : ∀ l : List Str, nonEmpty (l.flatMap (·.splitOnP (· = c))) =
      (nonEmpty l).flatMap fun s => nonEmpty (s.splitOnP (· = c)) := by
    intro l
    induction l with
    | nil => rfl
    | cons x l ih =>
      rw [List.flatMap_cons, nonEmpty_append, ih]
      by_cases hx : x = []
      · subst hx; simp [nonEmpty]
      · simp [nonEmpty, List.filter_cons, hx]
  rw [key, key2, h]

theorem nonEmpty_splitMany (cs : List Char) (s : Str) :
    nonEmpty (splitMany cs s) = nonEmpty (s.splitOnP (· ∈ cs)) := by
  have key : ∀ (cs : List Char) (l : List Str) (p : Char → Bool),
      nonEmpty l = nonEmpty (s.splitOnP p) →
      nonEmpty (cs.foldl (fun strings c => strings.flatMap (split c)) l) =
        nonEmpty (s.splitOnP fun x => p x || decide (x ∈ cs)) := by
    intro cs
    induction cs with
    | nil => intro l p h; simpa using h
    | cons c cs ih =>
      intro l p h
      rw [List.foldl_cons, ih _ (fun x => p x || decide (x = c))]
      · congr 1; congr 1; funext x; simp [Bool.or_assoc]
      · rw [nonEmpty_flatMap_split h, nonEmpty_flatMap_splitOnP]
  unfold splitMany
  rw [key cs [s] (fun _ => false) (by rw [List.splitOnP_eq_singleton (fun _ _ => rfl)])]
  simp

/-! ### Numbers -/

theorem digitsVal_append (a : Str) (x : Char) :
    digitsVal (a ++ [x]) = 10 * digitsVal a + (x.toNat - '0'.toNat) := by
  simp [digitsVal]

theorem digitsVal_toDigits (n : Nat) : digitsVal (Nat.toDigits 10 n) = n := by
  induction n using Nat.strongRecOn with
  | ind n ih =>
    rw [Nat.toDigits_eq_if (by decide)]
    split
    · next h =>
      have := Nat.toNat_digitChar_sub_48_of_lt_ten h
      simpa [digitsVal] using this
    · next h =>
      rw [digitsVal_append, ih (n / 10) (by omega)]
      have := Nat.toNat_digitChar_sub_48_of_lt_ten (n := n % 10) (by omega)
      have h0 : '0'.toNat = 48 := rfl
      rw [h0, this]; omega

theorem isDigit_toDigits {n : Nat} {c : Char} (h : c ∈ Nat.toDigits 10 n) : c.isDigit = true :=
  Nat.isDigit_of_mem_toDigits (by decide) (by decide) h

theorem isSpace_of_isDigit {c : Char} (h : c.isDigit = true) :
    isSpace c = false ∧ c ≠ '-' ∧ c ≠ '+' ∧ c ∉ parseSeparators := by
  refine ⟨?_, ?_, ?_, ?_⟩
  · by_contra hs
    simp only [isSpace, Bool.or_eq_true, decide_eq_true_eq, Bool.not_eq_false] at hs
    rcases hs with ((((rfl | rfl) | rfl) | rfl) | rfl) | rfl <;> revert h <;> decide
  · rintro rfl; revert h; decide
  · rintro rfl; revert h; decide
  · intro hs
    simp only [parseSeparators, List.mem_cons, List.not_mem_nil, or_false] at hs
    rcases hs with rfl | rfl | rfl | rfl | rfl <;> revert h <;> decide

theorem toDigits_head (n : Nat) : ∃ c cs, Nat.toDigits 10 n = c :: cs ∧ c.isDigit = true := by
  cases h : Nat.toDigits 10 n with
  | nil => exact absurd h Nat.toDigits_ne_nil
  | cons c cs => exact ⟨c, cs, rfl, isDigit_toDigits (n := n) (by rw [h]; simp)⟩

theorem takeWhile_toDigits (n : Nat) :
    (Nat.toDigits 10 n).takeWhile Char.isDigit = Nat.toDigits 10 n := by
  have h : ∀ c ∈ Nat.toDigits 10 n, c.isDigit = true := fun c hc => isDigit_toDigits hc
  revert h
  generalize Nat.toDigits 10 n = l
  intro h
  induction l with
  | nil => rfl
  | cons c l ih =>
    rw [List.takeWhile_cons, if_pos (h c (by simp)), ih (fun d hd => h d (by simp [hd]))]

theorem stoi_showInt {i : Int} (h1 : -2147483648 ≤ i) (h2 : i ≤ 2147483647) :
    stoi (showInt i) = ok i := by
  unfold showInt
  split
  · next hn =>
    unfold stoi
    have hd : List.dropWhile isSpace ('-' :: Nat.toDigits 10 i.natAbs) =
        '-' :: Nat.toDigits 10 i.natAbs := by
      rw [List.dropWhile_cons, if_neg (by decide)]
    simp only [hd, List.head?_cons, true_or, if_true, List.drop_one, List.tail_cons,
      takeWhile_toDigits, Nat.toDigits_ne_nil, if_false, digitsVal_toDigits]
    rw [if_pos (by omega)]
    congr 1; omega
  · next hn =>
    unfold stoi
    obtain ⟨c, cs, hcs, hc⟩ := toDigits_head i.natAbs
    obtain ⟨hs1, hs2, hs3, _⟩ := isSpace_of_isDigit hc
    have hd : List.dropWhile isSpace (Nat.toDigits 10 i.natAbs) = Nat.toDigits 10 i.natAbs := by
      rw [hcs, List.dropWhile_cons, if_neg (by simp [hs1])]
    have hh : (Nat.toDigits 10 i.natAbs).head? = some c := by rw [hcs]; rfl
    simp only [hd, hh, Option.some.injEq, hs2, hs3, or_self, if_false, takeWhile_toDigits,
      Nat.toDigits_ne_nil, digitsVal_toDigits]
    rw [if_pos (by omega)]
    congr 1; omega

theorem showInt_ofNat (n : Nat) : showInt n = showUInt n := by
  unfold showInt showUInt
  rw [if_neg (by omega)]; simp

theorem parseUInt_show {n : Nat} (h : n < 2147483648) : parseUInt (showUInt n) = ok n := by
  unfold parseUInt
  rw [← showInt_ofNat, stoi_showInt (by omega) (by omega), ok_bind, if_neg (by omega)]
  congr 1

theorem showUInt_safe (n : Nat) : showUInt n ≠ [] ∧ ∀ c ∈ showUInt n, c.isDigit = true :=
  ⟨Nat.toDigits_ne_nil, fun _ hc => isDigit_toDigits hc⟩

theorem showInt_safe (i : Int) : showInt i ≠ [] ∧
    ∀ c ∈ showInt i, c = '-' ∨ c.isDigit = true := by
  unfold showInt
  split
  · refine ⟨by simp, fun c hc => ?_⟩
    rcases List.mem_cons.1 hc with rfl | hc
    · exact .inl rfl
    · exact .inr (isDigit_toDigits hc)
  · exact ⟨Nat.toDigits_ne_nil, fun c hc => .inr (isDigit_toDigits hc)⟩

/-! ### Printing and parsing a vector -/

theorem showElems_false {α : Type} (shw : α → Str) (v : List α) :
    showElems shw false v = if v = [] then [] else ',' :: showElems shw true v := by
  cases v with
  | nil => rfl
  | cons x v => simp [showElems]

theorem showElems_eq {α : Type} (shw : α → Str) (v : List α) :
    showElems shw true v = List.intercalate [','] (v.map shw) := by
  induction v with
  | nil => rfl
  | cons x v ih =>
    rw [showElems, showElems_false]
    cases v with
    | nil => simp
    | cons y v =>
      rw [List.map_cons, intercalate_cons (by simp), ← ih]; simp

theorem mem_showElems {α : Type} {shw : α → Str} {v : List α} {c : Char}
    (h : c ∈ showElems shw true v) : c = ',' ∨ ∃ x ∈ v, c ∈ shw x := by
  rw [showElems_eq] at h
  revert h
  induction v with
  | nil => simp
  | cons x v ih =>
    intro h
    cases v with
    | nil => simp only [List.map_cons, List.map_nil, intercalate_single] at h
             exact .inr ⟨x, by simp, h⟩
    | cons y v =>
      rw [List.map_cons, intercalate_cons (by simp)] at h
      rcases List.mem_append.1 h with h | h
      · exact .inr ⟨x, by simp, h⟩
      · rcases List.mem_cons.1 h with h | h
        · exact .inl h
        · rcases ih h with h | ⟨z, hz, hcz⟩
          · exact .inl h
          · exact .inr ⟨z, by simp only [List.mem_cons] at hz ⊢; exact .inr hz, hcz⟩

theorem flatMap_split_single {c : Char} {l : List Str} (h : ∀ s ∈ l, c ∉ s ∧ s ≠ []) :
    l.flatMap (split c) = l := by
  induction l with
  | nil => rfl
  | cons s l ih =>
    rw [List.flatMap_cons, split_single (h s (by simp)).1 (h s (by simp)).2,
      ih (fun t ht => h t (by simp [ht]))]
    rfl

theorem splitMany_showVector {α : Type} {shw : α → Str} {v : List α}
    (h : ∀ x ∈ v, shw x ≠ [] ∧ ∀ c ∈ shw x, c ∉ parseSeparators) :
    splitMany parseSeparators (showVector 0 0 shw v) = v.map shw := by
  have hmem : ∀ c ∈ parseSeparators, c ≠ ',' → c ∉ showElems shw true v := by
    intro c hc hne hce
    rcases mem_showElems hce with h' | ⟨x, hx, hcx⟩
    · exact hne h'
    · exact (h x hx).2 c hcx hc
  have hz : (if 0 ≥ v.length then 0 else 0) = 0 := by split <;> rfl
  have htext : showVector 0 0 shw v = [] ++ '[' :: (showElems shw true v ++ [']']) := by
    unfold showVector
    simp [hz]
  unfold splitMany
  rw [show parseSeparators = ['[', ',', ';', ']', ' '] from rfl] at hmem ⊢
  simp only [List.foldl_cons, List.foldl_nil, List.flatMap_cons, List.flatMap_nil, List.append_nil]
  rw [htext, split_append (by simp), split_single (c := '[') _ (by simp)]
  · simp only [List.flatMap_cons, split_nil, List.flatMap_nil, List.append_nil, List.nil_append]
    by_cases hv : v = []
    · subst hv; rfl
    · -- the elements are separated by commas, the bracket sticks to the last one
      obtain ⟨w, z, rfl⟩ : ∃ w z, v = w ++ [z] := ⟨v.dropLast, v.getLast hv, (List.dropLast_append_getLast hv).symm⟩
      have hcomma : split ',' (showElems shw true (w ++ [z]) ++ [']']) =
          w.map shw ++ [shw z ++ [']']] := by
        have htail : showElems shw true (w ++ [z]) ++ [']'] =
            List.intercalate [','] (w.map shw ++ [shw z ++ [']']]) := by
          rw [showElems_eq, List.map_append]
          generalize w.map shw = l
          induction l with
          | nil => simp
          | cons a l ih =>
            rw [List.cons_append, intercalate_cons (by simp), List.cons_append,
              intercalate_cons (by simp), ← ih]
            simp
        rw [htail, split_intercalate]
        · intro p hp hc
          rcases List.mem_append.1 hp with hp | hp
          · obtain ⟨x, hx, rfl⟩ := List.mem_map.1 hp
            exact (h x (by simp [hx])).2 ',' hc (by decide)
          · rw [List.mem_singleton] at hp
            subst hp
            rcases List.mem_append.1 hc with hc | hc
            · exact (h z (by simp)).2 ',' hc (by decide)
            · simp at hc
        · simp
      have hall : ∀ c ∈ ['[', ',', ';', ']', ' '], ∀ s ∈ w.map shw, c ∉ s ∧ s ≠ [] := by
        intro c hc s hs
        obtain ⟨x, hx, rfl⟩ := List.mem_map.1 hs
        exact ⟨fun hcx => (h x (by simp [hx])).2 c hcx hc, (h x (by simp [hx])).1⟩
      have hz' : ∀ c ∈ ['[', ',', ';', ']', ' '], c ∉ shw z := fun c hc hcx =>
        (h z (by simp)).2 c hcx hc
      rw [hcomma, List.flatMap_append, flatMap_split_single (hall ';' (by decide))]
      simp only [List.flatMap_cons, List.flatMap_nil, List.append_nil]
      rw [split_single (c := ';') (by simp [hz' ';' (by decide)]) (by simp)]
      rw [List.flatMap_append, flatMap_split_single (hall ']' (by decide))]
      simp only [List.flatMap_cons, List.flatMap_nil, List.append_nil]
      rw [split_append (hz' ']' (by decide)), split_nil]
      rw [List.flatMap_append, flatMap_split_single (hall ' ' (by decide))]
      simp only [List.flatMap_cons, List.flatMap_nil, List.append_nil]
      rw [split_single (hz' ' ' (by decide)) (h z (by simp)).1]
      simp
  · have := hmem '[' (by decide) (by decide)
    simp [this]

theorem mapRes_map_ok {α β γ : Type} {f : β → Res γ} {g : α → β} {k : α → γ} {l : List α}
    (h : ∀ x ∈ l, f (g x) = ok (k x)) : mapRes f (l.map g) = ok (l.map k) := by
  induction l with
  | nil => rfl
  | cons x l ih =>
    rw [List.map_cons, mapRes, h x (by simp), ok_bind, ih (fun y hy => h y (by simp [hy]))]
    rfl

theorem parseVector_show {α : Type} {f : Str → Res α} {shw : α → Str} {v : List α}
    (h : ∀ x ∈ v, shw x ≠ [] ∧ ∀ c ∈ shw x, c ∉ parseSeparators)
    (hf : ∀ x ∈ v, f (shw x) = ok x) : parseVector f (showVector 0 0 shw v) = ok v := by
  unfold parseVector
  rw [splitMany_showVector h, mapRes_map_ok (k := id) hf, List.map_id]

/-! Sets. -/

theorem showSetLoop_eq {α : Type} (shw : α → Str) (size : Nat) :
    ∀ (xs : List α) (k : Nat), k + xs.length = size →
      showSetLoop shw size 0 k k xs = showElems shw (decide (k = 0)) xs := by
  intro xs
  induction xs with
  | nil => intro k _; rfl
  | cons x xs ih =>
    intro k hk
    simp only [List.length_cons] at hk
    simp only [showSetLoop, showElems, Nat.zero_le, ge_iff_le, if_true]
    have hd : (if k ≠ 0 then [','] else ([] : Str)) = if decide (k = 0) = true then [] else [','] := by
      by_cases h0 : k = 0 <;> simp [h0]
    rw [hd]
    by_cases hsz : size ≤ k + 1
    · have : xs = [] := List.eq_nil_of_length_eq_zero (by omega)
      subst this
      simp [hsz, showElems]
    · rw [if_neg hsz, ih (k + 1) (by omega)]
      simp

theorem showSet_eq {α : Type} (shw : α → Str) (s : List α) :
    showSet 0 0 shw s = '{' :: showElems shw true s ++ ['}'] := by
  unfold showSet
  simp only [true_or, if_true]
  have : (if (0 : Nat) ≥ s.length then 0 else 0) = 0 := by split <;> rfl
  rw [this, showSetLoop_eq shw s.length s 0 (by omega)]
  rfl

theorem sortedInsert_spec (x : Nat) (l : List Nat) (h : l.Pairwise (· < ·)) :
    (sortedInsert x l).Pairwise (· < ·) ∧ ∀ n, n ∈ sortedInsert x l ↔ n = x ∨ n ∈ l := by
  induction l with
  | nil => simp [sortedInsert]
  | cons y ys ih =>
    rw [List.pairwise_cons] at h
    obtain ⟨ih1, ih2⟩ := ih h.2
    unfold sortedInsert
    split
    · next hlt =>
      refine ⟨List.pairwise_cons.2 ⟨?_, List.pairwise_cons.2 h⟩, by simp⟩
      intro a ha
      rcases List.mem_cons.1 ha with rfl | ha
      · exact hlt
      · exact hlt.trans (h.1 a ha)
    · split
      · next hxy =>
        subst hxy
        exact ⟨List.pairwise_cons.2 h, by simp⟩
      · next h1 h2 =>
        refine ⟨List.pairwise_cons.2 ⟨?_, ih1⟩, ?_⟩
        · intro a ha
          rcases (ih2 a).1 ha with rfl | ha
          · omega
          · exact h.1 a ha
        · intro n
          rw [List.mem_cons, ih2 n, List.mem_cons]
          tauto

theorem foldl_sortedInsert_spec (v : List Nat) : ∀ (l : List Nat), l.Pairwise (· < ·) →
    (v.foldl (fun set x => sortedInsert x set) l).Pairwise (· < ·) ∧
      ∀ n, n ∈ v.foldl (fun set x => sortedInsert x set) l ↔ n ∈ l ∨ n ∈ v := by
  induction v with
  | nil => intro l h; exact ⟨h, by simp⟩
  | cons x v ih =>
    intro l h
    obtain ⟨h1, h2⟩ := sortedInsert_spec x l h
    obtain ⟨h3, h4⟩ := ih _ h1
    refine ⟨h3, fun n => ?_⟩
    rw [List.foldl_cons, h4, h2, List.mem_cons]
    tauto

theorem foldl_sortedInsert_sorted {s : List Nat} (h : s.Pairwise (· < ·)) :
    s.foldl (fun set x => sortedInsert x set) [] = s := by
  obtain ⟨h1, h2⟩ := foldl_sortedInsert_spec s [] List.Pairwise.nil
  refine List.Perm.eq_of_pairwise (le := (· < ·)) ?_ h1 h ?_
  · intro a b _ _ hab hba; omega
  · rw [List.perm_ext_iff_of_nodup (h1.imp (fun h => Nat.ne_of_lt h)) (h.imp (fun h => Nat.ne_of_lt h))]
    simpa using h2

end Verif
