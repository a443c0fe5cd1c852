import Verif.FilePathSpec
import Verif.StringLemmas

/-
Lemmas for the names of files and folders.
-/
namespace Verif

open Res

theorem findLastOf_none {p : Char → Bool} : ∀ {s : Str}, findLastOf p s = none ↔ ∀ x ∈ s, p x = false
  | [] => by simp [findLastOf]
  | x :: xs => by
    have ih := findLastOf_none (p := p) (s := xs)
    rw [findLastOf]
    cases h : findLastOf p xs with
    | some i =>
      simp only [reduceCtorEq, false_iff]
      intro hall
      rw [ih.2 fun y hy => hall y (List.mem_cons_of_mem _ hy)] at h
      cases h
    | none =>
      have := ih.1 h
      simp only
      constructor
      · intro hx y hy
        rcases List.mem_cons.1 hy with rfl | hy
        · cases hp : p y with
          | false => rfl
          | true => rw [if_pos hp] at hx; cases hx
        · exact this y hy
      · intro hall
        rw [if_neg (by rw [hall x (by simp)]; simp)]

theorem findLastOf_some {p : Char → Bool} : ∀ {s : Str} {i : Nat}, findLastOf p s = some i →
    ∃ a c b, s = a ++ c :: b ∧ a.length = i ∧ p c = true ∧ ∀ x ∈ b, p x = false
  | [], i, h => by simp [findLastOf] at h
  | x :: xs, i, h => by
    rw [findLastOf] at h
    cases hx : findLastOf p xs with
    | some j =>
      rw [hx] at h
      simp only [Option.some.injEq] at h
      obtain ⟨a, c, b, rfl, h2, h3, h4⟩ := findLastOf_some hx
      exact ⟨x :: a, c, b, rfl, by simp [h2, ← h], h3, h4⟩
    | none =>
      rw [hx] at h
      simp only at h
      split at h
      · rename_i hp
        cases h
        exact ⟨[], x, xs, rfl, rfl, hp, findLastOf_none.1 hx⟩
      · cases h

theorem noSeparator_iff {s : Str} : NoSeparator s ↔ ∀ x ∈ s, (x == '/' || x == '\\') = false := by
  unfold NoSeparator
  constructor
  · rintro ⟨h1, h2⟩ x hx
    have a : x ≠ '/' := fun h => h1 (h ▸ hx)
    have b : x ≠ '\\' := fun h => h2 (h ▸ hx)
    simp [a, b]
  · intro h
    refine ⟨fun hc => ?_, fun hc => ?_⟩
    · have := h _ hc; simp at this
    · have := h _ hc; simp at this

theorem dot_iff {s : Str} : '.' ∉ s ↔ ∀ x ∈ s, (x == '.') = false := by
  constructor
  · intro h x hx
    have a : x ≠ '.' := fun hc => h (hc ▸ hx)
    simp [a]
  · intro h hc
    have := h _ hc; simp at this

theorem NoSeparator.of_append {a b : Str} (h : NoSeparator (a ++ b)) : NoSeparator a ∧ NoSeparator b := by
  unfold NoSeparator at *
  simp only [List.mem_append, not_or] at h
  exact ⟨⟨h.1.1, h.2.1⟩, ⟨h.1.2, h.2.2⟩⟩

/-- Where the two last positions are, by cases. -/
theorem getFilePath_spec {s : Str} (hs : s.length < 2 ^ 64) (oldPath oldExtension : Str) :
    ∃ dir base extension, PartsOf s dir base extension ∧
      getFilePath s oldPath oldExtension = ok (if dir = [] then oldPath else dir, base, extension.getD oldExtension) := by
  unfold getFilePath
  simp only
  cases hp : findLastOf (fun c => c == '/' || c == '\\') s with
  | none =>
    have hno := noSeparator_iff.2 (findLastOf_none.1 hp)
    cases he : findLastOf (fun c => c == '.') s with
    | none =>
      have hd := dot_iff.2 (findLastOf_none.1 he)
      exact ⟨[], s, none, ⟨by simp [dotted], .inl rfl, hno, by simp, fun _ => hd⟩, by simp [filePathOf, fileNameOf, fileExtensionOf, ok_bind]⟩
    | some e =>
      obtain ⟨a, c, b, rfl, h2, h3, h4⟩ := findLastOf_some he
      have hc : c = '.' := by simpa using h3
      subst hc
      obtain ⟨ha, hb⟩ := hno.of_append
      refine ⟨[], a, some b, ⟨by simp [dotted], .inl rfl, ha, ?_, by simp⟩, ?_⟩
      · rintro e ⟨⟩
        refine ⟨?_, dot_iff.2 h4⟩
        unfold NoSeparator at *
        simp only [List.mem_cons, not_or] at hb
        exact ⟨hb.1.2, hb.2.2⟩
      · subst h2
        simp [filePathOf, fileNameOf, fileExtensionOf, ok_bind, substr]
        exact List.take_of_length_le (by omega)
  | some p =>
    obtain ⟨a, c, b, rfl, h2, h3, h4⟩ := findLastOf_some hp
    have hno := noSeparator_iff.2 h4
    have hc : c = '/' ∨ c = '\\' := by simpa using h3
    subst h2
    have hdrop : (a ++ c :: b).drop (a.length + 1) = b := by
      rw [show a ++ c :: b = (a ++ [c]) ++ b by simp, List.drop_left' (by simp)]
    have htake : (a ++ c :: b).take (a.length + 1) = a ++ [c] := by
      rw [show a ++ c :: b = (a ++ [c]) ++ b by simp, List.take_left' (by simp)]
    have hpath : filePathOf (a ++ c :: b) oldPath (some a.length) = ok (a ++ [c]) := by
      simp [filePathOf, substr, htake]
    rw [hpath, ok_bind]
    cases he : findLastOf (fun c => c == '.') (a ++ c :: b) with
    | none =>
      have hd := dot_iff.2 (findLastOf_none.1 he)
      refine ⟨a ++ [c], b, none, ⟨by simp [dotted], .inr ⟨a, c, rfl, hc⟩, hno, by simp, fun _ h => hd (by simp [h])⟩, ?_⟩
      simp only [fileNameOf, fileExtensionOf, substr, hdrop]
      rw [if_neg (by simp)]
      simp only [ok_bind]
      rw [List.take_of_length_le (by simp; omega)]
      simp
    | some e =>
      obtain ⟨a', c', b', h1', h2', h3', h4'⟩ := findLastOf_some he
      have hc' : c' = '.' := by simpa using h3'
      subst hc' h2'
      rw [h1'] at hs
      have hlen := congrArg List.length h1'
      simp only [List.length_append, List.length_cons] at hlen hs
      by_cases hlt : a.length < a'.length
      · obtain ⟨z, rfl⟩ : ∃ z, a' = a ++ c :: z := by
          have h5 : (a ++ [c]) ++ b = a' ++ '.' :: b' := by rw [← h1']; simp
          obtain ⟨z, hz⟩ : (a ++ [c]) <+: a' :=
            List.prefix_of_prefix_length_le ⟨b, h5⟩ ⟨'.' :: b', rfl⟩ (by simp; omega)
          exact ⟨z, by rw [← hz]; simp⟩
        have hbz : b = z ++ '.' :: b' := by simpa using h1'
        subst hbz
        obtain ⟨hz, hb'⟩ := hno.of_append
        have hb'' : NoSeparator b' := by
          unfold NoSeparator at *
          simp only [List.mem_cons, not_or] at hb'
          exact ⟨hb'.1.2, hb'.2.2⟩
        refine ⟨a ++ [c], z, some b', ⟨by simp [dotted], .inr ⟨a, c, rfl, hc⟩, hz, by rintro e ⟨⟩; exact ⟨hb'', dot_iff.2 h4'⟩, by simp⟩, ?_⟩
        have hsz : sizeBetween (a ++ c :: z).length a.length = z.length := by
          unfold sizeBetween
          simp only [List.length_append, List.length_cons] at hs ⊢
          rw [show a.length + (z.length + 1) + 2 ^ 64 - (a.length + 1) = z.length + 2 ^ 64 by omega, Nat.add_mod_right,
            Nat.mod_eq_of_lt (by omega)]
        simp only [fileNameOf, fileExtensionOf, substr, hdrop, hsz]
        rw [if_pos hlt, if_neg (by simp), if_neg (by simp only [List.length_append, List.length_cons]; omega)]
        simp only [ok_bind]
        rw [List.take_left' rfl, show a ++ c :: (z ++ '.' :: b') = (a ++ c :: z ++ ['.']) ++ b' by simp,
          List.drop_left' (by simp; omega), List.take_of_length_le (by simp; omega)]
        simp
      · have hge : a'.length < a.length := by
          rcases Nat.lt_or_ge a'.length a.length with h | h
          · exact h
          · exfalso
            have : a.length = a'.length := by omega
            obtain ⟨-, h6⟩ := List.append_inj h1' this
            simp only [List.cons.injEq] at h6
            rcases hc with rfl | rfl <;> simp at h6
        have hdb : '.' ∉ b := by
          intro hdot
          have h5 : ((a' ++ ['.']) ++ b') = (a ++ [c]) ++ b := by rw [show (a' ++ ['.']) ++ b' = a' ++ '.' :: b' by simp, ← h1']; simp
          obtain ⟨z, hz⟩ : (a' ++ ['.']) <+: (a ++ [c]) :=
            List.prefix_of_prefix_length_le ⟨b', h5⟩ ⟨b, rfl⟩ (by simp; omega)
          rw [← hz, List.append_assoc _ z, List.append_cancel_left_eq] at h5
          exact (dot_iff.2 h4') (by rw [h5]; simp [hdot])
        refine ⟨a ++ [c], b, none, ⟨by simp [dotted], .inr ⟨a, c, rfl, hc⟩, hno, by simp, fun _ => hdb⟩, ?_⟩
        have hsz : b.length ≤ sizeBetween a'.length a.length := by
          unfold sizeBetween
          rw [Nat.mod_eq_of_lt (by omega)]
          omega
        simp only [fileNameOf, fileExtensionOf, substr, hdrop]
        rw [if_neg (by simp), if_neg (by omega)]
        simp only [ok_bind]
        rw [List.take_of_length_le hsz]
        simp

/-- There is one way only to take a text apart. -/
theorem PartsOf.unique {s d b d' b' : Str} {e e' : Option Str} (h : PartsOf s d b e) (h' : PartsOf s d' b' e') :
    d = d' ∧ b = b' ∧ e = e' := by
  have rest : ∀ {b : Str} {e : Option Str}, NoSeparator b → (∀ x, e = some x → NoSeparator x ∧ '.' ∉ x) →
      NoSeparator (b ++ dotted e) := by
    intro b e h1 h2
    unfold NoSeparator at *
    cases e with
    | none => simpa [dotted] using h1
    | some e =>
      have h3 := h2 e rfl
      simp only [dotted, List.mem_append, List.mem_cons, not_or]
      exact ⟨⟨h1.1, by decide, h3.1.1⟩, ⟨h1.2, by decide, h3.1.2⟩⟩
  have r1 := rest h.name h.suffix
  have r2 := rest h'.name h'.suffix
  have key : ∀ {d d' t t' : Str}, d ++ t = d' ++ t' → NoSeparator t →
      (d' = [] ∨ ∃ x c, d' = x ++ [c] ∧ (c = '/' ∨ c = '\\')) → d'.length ≤ d.length := by
    intro d d' t t' heq ht hd
    rcases hd with rfl | ⟨x, c, rfl, hc⟩
    · simp
    · by_contra hlt
      obtain ⟨z, hz⟩ : d <+: (x ++ [c]) := List.prefix_of_prefix_length_le ⟨t, heq⟩ ⟨t', rfl⟩ (by omega)
      have hzne : z ≠ [] := by
        rintro rfl
        rw [List.append_nil] at hz
        exact hlt (by rw [hz])
      rw [← hz, List.append_assoc, List.append_cancel_left_eq] at heq
      have hcz : c ∈ z := by
        have := congrArg List.getLast? hz
        rw [List.getLast?_append_of_ne_nil _ hzne] at this
        simp only [List.getLast?_append, List.getLast?_singleton, Option.some_or] at this
        exact List.mem_of_getLast? this
      unfold NoSeparator at ht
      rw [heq] at ht
      simp only [List.mem_append, not_or] at ht
      rcases hc with rfl | rfl
      · exact ht.1.1 hcz
      · exact ht.2.1 hcz
  have heq := h.joined.symm.trans h'.joined
  rw [List.append_assoc, List.append_assoc] at heq
  have hl : d.length = d'.length := Nat.le_antisymm (key heq.symm r2 h.folder) (key heq r1 h'.folder)
  obtain ⟨rfl, ht⟩ := List.append_inj heq hl
  refine ⟨rfl, ?_⟩
  cases e with
  | none =>
    cases e' with
    | none => exact ⟨by simpa [dotted] using ht, rfl⟩
    | some y =>
      simp only [dotted, List.append_nil] at ht
      exact absurd (by rw [ht]; simp) (h.plain rfl)
  | some x =>
    cases e' with
    | none =>
      simp only [dotted, List.append_nil] at ht
      exact absurd (by rw [← ht]; simp) (h'.plain rfl)
    | some y =>
      simp only [dotted] at ht
      have hx := (h.suffix x rfl).2
      have hy := (h'.suffix y rfl).2
      have hlen : x.length = y.length := by
        have aux : ∀ {a a' x y : Str}, a ++ '.' :: x = a' ++ '.' :: y → '.' ∉ y → y.length ≤ x.length := by
          intro a a' x y heq hy
          by_contra hlt
          obtain ⟨z, hz⟩ : ('.' :: x) <:+ y :=
            List.suffix_of_suffix_length_le ⟨a, heq⟩ ⟨a' ++ ['.'], by simp⟩ (by simp; omega)
          exact hy (by rw [← hz]; simp)
        exact Nat.le_antisymm (aux ht.symm hx) (aux ht hy)
      obtain ⟨h1, h2⟩ := List.append_inj' ht (by simp [hlen])
      exact ⟨h1, by simpa using h2⟩

/-! ### Folders -/

/-- The names, each with a separator behind it. -/
def slashed (l : List Str) : Str := l.flatMap (· ++ ['/'])

theorem slashed_snoc (l : List Str) (f : Str) : slashed l ++ f ++ ['/'] = slashed (l ++ [f]) := by
  simp [slashed]

theorem split_slashed : ∀ {l : List Str}, (∀ f ∈ l, '/' ∉ f) → split '/' (slashed l) = l
  | [], _ => rfl
  | f :: l, h => by
    have : slashed (f :: l) = f ++ '/' :: slashed l := by simp [slashed]
    rw [this, split_append (h f (by simp)), split_slashed fun g hg => h g (by simp [hg])]

theorem slashed_split (s : Str) : slashed (split '/' s) <+: s ++ ['/'] := by
  induction s using split_induction '/' with
  | h1 s hs =>
    by_cases hne : s = []
    · subst hne; simp [slashed]
    · rw [split_single hs hne]; simp [slashed]
  | h2 x rest hx ih =>
    rw [split_append hx]
    have : slashed (x :: split '/' rest) = (x ++ ['/']) ++ slashed (split '/' rest) := by simp [slashed]
    rw [this, show x ++ '/' :: rest ++ ['/'] = (x ++ ['/']) ++ (rest ++ ['/']) by simp]
    exact List.prefix_append_right_inj _ |>.2 ih

theorem mkdirCalls_prefix : ∀ (l : List Str) (done : List Str), ∀ p ∈ mkdirCalls (slashed done) l, p <+: slashed (done ++ l)
  | [], _, p, hp => by simp [mkdirCalls] at hp
  | f :: l, done, p, hp => by
    rw [mkdirCalls, slashed_snoc] at hp
    have ih := mkdirCalls_prefix l (done ++ [f])
    rw [show done ++ f :: l = (done ++ [f]) ++ l by simp]
    split at hp
    · exact ih p hp
    · rcases List.mem_cons.1 hp with rfl | hp
      · rw [show slashed ((done ++ [f]) ++ l) = slashed (done ++ [f]) ++ slashed l by simp [slashed]]
        exact List.prefix_append _ _
      · exact ih p hp

theorem wayTo_slashed {l : List Str} (h : ∀ f ∈ l, '/' ∉ f) (h' : ['.', '.'] ∉ l) :
    wayTo (slashed l) = some (l.filter fun f => f ≠ [] ∧ f ≠ ['.']) := by
  unfold wayTo
  rw [split_slashed h, if_neg h']

theorem madeAll_spec : ∀ (l done : List Str) (F : Folders), (∀ f ∈ done ++ l, '/' ∉ f) → ['.', '.'] ∉ done ++ l →
    F (done.filter fun f => f ≠ [] ∧ f ≠ ['.']) →
    (∃ F', MadeAll F (mkdirCalls (slashed done) l) F') ∧
    ∀ F', MadeAll F (mkdirCalls (slashed done) l) F' → ∀ d, F' d ↔ F d ∨
      ∃ t, t <+: (l.filter fun f => f ≠ [] ∧ f ≠ ['.']) ∧ d = (done.filter fun f => f ≠ [] ∧ f ≠ ['.']) ++ t
  | [], done, F, _, _, h0 => by
    refine ⟨⟨F, .nil F⟩, fun F' h d => ?_⟩
    rw [mkdirCalls] at h
    cases h
    constructor
    · exact .inl
    · rintro (h | ⟨t, ht, rfl⟩)
      · exact h
      · rw [List.filter_nil, List.prefix_nil] at ht
        subst ht
        simpa using h0
  | f :: l, done, F, hs, hd, h0 => by
    have hs' : ∀ g ∈ (done ++ [f]) ++ l, '/' ∉ g := by simpa using hs
    have hd' : ['.', '.'] ∉ (done ++ [f]) ++ l := by simpa using hd
    rw [mkdirCalls, slashed_snoc]
    by_cases hf : f = ['.']
    · rw [if_pos hf]
      have hn : ((done ++ [f]).filter fun f => f ≠ [] ∧ f ≠ ['.']) = done.filter fun f => f ≠ [] ∧ f ≠ ['.'] := by
        simp [hf]
      have ih := madeAll_spec l (done ++ [f]) F hs' hd' (by rw [hn]; exact h0)
      rw [hn] at ih
      have hl : ((f :: l).filter fun f => f ≠ [] ∧ f ≠ ['.']) = l.filter fun f => f ≠ [] ∧ f ≠ ['.'] := by simp [hf]
      rw [hl]
      exact ih
    · rw [if_neg hf]
      have hw : wayTo (slashed (done ++ [f])) = some ((done ++ [f]).filter fun f => f ≠ [] ∧ f ≠ ['.']) :=
        wayTo_slashed (fun g hg => hs' g (by rw [List.mem_append]; exact .inl hg)) fun hc => hd' (by rw [List.mem_append]; exact .inl hc)
      by_cases hf0 : f = []
      · have hn : ((done ++ [f]).filter fun f => f ≠ [] ∧ f ≠ ['.']) = done.filter fun f => f ≠ [] ∧ f ≠ ['.'] := by
          simp [hf0]
        have hl : ((f :: l).filter fun f => f ≠ [] ∧ f ≠ ['.']) = l.filter fun f => f ≠ [] ∧ f ≠ ['.'] := by simp [hf0]
        rw [hl]
        rw [hn] at hw
        have ih := fun (F : Folders) h => madeAll_spec l (done ++ [f]) F hs' hd' h
        rw [hn] at ih
        have mk : Made F (slashed (done ++ [f])) F := by
          refine ⟨_, hw, fun d => ⟨.inl, ?_⟩⟩
          rintro (h | ⟨rfl, -⟩)
          · exact h
          · exact h0
        refine ⟨?_, ?_⟩
        · obtain ⟨F', hF'⟩ := (ih F h0).1
          exact ⟨F', .cons mk hF'⟩
        · intro F' h d
          cases h with
          | cons hm hr =>
            rename_i F1
            obtain ⟨w, hw', hm⟩ := hm
            rw [hw] at hw'
            cases hw'
            have hF1 : F1 (done.filter fun f => f ≠ [] ∧ f ≠ ['.']) := (hm _).2 (.inl h0)
            rw [(ih F1 hF1).2 F' hr d, hm]
            constructor
            · rintro ((h | ⟨rfl, -⟩) | h)
              · exact .inl h
              · exact .inl h0
              · exact .inr h
            · rintro (h | h)
              · exact .inl (.inl h)
              · exact .inr h
      · have hn : ((done ++ [f]).filter fun f => f ≠ [] ∧ f ≠ ['.']) =
            (done.filter fun f => f ≠ [] ∧ f ≠ ['.']) ++ [f] := by simp [hf0, hf]
        have hl : ((f :: l).filter fun f => f ≠ [] ∧ f ≠ ['.']) = f :: l.filter fun f => f ≠ [] ∧ f ≠ ['.'] := by
          simp [hf0, hf]
        rw [hl]
        rw [hn] at hw
        have ih := fun (F : Folders) h => madeAll_spec l (done ++ [f]) F hs' hd' h
        rw [hn] at ih
        refine ⟨?_, ?_⟩
        · obtain ⟨F', hF'⟩ := (ih (fun d => F d ∨ d = (done.filter fun f => f ≠ [] ∧ f ≠ ['.']) ++ [f]) (.inr rfl)).1
          refine ⟨F', .cons ⟨_, hw, fun d => ?_⟩ hF'⟩
          rw [List.dropLast_concat]
          exact ⟨fun h => h.imp id fun h => ⟨h, h0⟩, fun h => h.imp id fun h => h.1⟩
        · intro F' h d
          cases h with
          | cons hm hr =>
            rename_i F1
            obtain ⟨w, hw', hm⟩ := hm
            rw [hw] at hw'
            cases hw'
            rw [List.dropLast_concat] at hm
            rw [(ih F1 ((hm _).2 (.inr ⟨rfl, h0⟩))).2 F' hr d, hm]
            constructor
            · rintro ((h | ⟨rfl, -⟩) | ⟨t, ht, rfl⟩)
              · exact .inl h
              · exact .inr ⟨[f], by simp, rfl⟩
              · exact .inr ⟨f :: t, by simpa using ht, by simp⟩
            · rintro (h | ⟨t, ht, rfl⟩)
              · exact .inl (.inl h)
              · cases t with
                | nil => exact .inl (.inl (by simpa using h0))
                | cons x t =>
                  rw [List.cons_prefix_cons] at ht
                  obtain ⟨rfl, ht⟩ := ht
                  exact .inr ⟨t, ht, by simp⟩

end Verif
