import Verif.CombSpec
import Mathlib.Data.List.Chain
import Mathlib.Tactic.Linarith
import Mathlib.Tactic.Ring
import Mathlib.Tactic.FieldSimp
import Mathlib.Algebra.BigOperators.Group.List.Basic
import Mathlib.Algebra.Order.BigOperators.Group.List
import Mathlib.Algebra.Order.Field.Basic

/-!
# Lemmas on combinations
-/

namespace Verif
open Res

/-! ### The carries -/

theorem fillDown (t : List Int) (z : Int) (i : Nat) (p : List Int) (hp : p.length = i + 1) (q : Nat) (hq : q ≤ i + 1)
    (r : List Int) (hr : r = p.take q ++ List.replicate (i + 1 - q) z) :
    foldRes (fun v j => do
      let z ← vget v (i + 1)
      vset v j z) (r ++ z :: t) (List.range q).reverse = ok (List.replicate (i + 1) z ++ z :: t) := by
  induction q generalizing r with
  | zero =>
    subst hr
    simp
  | succ q ih =>
    have hl : r.length = i + 1 := by
      rw [hr, List.length_append, List.length_take, List.length_replicate]
      omega
    rw [List.range_succ, List.reverse_append, List.reverse_singleton, List.singleton_append, foldRes_cons]
    have h1 : vget (r ++ z :: t) (i + 1) = ok z := by
      rw [vget_eq_ok, List.getElem?_append_right (by omega), hl, Nat.sub_self]
      rfl
    have h2 : vset (r ++ z :: t) q z = ok (r.set q z ++ z :: t) := by
      rw [vset_of_lt _ (by rw [List.length_append]; omega), List.set_append_left _ _ (by omega)]
    rw [h1, ok_bind, h2, ok_bind]
    refine ih (by omega) _ ?_
    rw [hr]
    apply List.ext_getElem?
    intro j
    rw [List.getElem?_set]
    have hlen : (p.take (q + 1) ++ List.replicate (i + 1 - (q + 1)) z).length = i + 1 := by rw [← hr]; exact hl
    by_cases hj : q = j
    · subst hj
      rw [if_pos rfl, if_pos (by omega), List.getElem?_append_right (by rw [List.length_take]; omega), List.length_take,
        List.getElem?_replicate, if_pos (by omega)]
    · rw [if_neg hj]
      by_cases hj' : j < q
      · rw [List.getElem?_append_left (by rw [List.length_take]; omega),
          List.getElem?_append_left (by rw [List.length_take]; omega), List.getElem?_take_of_lt (by omega),
          List.getElem?_take_of_lt hj']
      · rw [List.getElem?_append_right (by rw [List.length_take]; omega),
          List.getElem?_append_right (by rw [List.length_take]; omega), List.length_take, List.length_take,
          List.getElem?_replicate, List.getElem?_replicate]
        by_cases hji : j < i + 1
        · rw [if_pos (by omega), if_pos (by omega)]
        · rw [if_neg (by omega), if_neg (by omega)]

theorem combStep_carry (m : Int) (p t : List Int) (x y : Int) (hx : m < x) :
    combStep m (p ++ x :: y :: t) p.length = ok (List.replicate (p.length + 2) (y + 1) ++ t) := by
  have h1 : vget (p ++ x :: y :: t) p.length = ok x := by
    rw [vget_eq_ok, List.getElem?_append_right le_rfl, Nat.sub_self]
    rfl
  have h2 : vget (p ++ x :: y :: t) (p.length + 1) = ok y := by
    rw [vget_eq_ok, List.getElem?_append_right (by omega), Nat.add_sub_cancel_left]
    rfl
  have h3 : vset (p ++ x :: y :: t) (p.length + 1) (y + 1) = ok ((p ++ [x]) ++ (y + 1) :: t) := by
    rw [vset_of_lt _ (by rw [List.length_append]; simp only [List.length_cons]; omega), List.set_append_right _ _ (by omega),
      Nat.add_sub_cancel_left]
    simp
  unfold combStep
  rw [h1, ok_bind, if_pos hx, h2, ok_bind, h3, ok_bind,
    fillDown t (y + 1) p.length (p ++ [x]) (by simp) (p.length + 1) le_rfl (p ++ [x])
      (by rw [List.take_of_length_le (by simp)]; simp)]
  congr 1
  rw [show p.length + 2 = (p.length + 1) + 1 by rfl, List.replicate_succ' (n := p.length + 1), List.append_assoc]
  rfl

theorem combStep_none (m : Int) (v : List Int) (i : Nat) (hi : i < v.length) (h : ∀ x, v[i]? = some x → x ≤ m) :
    combStep m v i = ok v := by
  unfold combStep
  obtain ⟨x, hx⟩ : ∃ x, v[i]? = some x := ⟨_, List.getElem?_eq_getElem hi⟩
  rw [vget_eq_ok.2 hx, ok_bind, if_neg]
  have := h x hx
  omega

theorem carry_none (m : Int) (v : List Int) (is : List Nat) (hi : ∀ i ∈ is, i < v.length)
    (h : ∀ i ∈ is, ∀ x, v[i]? = some x → x ≤ m) : foldRes (combStep m) v is = ok v := by
  induction is with
  | nil => rfl
  | cons i is ih =>
    rw [foldRes_cons, combStep_none m v i (hi i (by simp)) (h i (by simp)), ok_bind]
    exact ih (fun i h => hi i (List.mem_cons_of_mem _ h)) fun i hi => h i (List.mem_cons_of_mem _ hi)

/-- The carries through digits that are full. -/
theorem carry_full (m : Int) (c : Nat) (q : Nat) (a : Int) (t : List Int) (hc : 0 < c) :
    foldRes (combStep m) (List.replicate c (m + 1) ++ (List.replicate q m ++ a :: t)) (List.range' (c - 1) (q + 1)) =
      ok (List.replicate (c + q + 1) (a + 1) ++ t) := by
  obtain ⟨c, rfl⟩ : ∃ d, c = d + 1 := ⟨c - 1, by omega⟩
  rw [Nat.add_sub_cancel]
  clear hc
  have hsplit : ∀ (u : List Int), List.replicate (c + 1) (m + 1) ++ u = List.replicate c (m + 1) ++ (m + 1) :: u := by
    intro u
    rw [List.replicate_succ', List.append_assoc]
    rfl
  induction q generalizing c with
  | zero =>
    have := combStep_carry m (List.replicate c (m + 1)) t (m + 1) a (by omega)
    rw [List.length_replicate] at this
    rw [List.replicate_zero, List.nil_append, hsplit, Nat.zero_add, List.range'_one, foldRes_cons, this]
    rfl
  | succ q ih =>
    have := combStep_carry m (List.replicate c (m + 1)) (List.replicate q m ++ a :: t) (m + 1) m (by omega)
    rw [List.length_replicate] at this
    rw [hsplit, List.replicate_succ, List.cons_append, List.range'_succ, foldRes_cons, this, ok_bind]
    have h := ih (c + 1) (fun u => by rw [List.replicate_succ', List.append_assoc]; rfl)
    rw [h]
    congr 3
    omega

/-! ### The list of combinations -/

/-- The combinations of `k` of the `r` numbers from `lo` on, in the order of the program. -/
def combs : Nat → Int → Nat → List (List Int)
  | 0, _, _ => [[]]
  | _ + 1, _, 0 => []
  | k + 1, lo, r + 1 => (combs k lo (r + 1)).map (· ++ [lo]) ++ combs (k + 1) (lo + 1) r
termination_by k _ r => (k, r)

theorem mem_combs (k : Nat) (lo : Int) (r : Nat) (w : List Int) : w ∈ combs k lo r ↔
    w.length = k ∧ (∀ x ∈ w, lo ≤ x ∧ x < lo + r) ∧ w.Pairwise (· ≥ ·) := by
  induction k, lo, r using combs.induct generalizing w with
  | case1 lo r =>
    rw [combs, List.mem_singleton]
    constructor
    · rintro rfl
      simp
    · rintro ⟨h, -⟩
      exact List.length_eq_zero_iff.1 h
  | case2 lo k =>
    rw [combs]
    simp only [List.not_mem_nil, false_iff]
    rintro ⟨h1, h2, -⟩
    obtain ⟨x, hx⟩ : ∃ x, x ∈ w := List.exists_mem_of_length_pos (by omega)
    have := h2 x hx
    omega
  | case3 k lo r ih1 ih2 =>
    rw [combs, List.mem_append, List.mem_map, ih2]
    constructor
    · rintro (⟨u, hu, rfl⟩ | ⟨h1, h2, h3⟩)
      · obtain ⟨h1, h2, h3⟩ := (ih1 u).1 hu
        refine ⟨by simp [h1], ?_, ?_⟩
        · intro x hx
          rcases List.mem_append.1 hx with hx | hx
          · exact h2 x hx
          · obtain rfl : x = lo := by simpa using hx
            push_cast
            omega
        · rw [List.pairwise_append]
          refine ⟨h3, List.pairwise_singleton _ _, ?_⟩
          intro x hx y hy
          obtain rfl : y = lo := by simpa using hy
          exact (h2 x hx).1
      · refine ⟨h1, fun x hx => ?_, h3⟩
        have := h2 x hx
        push_cast
        omega
    · rintro ⟨h1, h2, h3⟩
      obtain ⟨u, d, rfl⟩ : ∃ u d, w = u ++ [d] := by
        refine ⟨w.dropLast, w.getLast (by rintro rfl; simp at h1), (List.dropLast_append_getLast _).symm⟩
      rw [List.pairwise_append] at h3
      obtain ⟨h3, -, h4⟩ := h3
      have h4' : ∀ x ∈ u, d ≤ x := fun x hx => h4 x hx d (by simp)
      have hd := h2 d (by simp)
      by_cases hlo : d = lo
      · subst hlo
        exact Or.inl ⟨u, (ih1 u).2 ⟨by simpa using h1, fun x hx => h2 x (by simp [hx]), h3⟩, rfl⟩
      · right
        refine ⟨h1, ?_, ?_⟩
        · intro x hx
          have hx2 := h2 x hx
          have : d ≤ x := by
            rcases List.mem_append.1 hx with hx | hx
            · exact h4' x hx
            · exact le_of_eq (List.mem_singleton.1 hx).symm
          push_cast at hx2
          omega
        · rw [List.pairwise_append]
          exact ⟨h3, List.pairwise_singleton _ _, h4⟩

theorem length_combs (k : Nat) (lo : Int) (r : Nat) : (combs k lo r).length = Nat.multichoose r k := by
  induction k, lo, r using combs.induct with
  | case1 lo r => rw [combs, Nat.multichoose_zero_right]; rfl
  | case2 lo k => rw [combs, Nat.multichoose_zero_succ]; rfl
  | case3 k lo r ih1 ih2 =>
    rw [combs, List.length_append, List.length_map, ih1, ih2, Nat.multichoose_succ_succ, Nat.add_comm]

theorem sorted_combs (k : Nat) (lo : Int) (r : Nat) :
    (combs k lo r).Pairwise fun a b => List.Lex (· < ·) a.reverse b.reverse := by
  induction k, lo, r using combs.induct with
  | case1 lo r => rw [combs]; exact List.pairwise_singleton _ _
  | case2 lo k => rw [combs]; exact List.Pairwise.nil
  | case3 k lo r ih1 ih2 =>
    rw [combs, List.pairwise_append]
    refine ⟨?_, ih2, ?_⟩
    · rw [List.pairwise_map]
      refine ih1.imp fun {a b} h => ?_
      rw [List.reverse_append, List.reverse_append]
      exact List.Lex.cons h
    · intro a ha b hb
      obtain ⟨u, hu, rfl⟩ := List.mem_map.1 ha
      obtain ⟨h1, h2, h3⟩ := (mem_combs _ _ _ _).1 hb
      obtain ⟨v, d, rfl⟩ : ∃ v d, b = v ++ [d] :=
        ⟨b.dropLast, b.getLast (by rintro rfl; simp at h1), (List.dropLast_append_getLast _).symm⟩
      rw [List.reverse_append, List.reverse_append]
      refine List.Lex.rel ?_
      have := h2 d (by simp)
      omega

/-- The next combination. -/
def CombNext (m : Int) (w w' : List Int) : Prop :=
  ∃ j a t, a < m ∧ w = List.replicate j m ++ a :: t ∧ w' = List.replicate (j + 1) (a + 1) ++ t

theorem CombNext.append {m : Int} {w w' : List Int} (h : CombNext m w w') (d : Int) :
    CombNext m (w ++ [d]) (w' ++ [d]) := by
  obtain ⟨j, a, t, ha, rfl, rfl⟩ := h
  exact ⟨j, a, t ++ [d], ha, by simp, by simp⟩

/-- The combinations follow each other. -/
theorem chain_combs (k : Nat) (lo : Int) (r : Nat) (hr : 0 < r) :
    (combs k lo r).head? = some (List.replicate k lo) ∧ (combs k lo r).getLast? = some (List.replicate k (lo + r - 1)) ∧
      (combs k lo r).IsChain (CombNext (lo + r - 1)) := by
  induction k, lo, r using combs.induct with
  | case1 lo r => rw [combs]; simp
  | case2 lo k => omega
  | case3 k lo r ih1 ih2 =>
    obtain ⟨a1, a2, a3⟩ := ih1 (by omega)
    rw [combs]
    have hne : (combs k lo (r + 1)).map (· ++ [lo]) ≠ [] := by
      intro h
      rw [List.map_eq_nil_iff] at h
      rw [h] at a1
      simp at a1
    have hhead : ((combs k lo (r + 1)).map (· ++ [lo]) ++ combs (k + 1) (lo + 1) r).head? =
        some (List.replicate (k + 1) lo) := by
      rw [List.head?_append, List.head?_map, a1, List.replicate_succ']
      rfl
    have hch : ((combs k lo (r + 1)).map (· ++ [lo])).IsChain (CombNext (lo + ((r + 1 : Nat) : Int) - 1)) := by
      rw [List.isChain_map]
      exact a3.imp fun _ _ h => h.append lo
    rcases Nat.eq_zero_or_pos r with rfl | hr'
    · have hnil : combs (k + 1) (lo + 1) 0 = [] := by rw [combs]
      rw [hnil, List.append_nil] at hhead ⊢
      refine ⟨hhead, ?_, hch⟩
      rw [List.getLast?_map, a2, List.replicate_succ']
      simp
    · obtain ⟨b1, b2, b3⟩ := ih2 hr'
      have hm : lo + 1 + (r : Int) - 1 = lo + ((r + 1 : Nat) : Int) - 1 := by push_cast; ring
      rw [hm] at b2 b3
      refine ⟨hhead, ?_, ?_⟩
      · rw [List.getLast?_append, b2]
        rfl
      · rw [List.isChain_append]
        refine ⟨hch, b3, ?_⟩
        intro x hx y hy
        rw [List.getLast?_map, a2] at hx
        rw [b1] at hy
        simp only [Option.map_some, Option.mem_def, Option.some.injEq] at hx hy
        subst hx
        subst hy
        refine ⟨k, lo, [], ?_, rfl, by simp⟩
        push_cast
        omega

/-- The step of the program. -/
theorem carry_next {m : Int} {k : Nat} {w w' : List Int} (hk : w.length = k) (hw : ∀ x ∈ w, x ≤ m) (h : CombNext m w w')
    (hm : 0 ≤ m) :
    ∃ v, (∃ x0, vget (w ++ [0]) 0 = ok x0 ∧ vset (w ++ [0]) 0 (x0 + 1) = ok v) ∧
      foldRes (combStep m) v (List.range k) = ok (w' ++ [0]) := by
  obtain ⟨j, a, t, ha, rfl, rfl⟩ := h
  have ht : ∀ x ∈ t, x ≤ m := fun x hx => hw x (by simp [hx])
  have hfin : ∀ (is : List Nat), (∀ i ∈ is, i < k) →
      foldRes (combStep m) ((List.replicate (j + 1) (a + 1) ++ t) ++ [0]) is =
        ok ((List.replicate (j + 1) (a + 1) ++ t) ++ [0]) := by
    intro is his
    refine carry_none m _ is (fun i hi => ?_) (fun i hi x hx => ?_)
    · have := his i hi
      simp only [List.length_append, List.length_replicate, List.length_cons, List.length_nil] at hk ⊢
      omega
    · have hx' := List.mem_of_getElem? hx
      simp only [List.mem_append, List.mem_replicate, List.mem_singleton] at hx'
      rcases hx' with (⟨-, rfl⟩ | hx') | rfl
      · omega
      · exact ht x hx'
      · exact hm
  rcases j with _ | j
  · refine ⟨(List.replicate (0 + 1) (a + 1) ++ t) ++ [0], ⟨a, rfl, rfl⟩, hfin _ fun i hi => List.mem_range.1 hi⟩
  · refine ⟨List.replicate 1 (m + 1) ++ (List.replicate j m ++ a :: (t ++ [0])), ⟨m, ?_, ?_⟩, ?_⟩
    · rw [List.replicate_succ]
      rfl
    · rw [List.replicate_succ, List.cons_append, List.cons_append, vset_of_lt _ (by simp)]
      simp
    · have hkj : k = (j + 1) + (t.length + 1) := by
        simp only [List.length_append, List.length_replicate, List.length_cons] at hk
        omega
      have hr : List.range k = List.range' 0 (j + 1) ++ List.range' (j + 1) (t.length + 1) := by
        rw [List.range_eq_range', hkj, ← List.range'_append_1, Nat.zero_add]
      have hfull := carry_full m 1 j a (t ++ [0]) (by omega)
      rw [hr, foldRes_append, show (0 : Nat) = 1 - 1 by rfl, hfull, ok_bind]
      have : List.replicate (1 + j + 1) (a + 1) ++ (t ++ [0]) =
          (List.replicate (j + 1 + 1) (a + 1) ++ t) ++ [0] := by
        rw [← List.append_assoc, Nat.add_comm 1 j]
      rw [this]
      refine hfin _ fun i hi => ?_
      rw [List.mem_range'_1] at hi
      omega

/-- The step from the last combination. -/
theorem carry_last {m : Int} (k : Nat) :
    ∃ v, (∃ x0, vget (List.replicate k m ++ [0]) 0 = ok x0 ∧ vset (List.replicate k m ++ [0]) 0 (x0 + 1) = ok v) ∧
      foldRes (combStep m) v (List.range k) = ok (List.replicate (k + 1) 1) := by
  rcases k with _ | k
  · exact ⟨[1], ⟨0, rfl, rfl⟩, rfl⟩
  · refine ⟨List.replicate 1 (m + 1) ++ (List.replicate k m ++ 0 :: []), ⟨m, ?_, ?_⟩, ?_⟩
    · rw [List.replicate_succ]
      rfl
    · rw [List.replicate_succ, List.cons_append, vset_of_lt _ (by simp)]
      simp
    · have hfull := carry_full m 1 k 0 [] (by omega)
      rw [List.range_eq_range', show (0 : Nat) = 1 - 1 by rfl, hfull, List.append_nil, Nat.add_comm 1 k]
      rfl

theorem combLoop_run {m : Int} {k : Nat} (hm : 0 ≤ m) (L : List (List Int)) (w : List Int) (hL : (w :: L).IsChain (CombNext m))
    (hlast : (w :: L).getLast? = some (List.replicate k m)) (hall : ∀ u ∈ w :: L, u.length = k ∧ ∀ x ∈ u, x ≤ m)
    (fuel : Nat) (hf : L.length + 1 < fuel) (v : List Int) (hv : foldRes (combStep m) v (List.range k) = ok (w ++ [0]))
    (acc : List (List Int)) : combLoop m k fuel v acc = ok (acc ++ w :: L) := by
  induction L generalizing w fuel v acc with
  | nil =>
    obtain ⟨fuel, rfl⟩ : ∃ f, fuel = f + 2 := ⟨fuel - 2, by simp at hf; omega⟩
    have hw : w = List.replicate k m := by simpa using hlast
    obtain ⟨v', ⟨x0, e0, e1⟩, e2⟩ := carry_last (m := m) k
    have hk : vget (w ++ [0]) k = ok 0 := by
      rw [vget_eq_ok, hw, List.getElem?_append_right (by simp)]
      simp
    rw [combLoop, hv, ok_bind, hk, ok_bind, if_neg (by omega), hw, e0, ok_bind, e1, ok_bind, combLoop, e2, ok_bind]
    have hk' : vget (List.replicate (k + 1) (1 : Int)) k = ok 1 := by
      rw [vget_eq_ok, List.getElem?_replicate, if_pos (by omega)]
    rw [hk', ok_bind, if_pos (by omega)]
    simp
  | cons w' L ih =>
    obtain ⟨fuel, rfl⟩ : ∃ f, fuel = f + 1 := ⟨fuel - 1, by simp at hf; omega⟩
    rw [List.isChain_cons_cons] at hL
    obtain ⟨hn, hL⟩ := hL
    obtain ⟨hwk, hwm⟩ := hall w (by simp)
    obtain ⟨v', ⟨x0, e0, e1⟩, e2⟩ := carry_next hwk hwm hn hm
    have hk : vget (w ++ [0]) k = ok 0 := by
      rw [vget_eq_ok, List.getElem?_append_right (by omega), hwk, Nat.sub_self]
      rfl
    rw [combLoop, hv, ok_bind, hk, ok_bind, if_neg (by omega), e0, ok_bind, e1, ok_bind]
    rw [ih w' hL (by rw [← hlast, List.getLast?_cons_cons]) (fun u hu => hall u (List.mem_cons_of_mem _ hu)) fuel
      (by simp only [List.length_cons] at hf; omega) v' e2]
    simp

/-! ### Sums -/

theorem foldl_add {K β : Type} [Field K] (f : β → K) (l : List β) (s : K) :
    l.foldl (fun s b => s + f b) s = s + (l.map f).sum := by
  induction l generalizing s with
  | nil => simp
  | cons b l ih =>
    rw [List.foldl_cons, ih, List.map_cons, List.sum_cons]
    ring

theorem accumulate_eq {K : Type} [Field K] (l : List K) : accumulate l = l.sum := by
  unfold accumulate
  have := foldl_add (fun x : K => x) l 0
  simpa using this

theorem innerProduct_eq {K : Type} [Field K] (l l' : List K) :
    innerProduct l l' = ((l.zip l').map fun p => p.1 * p.2).sum := by
  unfold innerProduct
  have := foldl_add (fun p : K × K => p.1 * p.2) (l.zip l') 0
  simpa using this

theorem squares_eq {K : Type} [Field K] (P : List (K × K)) (m b : K) : squares P m b =
    (P.map fun p => p.2 * p.2).sum - 2 * m * (P.map fun p => p.1 * p.2).sum - 2 * b * (P.map Prod.snd).sum +
      m * m * (P.map fun p => p.1 * p.1).sum + 2 * m * b * (P.map Prod.fst).sum + P.length * (b * b) := by
  unfold squares
  induction P with
  | nil => simp
  | cons p P ih =>
    simp only [List.map_cons, List.sum_cons, List.length_cons, ih]
    push_cast
    ring

theorem zip_self_mul {K : Type} [Field K] (l : List K) : ((l.zip l).map fun p => p.1 * p.2) = l.map fun x => x * x := by
  induction l with
  | nil => rfl
  | cons a l ih => simp [ih]

theorem variance {K : Type} [Field K] [LinearOrder K] [IsStrictOrderedRing K] (l : List K) (c : K) :
    (l.map fun x => (x - c) ^ 2).sum = (l.map fun x => x * x).sum - 2 * c * l.sum + l.length * (c * c) := by
  induction l with
  | nil => simp
  | cons a l ih =>
    simp only [List.map_cons, List.sum_cons, List.length_cons, ih]
    push_cast
    ring

end Verif
