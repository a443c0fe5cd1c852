import Verif.HullScanLemmas

/-
The stack of the algorithm of Graham when aligned points are kept.
-/
namespace Verif

open Res

variable {K : Type} [Field K] [LinearOrder K] [IsStrictOrderedRing K]

/-- `x` is in the first direction of the points `m` around `p`. -/
def IsFirstDir (m : List (V3 K)) (p x : V3 K) : Prop := ∀ q ∈ m, 0 ≤ cw p x q

/-- `x` is in the last direction of the points `m` around `p`. -/
def IsLastDir (m : List (V3 K)) (p x : V3 K) : Prop := ∀ q ∈ m, 0 ≤ cw p q x

/-- The order in which the points are processed: in the last direction they come closer to `p`. -/
def AfterC (m : List (V3 K)) (p a b : V3 K) : Prop :=
  0 < cw p a b ∨ (¬ IsLastDir m p a ∧ ∃ s, 1 < s ∧ Along p a b s) ∨ (IsLastDir m p a ∧ ∃ s, 0 < s ∧ s < 1 ∧ Along p a b s)

theorem AfterC.nonneg {m : List (V3 K)} {p a b : V3 K} (h : AfterC m p a b) : 0 ≤ cw p a b := by
  rcases h with h | ⟨-, s, -, h⟩ | ⟨-, s, -, -, h⟩
  · exact h.le
  · rw [along_cw_right h, cw_self, mul_zero]
  · rw [along_cw_right h, cw_self, mul_zero]

/-- How `y` and a point `x` above it on the stack are placed. -/
def GoodPair (m : List (V3 K)) (p y x : V3 K) : Prop :=
  0 < cw p y x ∨ (IsFirstDir m p y ∧ ∃ s, 1 < s ∧ Along p y x s) ∨ (IsLastDir m p y ∧ ∃ s, 0 < s ∧ s < 1 ∧ Along p y x s)

theorem GoodPair.nonneg {m : List (V3 K)} {p y x : V3 K} (h : GoodPair m p y x) : 0 ≤ cw p y x := by
  rcases h with h | ⟨-, s, -, h⟩ | ⟨-, s, -, -, h⟩
  · exact h.le
  · rw [along_cw_right h, cw_self, mul_zero]
  · rw [along_cw_right h, cw_self, mul_zero]

/-- The points of the stack above the lowest point `p`, the last one first. -/
structure StackC (m : List (V3 K)) (p : V3 K) (u : List (V3 K)) : Prop where
  pair : u.Pairwise fun x y => GoodPair m p y x
  triple : u.Triplewise fun x y z => 0 ≤ area2 x y z
  bottom : ∀ b, u.getLast? = some b → IsFirstDir m p b

/-- The condition with which the inner loop ends. -/
def TopC (r : V3 K) : List (V3 K) → Prop
  | [] => True
  | [_] => True
  | b :: a :: _ => 0 ≤ area2 r b a

/-- Why a point was removed. -/
def Popped (m : List (V3 K)) (p b : V3 K) : Prop :=
  ∃ a ∈ m, ∃ r ∈ m, 0 < cw p a b ∧ 0 < cw p a r ∧ 0 ≤ cw p b r ∧ area2 r b a < 0 ∧
    (cw p b r = 0 → ∃ z ∈ m, 0 < cw p r z)

theorem isLast_along {m : List (V3 K)} {p a b : V3 K} {s : K} (hs : 0 < s) (h : Along p a b s)
    (ha : IsLastDir m p a) : IsLastDir m p b := fun q hq => by
  rw [along_cw_right h]; exact mul_nonneg hs.le (ha q hq)

theorem isFirst_along {m : List (V3 K)} {p a b : V3 K} {s : K} (hs : 0 < s) (h : Along p a b s)
    (ha : IsFirstDir m p a) : IsFirstDir m p b := fun q hq => by
  rw [along_cw_left h]; exact mul_nonneg hs.le (ha q hq)

theorem AfterC.last {m : List (V3 K)} {p b r : V3 K} (h : AfterC m p b r) (hb : IsLastDir m p b) (hr : r ∈ m) :
    ∃ s, 0 < s ∧ s < 1 ∧ Along p b r s := by
  rcases h with h | ⟨h, -⟩ | ⟨-, h⟩
  · have := hb r hr
    rw [cw_swap] at this
    linarith
  · exact absurd hb h
  · exact h

/-- Three points turn right or are aligned if the first two are in the first direction. -/
theorem first_turn {m : List (V3 K)} {p y x r : V3 K} (hy : IsFirstDir m p y) {s : K} (hs : 1 < s)
    (h : Along p y x s) (hr : r ∈ m) : 0 ≤ area2 r x y := by
  rw [turn_eq p, along_cw_right h, cw_self, along_cw_left h]
  have := hy r hr
  nlinarith

/-- Three points turn right or are aligned if the last two are in the last direction. -/
theorem last_turn {p y x r : V3 K} {s : K} (hs : s < 1) (h : Along p x r s) (hyx : 0 ≤ cw p y x) :
    0 ≤ area2 r x y := by
  rw [turn_eq p, along_cw_right h, cw_self, along_cw_right h]
  nlinarith

theorem first_before {m : List (V3 K)} {p y a : V3 K} (ha : IsFirstDir m p a) (hy : y ∈ m) (h : 0 ≤ cw p y a) :
    cw p y a = 0 := by
  have := ha y hy
  rw [cw_swap] at this
  linarith

theorem StackC.push {m : List (V3 K)} {p r : V3 K} {u : List (V3 K)} (h : StackC m p u)
    (hm : ∀ x ∈ u, x ∈ m) (hrm : r ∈ m) (hU : ∀ x ∈ m, Upper p x) (hz : p.z = 0 ∧ ∀ x ∈ m, x.z = 0)
    (hf : u = [] → IsFirstDir m p r) (ha : ∀ x ∈ u, AfterC m p x r)
    (ht : TopC r u) : StackC m p (r :: u) := by
  have hbot : ∀ b, (r :: u).getLast? = some b → IsFirstDir m p b := by
    intro b hb
    cases u with
    | nil =>
      obtain rfl : r = b := by simpa using hb
      exact hf rfl
    | cons c t => exact h.bottom b (by rwa [List.getLast?_cons_cons] at hb)
  match u, h, hm, ha, ht, hbot with
  | [], _, _, _, _, hbot => exact ⟨by simp, by simp, hbot⟩
  | [b], h, hm, ha, ht, hbot =>
    refine ⟨?_, by simp, hbot⟩
    have hb := h.bottom b rfl
    simp only [List.pairwise_cons, List.mem_singleton, forall_eq, List.not_mem_nil, false_implies, implies_true,
      List.Pairwise.nil, and_true]
    rcases ha b (by simp) with h | ⟨-, h⟩ | h
    · exact Or.inl h
    · exact Or.inr (Or.inl ⟨hb, h⟩)
    · exact Or.inr (Or.inr h)
  | b :: a :: t, h, hm, ha, ht, hbot =>
    obtain ⟨hp, htr, -⟩ := h
    have hp' := hp
    rw [List.pairwise_cons] at hp
    obtain ⟨hpb, hpt⟩ := hp
    have htr' := htr
    rw [List.triplewise_cons] at htr
    obtain ⟨htb, htt⟩ := htr
    simp only [TopC] at ht
    have hbm := hm b (by simp)
    have ham := hm a (by simp)
    have hbr := (ha b (by simp)).nonneg
    have hab := hpb a (by simp)
    -- the new pairs
    have hgood : ∀ x ∈ b :: a :: t, GoodPair m p x r := by
      intro x hx
      rcases ha x hx with h | ⟨hnl, s, hs, hal⟩ | h
      · exact Or.inl h
      · by_cases hfx : IsFirstDir m p x
        · exact Or.inr (Or.inl ⟨hfx, s, hs, hal⟩)
        · exfalso
          have hxr : cw p x r = 0 := by rw [along_cw_right hal, cw_self, mul_zero]
          -- `x` is the top of the stack
          have hxb : x = b := by
            by_contra hne
            have hx' : x ∈ a :: t := by
              rcases List.mem_cons.1 hx with h | h
              · exact absurd h hne
              · exact h
            have hxm := hm x hx
            obtain ⟨h1, -⟩ := (cw_trans (hU x hxm) (hU b hbm) (hU r hrm) (hpb x hx').nonneg hbr).2 hxr
            rcases hpb x hx' with h | h | h
            · linarith
            · exact hfx h.1
            · exact hnl h.1
          subst hxb
          have hz0 : cw p a x = 0 := by
            rw [turn_eq p, along_cw_right hal, cw_self, along_cw_right hal] at ht
            have := hab.nonneg
            nlinarith
          rcases hab with h | ⟨h, s', hs', h'⟩ | ⟨h, s', hs', -, h'⟩
          · linarith
          · exact hfx (isFirst_along (by linarith) h' h)
          · exact hnl (isLast_along hs' h' h)
      · exact Or.inr (Or.inr h)
    have hby : ∀ y ∈ a :: t, 0 ≤ area2 r b y := by
      intro y hy
      rcases List.mem_cons.1 hy with rfl | hy'
      · exact ht
      · have hym := hm y (by simp [hy'])
        have hya : GoodPair m p y a := (List.pairwise_cons.1 hpt).1 y hy'
        rcases hab with h | ⟨hF, s, hs, hal⟩ | ⟨hL, s, hs, hs1, hal⟩
        · have e := pluecker2 p y a b r
          have h1 : 0 ≤ area2 b a y := (List.pairwise_cons.1 htb).1 y hy'
          have h2 : 0 ≤ cw p y b := (hpb y hy).nonneg
          have : 0 ≤ area2 r b y * cw p a b := by
            rw [e]; exact add_nonneg (mul_nonneg ht h2) (mul_nonneg h1 hbr)
          exact nonneg_of_mul_nonneg_left this h
        · have e1 := first_before hF hym hya.nonneg
          have e2 : cw p y b = 0 := by rw [along_cw_right hal, e1, mul_zero]
          rcases hpb y hy with h | ⟨hF', s', hs', hal'⟩ | ⟨hL', s', hs', hs1', hal'⟩
          · linarith
          · exact first_turn hF' hs' hal' hrm
          · obtain ⟨s'', -, hs1'', hal''⟩ := (ha b (by simp)).last (isLast_along hs' hal' hL') hrm
            exact last_turn hs1'' hal'' e2.ge
        · obtain ⟨s'', -, hs1'', hal''⟩ := (ha b (by simp)).last (isLast_along hs hal hL) hrm
          exact last_turn hs1'' hal'' (hpb y hy).nonneg
    refine ⟨List.pairwise_cons.2 ⟨hgood, hp'⟩, List.triplewise_cons.2 ⟨List.pairwise_cons.2 ⟨hby, ?_⟩, htr'⟩, hbot⟩
    refine (List.Pairwise.and (List.Pairwise.and_mem.1 hpt) htb).imp ?_
    rintro x y ⟨⟨hx, hy, hyx⟩, hbxy⟩
    have hxm := hm x (List.mem_cons_of_mem _ hx)
    have hym := hm y (List.mem_cons_of_mem _ hy)
    have hxr := hgood x (List.mem_cons_of_mem _ hx)
    rcases hpb x hx with h | ⟨hF, s, hs, hal⟩ | ⟨hL, s, hs, hs1, hal⟩
    · have e := pluecker1 p y x b r
      have : 0 ≤ area2 r x y * cw p x b := by
        rw [e]; exact add_nonneg (mul_nonneg hbxy hxr.nonneg) (mul_nonneg (hby x hx) hyx.nonneg)
      exact nonneg_of_mul_nonneg_left this h
    · have e1 := first_before hF hym hyx.nonneg
      rcases hyx with h | ⟨hF', s', hs', hal'⟩ | ⟨hL', s', hs', hs1', hal'⟩
      · linarith
      · exact first_turn hF' hs' hal' hrm
      · obtain ⟨s'', -, hs1'', hal''⟩ := (ha x (List.mem_cons_of_mem _ hx)).last (isLast_along hs' hal' hL') hrm
        exact last_turn hs1'' hal'' e1.ge
    · obtain ⟨s'', -, hs1'', hal''⟩ := (ha x (List.mem_cons_of_mem _ hx)).last hL hrm
      exact last_turn hs1'' hal'' hyx.nonneg

/-- The inner loop. -/
theorem popC_spec {keep : V3 K → V3 K → V3 K → Bool} {m : List (V3 K)} {p r : V3 K} {u : List (V3 K)}
    (h : StackC m p u) (hm : ∀ x ∈ u, x ∈ m) (hrm : r ∈ m) (hU : ∀ x ∈ m, Upper p x)
    (hz : p.z = 0 ∧ ∀ x ∈ m, x.z = 0) (ha : ∀ x ∈ u, AfterC m p x r)
    (hk : ∀ a ∈ p :: u, ∀ b ∈ u, keep a b r = true ↔ 0 ≤ area2 r b a) :
    ∃ u', hullPop keep r (u ++ [p]) = u' ++ [p] ∧ u' <:+ u ∧ (u ≠ [] → u' ≠ []) ∧ TopC r u' ∧
      ∀ x ∈ u, (x ∈ u' ∨ Popped m p x) ∧ InHull (r :: u' ++ [p]) x := by
  induction u with
  | nil => exact ⟨[], rfl, List.suffix_refl _, id, trivial, by simp⟩
  | cons b u ih =>
    cases u with
    | nil =>
      simp only [List.cons_append, List.nil_append, hullPop]
      have hkp : keep p b r = true := by
        rw [hk p (by simp) b (by simp), turn_pole]
        exact (ha b (by simp)).nonneg
      rw [if_pos hkp]
      refine ⟨[b], rfl, List.suffix_refl _, id, trivial, fun x hx => ⟨Or.inl hx, .pt x ?_⟩⟩
      simp at hx
      simp [hx]
    | cons a t =>
      simp only [List.cons_append, hullPop]
      by_cases hkp : keep a b r = true
      · rw [if_pos hkp]
        refine ⟨b :: a :: t, rfl, List.suffix_refl _, id, (hk a (by simp) b (by simp)).1 hkp,
          fun x hx => ⟨Or.inl hx, .pt x ?_⟩⟩
        simp only [List.cons_append, List.mem_cons, List.mem_append] at hx ⊢
        tauto
      · rw [if_neg hkp]
        have htail : StackC m p (a :: t) := ⟨(List.pairwise_cons.1 h.pair).2, (List.triplewise_cons.1 h.triple).2,
          fun c hc => h.bottom c (by rwa [List.getLast?_cons_cons])⟩
        obtain ⟨u', e, hs, hne, htop, hin⟩ := ih htail (fun x hx => hm x (by simp [hx]))
          (fun x hx => ha x (by simp [hx]))
          (fun x hx y hy => hk x (by
            rcases List.mem_cons.1 hx with rfl | hx
            · simp
            · simp [hx]) y (by simp [hy]))
        refine ⟨u', e, hs.trans (List.suffix_cons _ _), fun _ => hne (by simp), htop, ?_⟩
        intro x hx
        rcases List.mem_cons.1 hx with rfl | hx
        · have hneg : area2 r x a < 0 := not_le.1 fun h => hkp ((hk a (by simp) x (by simp)).2 h)
          have hxm := hm x (by simp)
          have ham := hm a (by simp)
          have hxr := (ha x (by simp)).nonneg
          have har := (ha a (by simp)).nonneg
          have hax : 0 < cw p a x := by
            rcases (List.pairwise_cons.1 h.pair).1 a (by simp) with h | ⟨hF, s, hs, hal⟩ | ⟨hL, s, hs, hs1, hal⟩
            · exact h
            · exact absurd (first_turn hF hs hal hrm) (not_le.2 hneg)
            · obtain ⟨s'', -, hs1'', hal''⟩ := (ha x (by simp)).last (isLast_along hs hal hL) hrm
              refine absurd (last_turn hs1'' hal'' ?_) (not_le.2 hneg)
              rw [along_cw_right hal, cw_self, mul_zero]
          have har' := cw_trans_pos (hU a ham) (hU x hxm) (hU r hrm) hax hxr
          refine ⟨Or.inr ⟨a, ham, r, hrm, hax, har', hxr, hneg, ?_⟩, ?_⟩
          · intro h0
            rcases ha x (by simp) with h | ⟨hnl, s, hs, hal⟩ | ⟨hL, s, hs, hs1, hal⟩
            · linarith
            · unfold IsLastDir at hnl
              push Not at hnl
              obtain ⟨z, hzm, hzx⟩ := hnl
              refine ⟨z, hzm, ?_⟩
              rw [along_cw_left hal]
              rw [cw_swap] at hzx
              exact mul_pos (by linarith) (by linarith)
            · exact absurd (last_turn hs1 hal hax.le) (not_le.2 hneg)
          · exact pop_in_triangle ⟨hz.1, hz.2 a ham, hz.2 x hxm, hz.2 r hrm⟩ (.pt p (by simp)) (hin a (by simp)).2
              (.pt r (by simp)) har' hax.le hxr hneg.le
        · exact hin x hx

/-- The outer loop after the lowest point. -/
theorem scanC_spec {keep : V3 K → V3 K → V3 K → Bool} {m : List (V3 K)} {p : V3 K} {l : List (V3 K)}
    (hl : l.Pairwise (AfterC m p)) (hm : ∀ x ∈ l, x ∈ m) (hU : ∀ x ∈ m, Upper p x)
    (hz : p.z = 0 ∧ ∀ x ∈ m, x.z = 0) (hf : ∀ x, l.head? = some x → IsFirstDir m p x)
    (hk : ∀ a ∈ p :: l, ∀ b ∈ l, ∀ r ∈ l, keep a b r = true ↔ 0 ≤ area2 r b a) :
    ∃ u, hullScan keep (p :: l) = u ++ [p] ∧ StackC m p u ∧ u.Sublist l.reverse ∧ (l ≠ [] → u ≠ []) ∧
      ∀ x ∈ l, (x ∈ u ∨ Popped m p x) ∧ InHull (u ++ [p]) x := by
  unfold hullScan
  simp only [List.foldl_cons, hullPop]
  induction l using List.reverseRecOn with
  | nil => exact ⟨[], rfl, ⟨by simp, by simp, by simp⟩, by simp, by simp, by simp⟩
  | append_singleton l r ih =>
    rw [List.pairwise_append] at hl
    obtain ⟨h1, -, h2⟩ := hl
    obtain ⟨u, e, hok, hsub, hne, hin⟩ := ih h1 (fun x hx => hm x (by simp [hx]))
      (fun x hx => hf x (by
        cases l with
        | nil => simp at hx
        | cons c l => simpa using hx))
      (fun a ha b hb c hc => hk a (by
        rcases List.mem_cons.1 ha with rfl | ha
        · simp
        · simp [ha]) b (by simp [hb]) c (by simp [hc]))
    have hmem : ∀ x ∈ u, x ∈ l := fun x hx => by simpa using hsub.subset hx
    have hrm := hm r (by simp)
    rw [List.foldl_append, e]
    simp only [List.foldl_cons, List.foldl_nil]
    obtain ⟨u', e', hs, hne', htop, hin'⟩ := popC_spec (keep := keep) (r := r) hok
      (fun x hx => hm x (by simp [hmem x hx])) hrm hU hz (fun x hx => h2 x (hmem x hx) r (by simp))
      (fun a ha b hb => hk a (by
        rcases List.mem_cons.1 ha with rfl | ha
        · simp
        · simp [hmem a ha]) b (by simp [hmem b hb]) r (by simp))
    refine ⟨r :: u', by rw [e']; rfl, ?_, ?_, by simp, ?_⟩
    · have hmem' : ∀ x ∈ u', x ∈ l := fun x hx => hmem x (hs.subset hx)
      refine StackC.push ⟨hok.pair.sublist hs.sublist, triplewise_suffix hs hok.triple, ?_⟩
        (fun x hx => hm x (by simp [hmem' x hx])) hrm hU hz ?_ (fun x hx => h2 x (hmem' x hx) r (by simp)) htop
      · intro b hb
        obtain ⟨w, rfl⟩ := hs
        refine hok.bottom b ?_
        rw [List.getLast?_append, hb]
        rfl
      · intro hu'
        have hu : u = [] := by
          by_contra h
          exact hne' h hu'
        have hl : l = [] := by
          by_contra h
          exact hne h hu
        exact hf r (by simp [hl])
    · rw [List.reverse_append, List.reverse_singleton, List.singleton_append]
      exact (hs.sublist.trans hsub).cons_cons r
    · intro x hx
      rcases List.mem_append.1 hx with hx | hx
      · refine ⟨?_, InHull.trans ?_ (hin x hx).2⟩
        · rcases (hin x hx).1 with h | h
          · rcases (hin' x h).1 with h | h
            · exact Or.inl (by simp [h])
            · exact Or.inr h
          · exact Or.inr h
        · intro y hy
          rcases List.mem_append.1 hy with hy | hy
          · exact (hin' y hy).2
          · obtain rfl : y = p := by simpa using hy
            exact .pt y (by simp)
      · obtain rfl : x = r := by simpa using hx
        exact ⟨Or.inl (by simp), .pt x (by simp)⟩

/-- A removed point is not on a line that has all the points on its left. -/
theorem popped_inside {m : List (V3 K)} {p b v w : V3 K} (hb : Popped m p b) (hvw : v.x ≠ w.x ∨ v.y ≠ w.y)
    (hall : ∀ q ∈ p :: m, 0 ≤ area2 v w q) : 0 < area2 v w b := by
  obtain ⟨a, ham, r, hrm, hab, har, hbr, hneg, hzex⟩ := hb
  have ha0 := hall a (by simp [ham])
  have hr0 := hall r (by simp [hrm])
  have hp0 := hall p (by simp)
  have e : area2 v w b * cw p a r = cw p b r * area2 v w a + cw p a b * area2 v w r +
      (-area2 r b a) * area2 v w p := by unfold cw area2; ring
  by_contra hcon
  have hcon := not_lt.1 hcon
  have h1 := mul_nonneg hbr ha0
  have h2 := mul_nonneg hab.le hr0
  have h3 := mul_nonneg (neg_nonneg.2 hneg.le) hp0
  have h4 : area2 v w b * cw p a r ≤ 0 := mul_nonpos_of_nonpos_of_nonneg hcon har.le
  have z1 : cw p b r * area2 v w a = 0 := by linarith
  have z2 : area2 v w r = 0 := by
    have : cw p a b * area2 v w r = 0 := by linarith
    exact (mul_eq_zero.1 this).resolve_left hab.ne'
  have z3 : area2 v w p = 0 := by
    have : (-area2 r b a) * area2 v w p = 0 := by linarith
    exact (mul_eq_zero.1 this).resolve_left (by linarith)
  -- three points on the line
  have hline : area2 v w a ≠ 0 := by
    intro z4
    have ex : (w.x - v.x) * cw p a r = 0 := by
      have : (w.x - v.x) * cw p a r = area2 v w r * (p.x - a.x) + area2 v w a * (r.x - p.x) +
          area2 v w p * (a.x - r.x) := by unfold cw area2; ring
      rw [this, z2, z3, z4]; ring
    have ey : (w.y - v.y) * cw p a r = 0 := by
      have : (w.y - v.y) * cw p a r = area2 v w r * (p.y - a.y) + area2 v w a * (r.y - p.y) +
          area2 v w p * (a.y - r.y) := by unfold cw area2; ring
      rw [this, z2, z3, z4]; ring
    have fx := (mul_eq_zero.1 ex).resolve_right har.ne'
    have fy := (mul_eq_zero.1 ey).resolve_right har.ne'
    rcases hvw with h | h
    · exact h (by linarith)
    · exact h (by linarith)
  have hbr0 : cw p b r = 0 := (mul_eq_zero.1 z1).resolve_right hline
  obtain ⟨z, hzm, hz⟩ := hzex hbr0
  have hz0 := hall z (by simp [hzm])
  have e2 : area2 v w z * cw p a r = area2 v w a * (-cw p r z) + area2 v w r * cw p a z +
      area2 v w p * area2 a z r := by unfold cw area2; ring
  rw [z2, z3] at e2
  have h5 : 0 < area2 v w a := lt_of_le_of_ne ha0 (Ne.symm hline)
  have h6 := mul_nonneg hz0 har.le
  nlinarith [mul_pos h5 hz]

end Verif
