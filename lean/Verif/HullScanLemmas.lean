import Verif.HullLemmas

/-
The stack of the algorithm of Graham when aligned points are discarded.
-/
namespace Verif

open Res

variable {K : Type} [Field K] [LinearOrder K] [IsStrictOrderedRing K]

/-- `b` comes after `a` around `p`: clockwise, or in the same direction farther away. -/
def After (p a b : V3 K) : Prop := 0 < cw p a b ∨ ∃ s, 1 < s ∧ Along p a b s

theorem After.nonneg {p a b : V3 K} (h : After p a b) : 0 ≤ cw p a b := by
  rcases h with h | ⟨s, -, h⟩
  · exact h.le
  · rw [along_cw_right h, cw_self, mul_zero]

/-- The points of the stack above the lowest point `p`, the last one first. -/
structure StackOk (p : V3 K) (u : List (V3 K)) : Prop where
  pair : u.Pairwise fun x y => 0 < cw p y x
  triple : u.Triplewise fun x y z => 0 < area2 x y z

/-- The condition with which the inner loop ends. -/
def TopOk (p r : V3 K) : List (V3 K) → Prop
  | [] => True
  | [b] => 0 < cw p b r
  | b :: a :: _ => 0 < area2 r b a

theorem triplewise_suffix {α : Type} {R : α → α → α → Prop} {u v : List α} (h : u <:+ v) (hv : v.Triplewise R) :
    u.Triplewise R := by
  obtain ⟨w, rfl⟩ := h
  induction w with
  | nil => exact hv
  | cons x w ih => exact ih (List.triplewise_cons.1 hv).2

theorem StackOk.tail {p b : V3 K} {u : List (V3 K)} (h : StackOk p (b :: u)) : StackOk p u :=
  ⟨(List.pairwise_cons.1 h.pair).2, (List.triplewise_cons.1 h.triple).2⟩

theorem strict_top {p a b r : V3 K} (h1 : 0 < cw p a b) (h2 : After p b r) (h3 : 0 < area2 r b a) :
    0 < cw p b r := by
  rcases h2 with h2 | ⟨s, hs, h2⟩
  · exact h2
  · exfalso
    rw [turn_eq p, along_cw_right h2, along_cw_right h2, cw_self] at h3
    nlinarith

/-- Putting a new point on the stack. -/
theorem StackOk.push {p r : V3 K} {u : List (V3 K)} (h : StackOk p u) (hu : ∀ x ∈ u, Upper p x)
    (hr : Upper p r) (ha : ∀ x ∈ u, After p x r) (ht : TopOk p r u) : StackOk p (r :: u) := by
  match u with
  | [] => exact ⟨by simp, by simp⟩
  | [b] =>
    refine ⟨?_, ?_⟩
    · simpa [TopOk] using ht
    · simp
  | b :: a :: t =>
    obtain ⟨hp, htr⟩ := h
    rw [List.pairwise_cons] at hp
    obtain ⟨hpb, hpt⟩ := hp
    rw [List.triplewise_cons] at htr
    obtain ⟨htb, htt⟩ := htr
    simp only [TopOk] at ht
    have hab : 0 < cw p a b := hpb a (by simp)
    have hbr : 0 < cw p b r := strict_top hab (ha b (by simp)) ht
    have hxr : ∀ x ∈ b :: a :: t, 0 < cw p x r := by
      intro x hx
      rcases List.mem_cons.1 hx with rfl | hx'
      · exact hbr
      · exact cw_trans_pos (hu x hx) (hu b (by simp)) hr (hpb x hx') hbr.le
    have hby : ∀ y ∈ a :: t, 0 < area2 r b y := by
      intro y hy
      rcases List.mem_cons.1 hy with rfl | hy'
      · exact ht
      · have e := pluecker2 p y a b r
        have h1 : 0 < area2 b a y := by
          rw [List.pairwise_cons] at htb
          exact htb.1 y hy'
        have h2 : 0 < cw p y b := hpb y hy
        have : 0 < area2 r b y * cw p a b := by
          rw [e]; exact add_pos (mul_pos ht h2) (mul_pos h1 hbr)
        exact pos_of_mul_pos_left this hab.le
    refine ⟨List.pairwise_cons.2 ⟨hxr, List.pairwise_cons.2 ⟨hpb, hpt⟩⟩,
      List.triplewise_cons.2 ⟨?_, List.triplewise_cons.2 ⟨htb, htt⟩⟩⟩
    refine List.pairwise_cons.2 ⟨hby, ?_⟩
    refine (List.Pairwise.and (List.Pairwise.and_mem.1 hpt) htb).imp ?_
    rintro x y ⟨⟨hx, hy, hyx⟩, hbxy⟩
    have e := pluecker1 p y x b r
    have h1 : 0 < cw p x b := hpb x hx
    have h2 := hxr x (List.mem_cons_of_mem _ hx)
    have h3 := hby x hx
    have : 0 < area2 r x y * cw p x b := by
      rw [e]; exact add_pos (mul_pos hbxy h2) (mul_pos h3 hyx)
    exact pos_of_mul_pos_left this h1.le

/-- The inner loop. -/
theorem hullPop_spec {keep : V3 K → V3 K → V3 K → Bool} {p r : V3 K} {u : List (V3 K)} (h : StackOk p u)
    (hu : ∀ x ∈ u, Upper p x) (hr : Upper p r) (ha : ∀ x ∈ u, After p x r)
    (hz : p.z = 0 ∧ r.z = 0 ∧ ∀ x ∈ u, x.z = 0)
    (hk : ∀ a ∈ p :: u, ∀ b ∈ u, keep a b r = true ↔ 0 < area2 r b a) :
    ∃ u', hullPop keep r (u ++ [p]) = u' ++ [p] ∧ u' <:+ u ∧ TopOk p r u' ∧
      ∀ x ∈ u, InHull (r :: u' ++ [p]) x := by
  induction u with
  | nil => exact ⟨[], rfl, List.suffix_refl _, trivial, by simp⟩
  | cons b u ih =>
    have hrS : ∀ u' : List (V3 K), InHull (r :: u' ++ [p]) r := fun u' => .pt r (by simp)
    have hpS : ∀ u' : List (V3 K), InHull (r :: u' ++ [p]) p := fun u' => .pt p (by simp)
    cases u with
    | nil =>
      simp only [List.cons_append, List.nil_append, hullPop]
      by_cases hkp : keep p b r = true
      · rw [if_pos hkp]
        have := (hk p (by simp) b (by simp)).1 hkp
        rw [turn_pole] at this
        exact ⟨[b], rfl, List.suffix_refl _, this, fun x hx => .pt x (by simp at hx; simp [hx])⟩
      · rw [if_neg hkp]
        refine ⟨[], rfl, List.nil_suffix, trivial, ?_⟩
        intro x hx
        obtain rfl : x = b := by simpa using hx
        have h1 : ¬ 0 < cw p x r := by
          rw [← turn_pole]
          exact fun h => hkp ((hk p (by simp) x (by simp)).2 h)
        rcases ha x (by simp) with h2 | ⟨s, hs, h2⟩
        · exact absurd h2 h1
        · exact along_in_segment hs.le h2 (hpS []) (hrS [])
    | cons a t =>
      simp only [List.cons_append, hullPop]
      by_cases hkp : keep a b r = true
      · rw [if_pos hkp]
        refine ⟨b :: a :: t, rfl, List.suffix_refl _, (hk a (by simp) b (by simp)).1 hkp, fun x hx => .pt x ?_⟩
        simp only [List.cons_append, List.mem_cons, List.mem_append] at hx ⊢
        tauto
      · rw [if_neg hkp]
        obtain ⟨u', e, hs, htop, hin⟩ := ih h.tail (fun x hx => hu x (by simp [hx]))
          (fun x hx => ha x (by simp [hx])) ⟨hz.1, hz.2.1, fun x hx => hz.2.2 x (by simp [hx])⟩
          (fun x hx y hy => hk x (by
            rcases List.mem_cons.1 hx with rfl | hx
            · simp
            · simp [hx]) y (by simp [hy]))
        refine ⟨u', e, hs.trans (List.suffix_cons _ _), htop, ?_⟩
        intro x hx
        rcases List.mem_cons.1 hx with rfl | hx
        · have hab : 0 < cw p a x := (List.pairwise_cons.1 h.pair).1 a (by simp)
          have hxr := (ha x (by simp)).nonneg
          refine pop_in_triangle ⟨hz.1, hz.2.2 a (by simp), hz.2.2 x (by simp), hz.2.1⟩ (hpS u') (hin a (by simp))
            (hrS u') (cw_trans_pos (hu a (by simp)) (hu x (by simp)) hr hab hxr) hab.le hxr ?_
          exact not_lt.1 fun h => hkp ((hk a (by simp) x (by simp)).2 h)
        · exact hin x hx

/-- The outer loop after the lowest point. -/
theorem hullScan_spec {keep : V3 K → V3 K → V3 K → Bool} {p : V3 K} {l : List (V3 K)}
    (hl : l.Pairwise (After p)) (hu : ∀ x ∈ l, Upper p x) (hz : p.z = 0 ∧ ∀ x ∈ l, x.z = 0)
    (hk : ∀ a ∈ p :: l, ∀ b ∈ l, ∀ r ∈ l, keep a b r = true ↔ 0 < area2 r b a) :
    ∃ u, hullScan keep (p :: l) = u ++ [p] ∧ StackOk p u ∧ u.Sublist l.reverse ∧
      (l ≠ [] → u ≠ []) ∧ ∀ x ∈ l, InHull (u ++ [p]) x := by
  unfold hullScan
  simp only [List.foldl_cons, hullPop]
  induction l using List.reverseRecOn with
  | nil => exact ⟨[], rfl, ⟨by simp, by simp⟩, by simp, by simp, by simp⟩
  | append_singleton l r ih =>
    rw [List.pairwise_append] at hl
    obtain ⟨h1, -, h2⟩ := hl
    obtain ⟨u, e, hok, hsub, -, hin⟩ := ih h1 (fun x hx => hu x (by simp [hx]))
      ⟨hz.1, fun x hx => hz.2 x (by simp [hx])⟩ (fun a ha b hb c hc => hk a (by
        rcases List.mem_cons.1 ha with rfl | ha
        · simp
        · simp [ha]) b (by simp [hb]) c (by simp [hc]))
    have hmem : ∀ x ∈ u, x ∈ l := fun x hx => by simpa using hsub.subset hx
    rw [List.foldl_append, e]
    simp only [List.foldl_cons, List.foldl_nil]
    obtain ⟨u', e', hs, htop, hin'⟩ := hullPop_spec (keep := keep) (r := r) hok (fun x hx => hu x (by simp [hmem x hx]))
      (hu r (by simp)) (fun x hx => h2 x (hmem x hx) r (by simp))
      ⟨hz.1, hz.2 r (by simp), fun x hx => hz.2 x (by simp [hmem x hx])⟩
      (fun a ha b hb => hk a (by
        rcases List.mem_cons.1 ha with rfl | ha
        · simp
        · simp [hmem a ha]) b (by simp [hmem b hb]) r (by simp))
    refine ⟨r :: u', by rw [e']; rfl, ?_, ?_, by simp, ?_⟩
    · have hmem' : ∀ x ∈ u', x ∈ l := fun x hx => hmem x (hs.subset hx)
      refine StackOk.push ⟨hok.pair.sublist hs.sublist, triplewise_suffix hs hok.triple⟩
        (fun x hx => hu x (by simp [hmem' x hx])) (hu r (by simp)) (fun x hx => h2 x (hmem' x hx) r (by simp)) htop
    · rw [List.reverse_append, List.reverse_singleton, List.singleton_append]
      exact (hs.sublist.trans hsub).cons_cons r
    · intro x hx
      rcases List.mem_append.1 hx with hx | hx
      · refine InHull.trans ?_ (hin x hx)
        intro y hy
        rcases List.mem_append.1 hy with hy | hy
        · exact hin' y hy
        · obtain rfl : y = p := by simpa using hy
          exact .pt y (by simp)
      · obtain rfl : x = r := by simpa using hx
        exact .pt x (by simp)

end Verif
