import Verif.CommonModel
import Verif.CommonSpec
import Mathlib.Tactic.Tauto

namespace Verif

open Res

theorem mem_insertNat {a b : Nat} {l : List Nat} : b ∈ insertNat a l ↔ b = a ∨ b ∈ l := by
  induction l with
  | nil => simp [insertNat]
  | cons c l ih =>
    simp only [insertNat]
    split
    · simp
    · simp only [List.mem_cons, ih]
      tauto

theorem insertNat_sorted {a : Nat} {l : List Nat} (h : l.Pairwise (· ≤ ·)) :
    (insertNat a l).Pairwise (· ≤ ·) := by
  induction l with
  | nil => simp [insertNat]
  | cons c l ih =>
    obtain ⟨h1, h2⟩ := List.pairwise_cons.1 h
    simp only [insertNat]
    split
    · refine List.pairwise_cons.2 ⟨?_, h⟩
      intro x hx
      rcases List.mem_cons.1 hx with rfl | hx
      · assumption
      · have := h1 x hx; omega
    · refine List.pairwise_cons.2 ⟨?_, ih h2⟩
      intro x hx
      rcases mem_insertNat.1 hx with rfl | hx
      · omega
      · exact h1 x hx

theorem sortNat_sorted (l : List Nat) : (sortNat l).Pairwise (· ≤ ·) := by
  induction l with
  | nil => exact List.Pairwise.nil
  | cons a l ih => exact insertNat_sorted ih

theorem mem_sortNat {l : List Nat} {a : Nat} : a ∈ sortNat l ↔ a ∈ l := by
  induction l with
  | nil => rfl
  | cons b l ih => simp only [sortNat, mem_insertNat, List.mem_cons, ih]

theorem mem_setIntersectionLoop (n : Nat) (l r : List Nat) (hn : l.length + r.length ≤ n)
    (hl : l.Pairwise (· ≤ ·)) (hr : r.Pairwise (· ≤ ·)) (v : Nat) :
    v ∈ setIntersectionLoop n l r ↔ v ∈ l ∧ v ∈ r := by
  fun_induction setIntersectionLoop n l r with
  | case1 l r =>
    have : l = [] := by
      apply List.eq_nil_of_length_eq_zero; omega
    simp [this]
  | case2 => simp
  | case3 => simp
  | case4 n a l b r h ih =>
    rw [ih (by simp at hn ⊢; omega) (List.pairwise_cons.1 hl).2 hr]
    constructor
    · rintro ⟨h1, h2⟩; exact ⟨List.mem_cons_of_mem _ h1, h2⟩
    · rintro ⟨h1, h2⟩
      refine ⟨?_, h2⟩
      rcases List.mem_cons.1 h1 with rfl | h1
      · rcases List.mem_cons.1 h2 with rfl | h2
        · omega
        · have := (List.pairwise_cons.1 hr).1 _ h2; omega
      · exact h1
  | case5 n a l b r h1 h2 ih =>
    rw [ih (by simp at hn ⊢; omega) hl (List.pairwise_cons.1 hr).2]
    constructor
    · rintro ⟨h1, h2⟩; exact ⟨h1, List.mem_cons_of_mem _ h2⟩
    · rintro ⟨h3, h4⟩
      refine ⟨h3, ?_⟩
      rcases List.mem_cons.1 h4 with rfl | h4
      · rcases List.mem_cons.1 h3 with rfl | h3
        · omega
        · have := (List.pairwise_cons.1 hl).1 _ h3; omega
      · exact h4
  | case6 n a l b r h1 h2 ih =>
    have hab : a = b := by omega
    subst hab
    rw [List.mem_cons, ih (by simp at hn ⊢; omega) (List.pairwise_cons.1 hl).2
      (List.pairwise_cons.1 hr).2]
    simp only [List.mem_cons]
    tauto

theorem mem_setIntersection (l r : List Nat) (hl : l.Pairwise (· ≤ ·)) (hr : r.Pairwise (· ≤ ·))
    (v : Nat) : v ∈ setIntersection l r ↔ v ∈ l ∧ v ∈ r :=
  mem_setIntersectionLoop _ l r (Nat.le_refl _) hl hr v

theorem setIntersectionLoop_sublist (n : Nat) (l r : List Nat) :
    (setIntersectionLoop n l r).Sublist l := by
  fun_induction setIntersectionLoop n l r with
  | case1 => exact List.nil_sublist _
  | case2 => exact List.Sublist.refl _
  | case3 => exact List.nil_sublist _
  | case4 n a l b r h ih => exact ih.trans (List.sublist_cons_self _ _)
  | case5 n a l b r h1 h2 ih => exact ih
  | case6 n a l b r h1 h2 ih => exact ih.cons_cons _

theorem setIntersection_sorted (l r : List Nat) (hl : l.Pairwise (· ≤ ·)) :
    (setIntersection l r).Pairwise (· ≤ ·) := hl.sublist (setIntersectionLoop_sublist _ l r)

/-- A checking loop returns exactly when every check does. -/
theorem mapRes_unit_ok {β : Type} (f : β → Res PUnit) (l : List β) :
    (∃ r, mapRes f l = ok r) ↔ ∀ b ∈ l, f b = ok ⟨⟩ := by
  induction l with
  | nil => simp [mapRes]
  | cons b l ih =>
    simp only [mapRes, List.mem_cons, forall_eq_or_imp]
    constructor
    · rintro ⟨r, h⟩
      obtain ⟨u, h1, h2⟩ := bind_eq_ok.1 h
      obtain ⟨us, h3, _⟩ := bind_eq_ok.1 h2
      exact ⟨h1, ih.1 ⟨us, h3⟩⟩
    · rintro ⟨h1, h2⟩
      obtain ⟨us, h3⟩ := ih.2 h2
      exact ⟨⟨⟩ :: us, by rw [h1, ok_bind, h3, ok_bind]⟩

/-- A checking loop whose checks return or abort, with one that aborts. -/
theorem mapRes_unit_abort {β : Type} (f : β → Res PUnit) (l : List β)
    (h : ∀ b ∈ l, f b = ok ⟨⟩ ∨ f b = abort) (h' : ∃ b ∈ l, f b = abort) :
    mapRes f l = abort := by
  induction l with
  | nil => simp at h'
  | cons b l ih =>
    simp only [mapRes]
    rcases h b (by simp) with hb | hb
    · rw [hb, ok_bind, ih (fun c hc => h c (by simp [hc]))]
      · rfl
      · obtain ⟨c, hc, hc'⟩ := h'
        rcases List.mem_cons.1 hc with rfl | hc
        · rw [hb] at hc'; cases hc'
        · exact ⟨c, hc, hc'⟩
    · rw [hb]; rfl

end Verif
