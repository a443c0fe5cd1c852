import Verif.CutEndsSpec
import Verif.UnionLemmas
import Verif.CommonLemmas

/-
Lemmas for the ends and the segments of an intersection.
-/
namespace Verif

open Res

variable {K : Type} [Field K] [LinearOrder K] [IsStrictOrderedRing K]

theorem insertCut_far {g : GeoCfg K} (h0 : 0 ≤ g.minTolerance) {c : K} {m : List (K × CutPoint)}
    (h : ∀ q ∈ m, g.tol1D < |q.1 - c|) : insertCut g c m = (kmapInsert c {} m, c, false) := by
  have : m.find? (fun p => !g.isValuePositive |p.1 - c| g.tol1D) = none := by
    rw [List.find?_eq_none]
    intro q hq hn
    rw [g.near_iff h0] at hn
    exact absurd hn (not_le.2 (h q hq))
  unfold insertCut
  rw [this]
  simp

theorem insertCut_near {g : GeoCfg K} (h0 : 0 ≤ g.minTolerance) {c : K} {m : List (K × CutPoint)}
    (h : ∃ q ∈ m, |q.1 - c| ≤ g.tol1D) (h1 : ∀ q ∈ m, |q.1 - c| ≤ g.tol1D → q.1 ≠ -1) :
    (insertCut g c m).1 = m ∧ (insertCut g c m).2.2 = true := by
  have : (m.find? (fun p => !g.isValuePositive |p.1 - c| g.tol1D)).isSome := by
    rw [List.find?_isSome]
    obtain ⟨q, hq, hn⟩ := h
    exact ⟨q, hq, (g.near_iff h0 _).2 hn⟩
  obtain ⟨q, hq⟩ := Option.isSome_iff_exists.1 this
  have hm := List.mem_of_find?_eq_some hq
  have hn := List.find?_some hq
  rw [g.near_iff h0] at hn
  unfold insertCut
  rw [hq]
  simp [h1 q hm hn]

theorem kmapInsert_last {β : Type} {k : K} {b : β} {m : List (K × β)} (h : ∀ p ∈ m, p.1 < k) : kmapInsert k b m = m ++ [(k, b)] := by
  induction m with
  | nil => rfl
  | cons a m ih =>
    have ha := h a (by simp)
    rw [kmapInsert, if_neg (not_lt.2 ha.le), if_pos ha, ih fun p hp => h p (by simp [hp])]
    rfl

theorem kmapModify_last {β : Type} {k : K} {b b' : β} {m : List (K × β)} (h : ∀ p ∈ m, p.1 < k) :
    kmapModify k (fun _ => ok b') (m ++ [(k, b)]) = ok (m ++ [(k, b')]) := by
  induction m with
  | nil => simp [kmapModify, ok_bind]
  | cons a m ih =>
    have ha := h a (by simp)
    rw [List.cons_append, kmapModify, if_neg ha.ne, ih fun p hp => h p (by simp [hp])]
    rfl

/-- The origin. -/
theorem cutEnd_origin {g : GeoCfg K} (h0 : 0 ≤ g.minTolerance) (hT : g.tol1D < 1 / 2) {a : K × CutPoint} {l : List (K × CutPoint)}
    (h : CutsOnSegment g.tol1D (a :: l)) : cutEnd g 0 a (a :: l) = ok ((if |a.1| ≤ g.tol1D then a.1 else 0, a.2) :: l) := by
  have hs := List.pairwise_cons.1 h.increasing
  have ra := h.range a (by simp)
  unfold cutEnd
  by_cases hn : |a.1| ≤ g.tol1D
  · obtain ⟨e1, e2⟩ := insertCut_near h0 (c := 0) (m := a :: l) ⟨a, by simp, by simpa using hn⟩ (by
      intro q _ hq he
      rw [he] at hq
      norm_num at hq
      linarith)
    simp only [e1, e2, if_true, if_pos hn]
  · have pos : g.tol1D < a.1 := by
      by_contra hc
      exact hn (abs_le.2 ⟨ra.1, not_lt.1 hc⟩)
    have hT0 : 0 ≤ g.tol1D := le_trans h0 (le_max_left _ _)
    have far : ∀ q ∈ a :: l, g.tol1D < q.1 := by
      intro q hq
      rcases List.mem_cons.1 hq with rfl | hq
      · exact pos
      · exact pos.trans (hs.1 q hq)
    rw [insertCut_far h0 (by
      intro q hq
      rw [sub_zero]
      exact lt_of_lt_of_le (far q hq) (le_abs_self _))]
    have e : kmapInsert (0 : K) ({} : CutPoint) (a :: l) = (0, {}) :: a :: l := by
      rw [show a :: l = (a.1, a.2) :: l from rfl, kmapInsert, if_pos (by linarith)]
    simp only [e, Bool.false_eq_true, if_false, kmapModify, if_true, ok_bind, if_neg hn]
    congr 1
    have hz : (0 : K) ≠ a.1 := (by linarith : (0 : K) < a.1).ne
    rw [List.filter_cons_of_pos (by simpa using hz), List.filter_cons_of_neg (by simp)]
    congr 1
    rw [List.filter_eq_self]
    intro q hq
    simpa using (hs.1 q hq).ne'

/-- The end. -/
theorem cutEnd_target {g : GeoCfg K} (h0 : 0 ≤ g.minTolerance) (hT : g.tol1D < 1 / 2) {b : K × CutPoint} {l : List (K × CutPoint)}
    (h : CutsOnSegment g.tol1D (l ++ [b])) :
    cutEnd g 1 b (l ++ [b]) = ok (l ++ [(if |b.1 - 1| ≤ g.tol1D then b.1 else 1, b.2)]) := by
  have hs := List.pairwise_append.1 h.increasing
  have rb := h.range b (by simp)
  have hT0 : 0 ≤ g.tol1D := le_trans h0 (le_max_left _ _)
  unfold cutEnd
  by_cases hn : |b.1 - 1| ≤ g.tol1D
  · obtain ⟨e1, e2⟩ := insertCut_near h0 (c := 1) (m := l ++ [b]) ⟨b, by simp, hn⟩ (by
      intro q _ hq he
      rw [he] at hq
      norm_num at hq
      linarith)
    simp only [e1, e2, if_true, if_pos hn]
  · have pos : b.1 < 1 - g.tol1D := by
      by_contra hc
      exact hn (abs_le.2 ⟨by linarith [not_lt.1 hc], by linarith [rb.2]⟩)
    have far : ∀ q ∈ l ++ [b], q.1 < 1 - g.tol1D := by
      intro q hq
      rcases List.mem_append.1 hq with hq | hq
      · exact (hs.2.2 q hq b (by simp)).trans pos
      · rw [List.mem_singleton.1 hq]; exact pos
    have low : ∀ q ∈ l ++ [b], q.1 < 1 := fun q hq => lt_of_lt_of_le (far q hq) (by linarith)
    rw [insertCut_far h0 (by
      intro q hq
      rw [abs_sub_comm]
      exact lt_of_lt_of_le (by linarith [far q hq]) (le_abs_self _))]
    simp only [kmapInsert_last low, Bool.false_eq_true, if_false, kmapModify_last low, ok_bind, if_neg hn]
    congr 1
    have hb : (1 : K) ≠ b.1 := (low b (by simp)).ne'
    rw [List.filter_append, List.filter_append, List.filter_cons_of_neg (by simp), List.filter_cons_of_pos (by simpa using hb)]
    have : l.filter (fun p => decide (p.1 ≠ b.1)) = l := by
      rw [List.filter_eq_self]
      intro q hq
      simpa using (hs.2.2 q hq b (by simp)).ne
    rw [this]
    simp

theorem setIntersection_meet {l r : List Nat} (hl : l.Pairwise (· < ·)) (hr : r.Pairwise (· < ·)) : IsMeet l r (setIntersection l r) :=
  ⟨hl.sublist (setIntersectionLoop_sublist _ l r),
    mem_setIntersection l r (hl.imp fun h => Nat.le_of_lt h) (hr.imp fun h => Nat.le_of_lt h)⟩

theorem cutSegmentsLoop_spec (pts : List (K × CutPoint))
    (hset : ∀ p ∈ pts, p.2.cells2.Pairwise (· < ·) ∧ p.2.cells1.Pairwise (· < ·)) (hne : pts ≠ []) :
    IsCutSegments pts (cutSegmentsLoop pts) := by
  fun_induction cutSegmentsLoop pts with
  | case1 p q l ih =>
    have ih := ih (fun x hx => hset x (by simp [List.mem_cons.1 hx])) (by simp)
    refine ⟨by simpa using ih.number, ?_⟩
    intro i s x y hs hx hy
    cases i with
    | zero =>
      simp only [List.getElem?_cons_zero, Option.some.injEq, List.getElem?_cons_succ, zero_add] at hs hx hy
      subst hs hx hy
      have h1 := hset p (by simp)
      have h2 := hset q (by simp)
      exact ⟨rfl, setIntersection_meet h1.1 h2.1, setIntersection_meet h1.2 h2.2⟩
    | succ i =>
      simp only [List.getElem?_cons_succ] at hs hx hy
      exact ih.segment i s x y hs hx (by simpa using hy)
  | case2 pts h =>
    match pts, hne, h with
    | [p], _, _ => exact ⟨rfl, by intro i s p q hs; simp at hs⟩
    | p :: q :: l, _, h => exact absurd rfl (h p q l)

end Verif
