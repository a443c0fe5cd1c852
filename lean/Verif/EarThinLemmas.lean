import Verif.EarCycleLemmas
import Mathlib.Data.List.Chain

/-
Removing the vertices of a closed polygon that are aligned with their neighbours.
-/
namespace Verif

variable {K : Type} [Field K] [LinearOrder K] [IsStrictOrderedRing K]
variable {α : Type}

/-- Two points of the plane that differ. -/
def XyNe (a b : V3 K) : Prop := a.x ≠ b.x ∨ a.y ≠ b.y

/-- A relation between three consecutive elements. -/
def Chain3 (R : α → α → α → Prop) : List α → Prop
  | x :: y :: z :: t => R x y z ∧ Chain3 R (y :: z :: t)
  | _ => True

theorem chain3_of {R : α → α → α → Prop} (L : List α)
    (h : ∀ s x y z t, L = s ++ x :: y :: z :: t → R x y z) : Chain3 R L := by
  induction L with
  | nil => trivial
  | cons a L ih =>
    have := ih fun s x y z t e => h (a :: s) x y z t (by rw [e]; rfl)
    match L, this with
    | [], _ => trivial
    | [_], _ => trivial
    | b :: c :: t, this => exact ⟨h [] a b c t rfl, this⟩

theorem Chain3.tail {R : α → α → α → Prop} {a : α} {L : List α} (h : Chain3 R (a :: L)) : Chain3 R L := by
  match L, h with
  | [], _ => trivial
  | [_], _ => trivial
  | _ :: _ :: _, h => exact h.2

/-- Two lines with two common points. -/
theorem aligned_trans {a x b c : V3 K} (hxb : XyNe x b) (h1 : area2 a x b = 0) (h2 : area2 x b c = 0) :
    area2 a b c = 0 ∧ area2 a x c = 0 := by
  simp only [area2] at *
  rcases hxb with h | h
  · have hu : b.x - x.x ≠ 0 := fun e => h (by linear_combination -e)
    constructor
    · apply mul_left_cancel₀ hu
      linear_combination (c.x - b.x) * h1 + (b.x - a.x) * h2
    · apply mul_left_cancel₀ hu
      linear_combination (c.x - x.x) * h1 + (x.x - a.x) * h2
  · have hu : b.y - x.y ≠ 0 := fun e => h (by linear_combination -e)
    constructor
    · apply mul_left_cancel₀ hu
      linear_combination (c.y - b.y) * h1 + (b.y - a.y) * h2
    · apply mul_left_cancel₀ hu
      linear_combination (c.y - x.y) * h1 + (x.y - a.y) * h2

theorem area2_cyc (a b c : V3 K) : area2 b c a = area2 a b c := by simp only [area2]; ring

theorem area2_swap (a b c : V3 K) : area2 b a c = -area2 a b c := by simp only [area2]; ring

theorem area2_swap' (a b c : V3 K) : area2 a c b = -area2 a b c := by simp only [area2]; ring

section thin
variable {F : Type} [Field F] [LinearOrder F] [IsStrictOrderedRing F]

/-- Removing aligned vertices of an open path does not change a sum that is additive on lines. -/
theorem pathSum_thin (P : α → V3 K) (keep : α → Bool) (f : α → α → F)
    (hf : ∀ a b c, area2 (P a) (P b) (P c) = 0 → f a b + f b c = f a c) (z : α) (l : List α) :
    (∀ a, Chain3 (fun x y w => keep y = false → area2 (P x) (P y) (P w) = 0) (a :: l ++ [z]) →
      List.IsChain (fun x y => XyNe (P x) (P y)) (a :: l ++ [z]) →
      pathSum f (a :: l ++ [z]) = pathSum f (a :: l.filter keep ++ [z])) ∧
    (∀ a x b, keep b = false → area2 (P a) (P x) (P b) = 0 →
      Chain3 (fun x y w => keep y = false → area2 (P x) (P y) (P w) = 0) (x :: b :: l ++ [z]) →
      List.IsChain (fun x y => XyNe (P x) (P y)) (x :: b :: l ++ [z]) →
      f a b + pathSum f (b :: l ++ [z]) = pathSum f (a :: l.filter keep ++ [z])) := by
  induction l with
  | nil =>
    refine ⟨fun a _ _ => rfl, ?_⟩
    intro a x b hb h1 hc hd
    simp only [List.cons_append, List.nil_append, List.isChain_cons_cons] at hc hd
    have h2 := hc.1 hb
    simp only [List.filter_nil, List.cons_append, List.nil_append, pathSum, add_zero]
    exact hf _ _ _ (aligned_trans hd.1 h1 h2).1
  | cons c l ih =>
    obtain ⟨ih1, ih2⟩ := ih
    have first : ∀ a, Chain3 (fun x y w => keep y = false → area2 (P x) (P y) (P w) = 0) (a :: c :: l ++ [z]) →
        List.IsChain (fun x y => XyNe (P x) (P y)) (a :: c :: l ++ [z]) →
        pathSum f (a :: c :: l ++ [z]) = pathSum f (a :: (c :: l).filter keep ++ [z]) := by
      intro a hc hd
      simp only [List.cons_append, List.isChain_cons_cons] at hd
      cases hk : keep c with
      | true =>
        rw [List.filter_cons, if_pos hk]
        simp only [List.cons_append, pathSum]
        have := ih1 c hc.tail hd.2
        simp only [List.cons_append] at this
        rw [this]
      | false =>
        rw [List.filter_cons, if_neg (by simp [hk])]
        simp only [List.cons_append, pathSum]
        exact ih2 a a c hk (by simp only [area2]; ring) hc (by simpa using hd)
    refine ⟨first, ?_⟩
    intro a x b hb h1 hc hd
    simp only [List.cons_append, List.isChain_cons_cons] at hd
    have h2 : area2 (P x) (P b) (P c) = 0 := hc.1 hb
    have h3 := (aligned_trans hd.1 h1 h2).1
    have h4 := hf _ _ _ h3
    cases hk : keep c with
    | true =>
      rw [List.filter_cons, if_pos hk]
      simp only [List.cons_append, pathSum]
      have := ih1 c hc.tail.tail hd.2.2
      simp only [List.cons_append] at this
      rw [this, ← h4]; ring
    | false =>
      rw [List.filter_cons, if_neg (by simp [hk])]
      have := ih2 a b c hk h3 hc.tail (by simpa using hd.2)
      simp only [List.cons_append, pathSum] at this ⊢
      rw [← this, ← h4]; ring

/-- The points of a run of removed vertices are on one line. -/
theorem run_aligned (P : α → V3 K) (a y : α) (m : List α)
    (hc : Chain3 (fun x y w => y ∈ m → area2 (P x) (P y) (P w) = 0) (a :: m ++ [y]))
    (hd : ∀ b ∈ m, XyNe (P a) (P b)) (hcd : List.IsChain (fun x y => XyNe (P x) (P y)) (a :: m ++ [y])) :
    (∃ s b, a :: m = s ++ [b] ∧ area2 (P a) (P b) (P y) = 0) ∧
    (∃ e t, m ++ [y] = e :: t ∧ area2 (P a) (P e) (P y) = 0) := by
  have gen : ∀ (l : List α) (x b e : α), b ∈ m → (∀ c ∈ l, c ∈ m) → area2 (P a) (P x) (P b) = 0 →
      area2 (P a) (P e) (P b) = 0 →
      Chain3 (fun x y w => y ∈ m → area2 (P x) (P y) (P w) = 0) (x :: b :: l ++ [y]) →
      List.IsChain (fun x y => XyNe (P x) (P y)) (x :: b :: l ++ [y]) →
      (∃ s c, b :: l = s ++ [c] ∧ area2 (P a) (P c) (P y) = 0) ∧ area2 (P a) (P e) (P y) = 0 := by
    intro l
    induction l with
    | nil =>
      intro x b e hb _ h1 h2 h3 h4
      simp only [List.cons_append, List.nil_append, List.isChain_cons_cons] at h3 h4
      have k1 := (aligned_trans h4.1 h1 (h3.1 hb)).1
      refine ⟨⟨[], b, rfl, k1⟩, ?_⟩
      have h2' : area2 (P e) (P a) (P b) = 0 := by rw [area2_swap, h2, neg_zero]
      have k2 := (aligned_trans (hd b hb) h2' k1).2
      rw [area2_swap, k2, neg_zero]
    | cons c l ih =>
      intro x b e hb hl h1 h2 h3 h4
      simp only [List.cons_append, List.isChain_cons_cons] at h4
      have k1 := (aligned_trans h4.1 h1 (h3.1 hb)).1
      have h2' : area2 (P e) (P a) (P b) = 0 := by rw [area2_swap, h2, neg_zero]
      have k2 := (aligned_trans (hd b hb) h2' k1).2
      obtain ⟨⟨s, d, i1, i2⟩, i3⟩ := ih b c e (hl c (by simp)) (fun d hd => hl d (by simp [hd])) k1
        (by rw [area2_swap, k2, neg_zero]) h3.tail (by simpa using h4.2)
      exact ⟨⟨b :: s, d, by rw [i1]; rfl, i2⟩, i3⟩
  cases m with
  | nil =>
    refine ⟨⟨[], a, rfl, by simp only [area2]; ring⟩, ⟨y, [], rfl, by simp only [area2]; ring⟩⟩
  | cons b l =>
    obtain ⟨⟨s, c, h1, h2⟩, h3⟩ := gen l a b b (by simp) (fun c hc => by simp [hc]) (by simp only [area2]; ring)
      (by simp only [area2]; ring) hc hcd
    exact ⟨⟨a :: s, c, by rw [h1]; rfl, h2⟩, ⟨b, l ++ [y], rfl, h3⟩⟩

end thin

theorem Chain3.imp {R S : α → α → α → Prop} (h : ∀ x y z, R x y z → S x y z) {L : List α} (hc : Chain3 R L) :
    Chain3 S L := by
  induction L with
  | nil => trivial
  | cons a L ih =>
    match L, hc, ih with
    | [], _, _ => trivial
    | [_], _, _ => trivial
    | b :: c :: t, hc, ih => exact ⟨h _ _ _ hc.1, ih hc.2⟩

/-- A vertex that is kept is not aligned with its new neighbours. -/
theorem corner_thin (P : α → V3 K) (keep : α → Bool) (L : List α) (hn : L.Nodup)
    (hP : ∀ x ∈ L, ∀ y ∈ L, x ≠ y → XyNe (P x) (P y))
    (h0 : ∀ x y w, CycCorner L x y w → keep y = false → area2 (P x) (P y) (P w) = 0)
    (h1 : ∀ x y w, CycCorner L x y w → keep y = true → area2 (P x) (P y) (P w) ≠ 0)
    {x y z : α} (hc : CycCorner (L.filter keep) x y z) : area2 (P x) (P y) (P z) ≠ 0 := by
  -- rotate so that the list begins with `x`
  obtain ⟨t, n, ht⟩ := hc
  have hrot : ∃ M m m' l, L ~r M ∧ M = x :: (m ++ y :: (m' ++ z :: l)) ∧ (∀ a ∈ m, keep a = false) ∧
      (∀ a ∈ m', keep a = false) ∧ keep y = true := by
    rw [List.rotate_eq_drop_append_take_mod] at ht
    set k := n % (L.filter keep).length
    have e : L.filter keep = (L.filter keep).take k ++ (L.filter keep).drop k := (List.take_append_drop _ _).symm
    obtain ⟨l1, l2, hL, e1, e2⟩ := List.filter_eq_append_iff.1 e
    have hr : L ~r (l2 ++ l1) := by rw [hL]; exact isRotated_append_comm l1 l2
    have hf : (l2 ++ l1).filter keep = x :: y :: z :: t := by rw [List.filter_append, e1, e2, ht]
    obtain ⟨p, q, e3, e4, e5, e6⟩ := List.filter_eq_cons_iff.1 hf
    obtain ⟨m, q', e7, e8, e9, e10⟩ := List.filter_eq_cons_iff.1 e6
    obtain ⟨m', q'', e11, e12, e13, e14⟩ := List.filter_eq_cons_iff.1 e10
    refine ⟨x :: (m ++ y :: (m' ++ z :: (q'' ++ p))), m, m', q'' ++ p, ?_, rfl, ?_, ?_, e9⟩
    · refine hr.trans ?_
      rw [e3, e7, e11]
      have := isRotated_append_comm p (x :: (m ++ y :: (m' ++ z :: q'')))
      simpa using this
    · intro a ha; simpa using e8 a ha
    · intro a ha; simpa using e12 a ha
  obtain ⟨M, m, m', l, hLM, hM, hm, hm', hy⟩ := hrot
  have hnM : M.Nodup := hLM.nodup_iff.1 hn
  have hcorner : ∀ s u v w r, M = s ++ u :: v :: w :: r → CycCorner L u v w := by
    intro s u v w r e
    refine ⟨r ++ s, hLM.trans ?_⟩
    rw [e]
    exact isRotated_append_comm s _
  have hPM : ∀ a ∈ M, ∀ b ∈ M, a ≠ b → XyNe (P a) (P b) :=
    fun a ha b hb => hP a (hLM.mem_iff.2 ha) b (hLM.mem_iff.2 hb)
  have hpair : ∀ s u v r, M = s ++ u :: v :: r → XyNe (P u) (P v) := by
    intro s u v r e
    rw [e] at hnM
    refine hPM u (by rw [e]; simp) v (by rw [e]; simp) ?_
    have := (List.nodup_append.1 hnM).2.1
    simp at this
    tauto
  have run : ∀ (s : List α) a (m : List α) y r, M = s ++ a :: (m ++ y :: r) → (∀ b ∈ m, keep b = false) →
      (∃ s b, a :: m = s ++ [b] ∧ area2 (P a) (P b) (P y) = 0) ∧
      (∃ e t, m ++ [y] = e :: t ∧ area2 (P a) (P e) (P y) = 0) := by
    intro s a m y r e hm
    apply run_aligned P a y m
    · apply chain3_of
      intro s' u v w t e' hv
      refine h0 u v w (hcorner (s ++ s') u v w (t ++ r) ?_) (hm v hv)
      rw [e, List.append_assoc]
      congr 1
      have : a :: (m ++ y :: r) = (a :: m ++ [y]) ++ r := by simp
      rw [this, e']; simp
    · intro b hb
      rw [e] at hnM
      refine hPM a (by rw [e]; simp) b (by rw [e]; simp [hb]) ?_
      have := (List.nodup_append.1 hnM).2.1
      rw [List.nodup_cons] at this
      rintro rfl
      exact this.1 (by simp [hb])
    · rw [List.isChain_iff_forall_rel_of_append_cons_cons]
      intro u v l1 l2 e'
      refine hpair (s ++ l1) u v (l2 ++ r) ?_
      rw [e, List.append_assoc]
      congr 1
      have : a :: (m ++ y :: r) = (a :: m ++ [y]) ++ r := by simp
      rw [this, e']; simp
  obtain ⟨⟨s, b, i1, i2⟩, -⟩ := run [] x m y (m' ++ z :: l) (by simpa using hM) hm
  obtain ⟨-, ⟨e, r, j1, j2⟩⟩ := run (x :: m) y m' z l (by simpa using hM) hm'
  have hM' : M = s ++ b :: y :: e :: (r ++ l) := by
    have e1 : M = (x :: m) ++ (y :: ((m' ++ [z]) ++ l)) := by rw [hM]; simp
    rw [e1, i1, j1]; simp
  have hbye := h1 b y e (hcorner s b y e (r ++ l) hM') hy
  intro h
  apply hbye
  have hxy : XyNe (P x) (P y) := by
    rw [hM] at hnM
    refine hPM x (by rw [hM]; simp) y (by rw [hM]; simp) ?_
    rintro rfl
    simp at hnM
  have hyz : XyNe (P y) (P z) := by
    rw [hM] at hnM
    refine hPM y (by rw [hM]; simp) z (by rw [hM]; simp) ?_
    rintro rfl
    rw [List.nodup_cons, List.nodup_append] at hnM
    have := hnM.2.2.1
    simp at this
  have k1 : area2 (P b) (P x) (P y) = 0 := by rw [area2_swap, i2, neg_zero]
  have k2 := (aligned_trans hxy k1 h).1
  have k3 : area2 (P y) (P z) (P e) = 0 := by rw [area2_swap', j2, neg_zero]
  exact (aligned_trans hyz k2 k3).2

variable {F : Type} [Field F] [LinearOrder F] [IsStrictOrderedRing F]

/-- Removing aligned vertices of a closed polygon does not change a sum that is additive on lines. -/
theorem closedSum_thin (P : α → V3 K) (keep : α → Bool) (f : α → α → F)
    (hf : ∀ a b c, area2 (P a) (P b) (P c) = 0 → f a b + f b c = f a c) (L : List α) (hn : L.Nodup)
    (hP : ∀ x ∈ L, ∀ y ∈ L, x ≠ y → XyNe (P x) (P y)) (h3 : 2 < L.length)
    (h0 : ∀ x y w, CycCorner L x y w → keep y = false → area2 (P x) (P y) (P w) = 0)
    (hk : ∃ a ∈ L, keep a = true) :
    closedSum f L = closedSum f (L.filter keep) := by
  obtain ⟨a, ha, hka⟩ := hk
  obtain ⟨l1, l2, hL⟩ := List.append_of_mem ha
  have hr : L ~r (a :: (l2 ++ l1)) := by rw [hL]; exact isRotated_append_comm l1 (a :: l2)
  rw [closedSum_isRotated f hr, closedSum_isRotated f (isRotated_filter keep hr)]
  set l := l2 ++ l1
  have hn' : (a :: l).Nodup := hr.nodup_iff.1 hn
  have hlen : 2 < (a :: l).length := by rw [← hr.perm.length_eq]; exact h3
  rw [List.filter_cons, if_pos hka, closedSum_cons, closedSum_cons]
  have hP' : ∀ x ∈ a :: l, ∀ y ∈ a :: l, x ≠ y → XyNe (P x) (P y) :=
    fun x hx y hy => hP x (hr.mem_iff.2 hx) y (hr.mem_iff.2 hy)
  have key : ∀ s u v w t, a :: l ++ [a] = s ++ u :: v :: w :: t → CycCorner L u v w := by
    intro s u v w t e
    rw [CycCorner.rot hr]
    rcases List.eq_nil_or_concat t with rfl | ⟨t', c, rfl⟩
    · have e' : a :: l ++ [a] = (s ++ [u, v]) ++ [w] := by rw [e]; simp
      obtain ⟨e1, e2⟩ := List.append_inj' e' rfl
      obtain rfl : a = w := by simpa using e2
      cases s with
      | nil => simp at e1; rw [e1.2] at hlen; simp at hlen
      | cons b s =>
        simp only [List.cons_append, List.cons.injEq] at e1
        obtain ⟨rfl, e1⟩ := e1
        refine ⟨s, ?_⟩
        rw [e1]
        have := isRotated_append_comm (a :: s) [u, v]
        simpa using this
    · have e' : a :: l ++ [a] = (s ++ u :: v :: w :: t') ++ [c] := by rw [e]; simp
      obtain ⟨e1, -⟩ := List.append_inj' e' rfl
      rw [e1]
      exact ⟨t' ++ s, isRotated_append_comm s _⟩
  refine ((pathSum_thin P keep f hf a l).1 a ?_ ?_)
  · exact chain3_of _ fun s u v w t e => h0 u v w (key s u v w t e)
  · rw [List.isChain_iff_forall_rel_of_append_cons_cons]
    intro u v l1 l2 e
    rcases List.eq_nil_or_concat l2 with rfl | ⟨t', c, rfl⟩
    · have e' : a :: l ++ [a] = (l1 ++ [u]) ++ [v] := by rw [e]; simp
      obtain ⟨e1, e2⟩ := List.append_inj' e' rfl
      obtain rfl : a = v := by simpa using e2
      refine hP' u (by rw [e1]; simp) a (by simp) ?_
      rintro rfl
      cases l1 with
      | nil => simp at e1; rw [e1] at hlen; simp at hlen
      | cons b s =>
        simp only [List.cons_append, List.cons.injEq] at e1
        rw [e1.2] at hn'
        simp at hn'
    · have e' : a :: l ++ [a] = (l1 ++ u :: v :: t') ++ [c] := by rw [e]; simp
      obtain ⟨e1, -⟩ := List.append_inj' e' rfl
      refine hP' u (by rw [e1]; simp) v (by rw [e1]; simp) ?_
      rw [e1, List.nodup_append] at hn'
      have := hn'.2.1
      simp at this
      tauto

end Verif
