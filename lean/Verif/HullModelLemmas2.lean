import Verif.HullModelLemmas

/-
More lemmas that connect the model of `ConvexHull` with the geometry: the sorted list, the reversed tail, and the
indices of the result.
-/
namespace Verif

open Res

variable {K : Type} [Field K] [LinearOrder K] [IsStrictOrderedRing K]

/-! ### The stack and its indices -/

theorem hullPop_suffix {α : Type} (keep : α → α → α → Bool) (r : α) : ∀ st : List α, hullPop keep r st <:+ st
  | [] => by simp [hullPop]
  | [b] => by simp [hullPop]
  | b :: a :: st => by
      rw [hullPop]
      split
      · exact List.suffix_refl _
      · exact (hullPop_suffix keep r (a :: st)).trans (List.suffix_cons _ _)

theorem hullScan_sublist {α : Type} (keep : α → α → α → Bool) (l : List α) :
    (hullScan keep l).Sublist l.reverse := by
  unfold hullScan
  induction l using List.reverseRecOn with
  | nil => simp
  | append_singleton l r ih =>
    rw [List.foldl_append, List.foldl_cons, List.foldl_nil, List.reverse_append, List.reverse_singleton,
      List.singleton_append]
    exact (((hullPop_suffix keep r _).sublist).trans ih).cons₂ r

theorem hullPop_map {α β : Type} (f : α → β) (keep : β → β → β → Bool) (r : α) : ∀ st : List α,
    (hullPop (fun a b r => keep (f a) (f b) (f r)) r st).map f = hullPop keep (f r) (st.map f)
  | [] => by simp [hullPop]
  | [b] => by simp [hullPop]
  | b :: a :: st => by
      rw [hullPop]
      simp only [List.map_cons, hullPop]
      split
      · simp
      · exact hullPop_map f keep r (a :: st)

theorem hullScan_map {α β : Type} (f : α → β) (keep : β → β → β → Bool) (l : List α) :
    (hullScan (fun a b r => keep (f a) (f b) (f r)) l).map f = hullScan keep (l.map f) := by
  unfold hullScan
  induction l using List.reverseRecOn with
  | nil => simp
  | append_singleton l r ih =>
    simp only [List.foldl_append, List.foldl_cons, List.foldl_nil, List.map_append, List.map_cons, List.map_nil]
    rw [hullPop_map, ih]

/-- The points with their indices. -/
def hullPts (pts : List (V3 K)) : List (HullPt K) := pts.zipIdx.map fun x => ⟨x.1, x.2⟩

theorem hullPts_points (pts : List (V3 K)) : (hullPts pts).map HullPt.point = pts := by
  unfold hullPts
  rw [List.map_map]
  exact List.zipIdx_map_fst 0 pts

theorem hullPts_ids (pts : List (V3 K)) : (hullPts pts).map HullPt.id = List.range pts.length := by
  unfold hullPts
  rw [List.map_map]
  have := List.zipIdx_map_snd 0 pts
  rw [List.range_eq_range']
  exact this

theorem hullPts_get {pts : List (V3 K)} {h : HullPt K} (hh : h ∈ hullPts pts) : pts[h.id]? = some h.point := by
  unfold hullPts at hh
  obtain ⟨⟨p, i⟩, hx, rfl⟩ := List.mem_map.1 hh
  exact List.mem_zipIdx_iff_getElem?.1 hx

theorem hullPts_mem {pts : List (V3 K)} {h : HullPt K} (hh : h ∈ hullPts pts) : h.point ∈ pts :=
  List.mem_of_getElem? (hullPts_get hh)

/-- The indices of the stack are different and select its points. -/
theorem scan_ids {pts : List (V3 K)} {l : List (HullPt K)} (hp : l.Perm (hullPts pts))
    (keep : HullPt K → HullPt K → HullPt K → Bool) :
    ((hullScan keep l).map HullPt.id).Nodup ∧
      IsSelection pts ((hullScan keep l).map HullPt.id) ((hullScan keep l).map HullPt.point) := by
  have hs := hullScan_sublist keep l
  constructor
  · refine List.Nodup.sublist (hs.map HullPt.id) ?_
    rw [List.map_reverse, List.nodup_reverse, (hp.map HullPt.id).nodup_iff, hullPts_ids]
    exact List.nodup_range
  · unfold IsSelection
    rw [List.map_map, List.map_map]
    refine List.map_congr_left fun h hh => ?_
    exact hullPts_get (hp.mem_iff.1 (List.mem_reverse.1 (hs.subset hh)))

/-! ### The sorted list -/

theorem after_of {p a b : V3 K} (ha : Upper p a) (hb : Upper p b) (hz : p.z = 0 ∧ a.z = 0 ∧ b.z = 0) (hne : a ≠ b)
    (h : ¬ Precedes p b a) : After p a b := by
  have h1 : 0 ≤ cw p a b := by
    have e2 : ¬ 0 < cw p b a := fun h' => h (Or.inl h')
    rw [cw_swap] at e2
    linarith
  rcases h1.lt_or_eq with h1 | h1
  · exact Or.inl h1
  · right
    obtain ⟨s, hs, hal⟩ := along_of_cw ha hb hz h1.symm
    refine ⟨s, ?_, hal⟩
    have hd : dist2 p a ≤ dist2 p b := by
      by_contra hc
      exact h (Or.inr ⟨by rw [cw_swap, ← h1, neg_zero], not_le.1 hc⟩)
    rw [dist2_along hal] at hd
    have hpos := dist2_pos ha
    by_contra hc
    rcases (not_lt.1 hc).lt_or_eq with hc | hc
    · have : s * s < 1 := by nlinarith
      nlinarith
    · rw [hc] at hal
      exact hne (along_one hal).symm

/-- What holds before the scan. -/
structure HullSorted (g : GeoCfg K) (sqrt : K → K)
    (sort : (HullPt K → HullPt K → Bool) → List (HullPt K) → List (HullPt K)) (pts : List (V3 K)) (p0 : HullPt K)
    (rest : List (HullPt K)) : Prop where
  lowest : (hullPts pts).foldl g.hullLowestStep none = some p0
  weak : StrictWeak (g.hullBefore sqrt p0.point) (hullPts pts)
  sorted : sort (g.hullBefore sqrt p0.point) (hullPts pts) = p0 :: rest
  perm : (p0 :: rest).Perm (hullPts pts)
  after : (rest.map HullPt.point).Pairwise (After p0.point)
  low : IsLowest pts p0.point
  upper : ∀ x ∈ rest.map HullPt.point, Upper p0.point x

theorem HullSorted.permPts {g : GeoCfg K} {sqrt : K → K}
    {sort : (HullPt K → HullPt K → Bool) → List (HullPt K) → List (HullPt K)} {pts : List (V3 K)} {p0 : HullPt K}
    {rest : List (HullPt K)} (h : HullSorted g sqrt sort pts p0 rest) :
    (p0.point :: rest.map HullPt.point).Perm pts := by
  have := h.perm.map HullPt.point
  rwa [hullPts_points, List.map_cons] at this

theorem hull_sorted (g : GeoCfg K) (h0 : 0 ≤ g.minTolerance) {sqrt : K → K}
    {sort : (HullPt K → HullPt K → Bool) → List (HullPt K) → List (HullPt K)} (hsort : IsSort sort)
    {pts : List (V3 K)} (hr : HullResolved g sqrt pts) (hz : ∀ q ∈ pts, q.z = 0) (hnd : pts.Nodup) (hne : pts ≠ []) :
    ∃ p0 rest, HullSorted g sqrt sort pts p0 rest := by
  have hne' : hullPts pts ≠ [] := by
    intro h
    apply hne
    rw [← hullPts_points pts, h]
    rfl
  obtain ⟨p0, hp0, hlow, hl⟩ := lowest_spec g h0 hr (fun h => hullPts_mem) hne'
  rw [hullPts_points] at hl
  have hw := strictWeak_before g h0 hr hz hl (sp := hullPts pts) (fun h => hullPts_mem)
  obtain ⟨hperm, hpw⟩ := hsort _ _ hw
  have hinj : ∀ a ∈ hullPts pts, ∀ b ∈ hullPts pts, a.point = b.point → a = b := by
    have h2 : ((hullPts pts).map HullPt.point).Nodup := by rw [hullPts_points]; exact hnd
    intro a ha b hb h
    exact List.inj_on_of_nodup_map h2 ha hb h
  have hU : ∀ h ∈ hullPts pts, h ≠ p0 → Upper p0.point h.point := fun h hh hne =>
    hl.upper hz (hullPts_mem hh) fun e => hne (hinj _ hh _ hp0 e)
  have hbf : ∀ a ∈ hullPts pts, ∀ b ∈ hullPts pts,
      g.hullBefore sqrt p0.point a b = true ↔ Precedes p0.point a.point b.point := fun a ha b hb =>
    hullBefore_iff g h0 hr hl.1 (hullPts_mem ha) (hullPts_mem hb)
  obtain ⟨x, rest, hS⟩ : ∃ x rest, sort (g.hullBefore sqrt p0.point) (hullPts pts) = x :: rest := by
    cases h : sort (g.hullBefore sqrt p0.point) (hullPts pts) with
    | nil => rw [h] at hperm; exact absurd hperm.symm.eq_nil hne'
    | cons x rest => exact ⟨x, rest, rfl⟩
  rw [hS] at hperm hpw
  have hmem : ∀ y ∈ x :: rest, y ∈ hullPts pts := fun y hy => hperm.mem_iff.1 hy
  rw [List.pairwise_cons] at hpw
  have hx : x = p0 := by
    by_contra hxp
    have hin : p0 ∈ rest := by
      rcases List.mem_cons.1 (hperm.mem_iff.2 hp0) with h | h
      · exact absurd h.symm hxp
      · exact h
    have h1 := hpw.1 p0 hin
    have h2 := (hbf p0 hp0 x (hmem x (by simp))).2 (Or.inr ⟨cw_pole_left _ _, by
      rw [dist2_self]; exact dist2_pos (hU x (hmem x (by simp)) hxp)⟩)
    rw [h1] at h2
    cases h2
  subst hx
  have hnds : (x :: rest).Nodup := by
    rw [hperm.nodup_iff]
    exact List.Nodup.of_map HullPt.point (by rw [hullPts_points]; exact hnd)
  rw [List.nodup_cons] at hnds
  have hrU : ∀ y ∈ rest, Upper x.point y.point := fun y hy =>
    hU y (hmem y (List.mem_cons_of_mem _ hy)) fun e => hnds.1 (e ▸ hy)
  refine ⟨x, rest, hlow, hw, hS, hperm, ?_, hl, ?_⟩
  · rw [List.pairwise_map]
    refine ((List.Pairwise.and_mem.1 hpw.2).and hnds.2).imp ?_
    rintro a b ⟨⟨ha, hb, h1⟩, h2⟩
    have ha' := hmem a (List.mem_cons_of_mem _ ha)
    have hb' := hmem b (List.mem_cons_of_mem _ hb)
    refine after_of (hrU a ha) (hrU b hb) ⟨hz _ hl.1, hz _ (hullPts_mem ha'), hz _ (hullPts_mem hb')⟩
      (fun e => h2 (hinj a ha' b hb' e)) ?_
    rw [← hbf b hb' a ha', h1]
    simp
  · intro y hy
    obtain ⟨h, hh, rfl⟩ := List.mem_map.1 hy
    exact hrU h hh

/-! ### The reversed tail -/

theorem hullTail_spec (g : GeoCfg K) (sqrt : K → K) (p0 back : V3 K) (S : List (HullPt K)) {z : HullPt K → Prop}
    (hzt : ∀ a ∈ S, g.isValueZero (g.polarAngle a.point back p0 ((a.point.sub back).norm sqrt)
      ((p0.sub back).norm sqrt)) g.tol1D = true ↔ z a) : ∀ j ≤ S.length, (∃ a ∈ S.take j, ¬ z a) →
      ∃ A x B, S.take j = A ++ x :: B ∧ ¬ z x ∧ (∀ y ∈ B, z y) ∧
        g.hullTail sqrt p0 back S j = ok (A.length + 1) := by
  intro j
  induction j with
  | zero => simp
  | succ j ih =>
    intro hj hex
    have hjl : j < S.length := hj
    have hm : S[j] ∈ S := List.getElem_mem hjl
    have htake : S.take (j + 1) = S.take j ++ [S[j]] := by
      rw [List.take_succ, List.getElem?_eq_getElem hjl]; rfl
    rw [GeoCfg.hullTail, vget_of_lt hjl, ok_bind]
    dsimp only
    by_cases h : z S[j]
    · rw [if_pos ((hzt _ hm).2 h)]
      rw [htake] at hex
      obtain ⟨a, ha, hza⟩ := hex
      have ha' : a ∈ S.take j := by
        rcases List.mem_append.1 ha with ha | ha
        · exact ha
        · obtain rfl : a = S[j] := by simpa using ha
          exact absurd h hza
      obtain ⟨A, x, B, e, hx, hB, ht⟩ := ih hjl.le ⟨a, ha', hza⟩
      refine ⟨A, x, B ++ [S[j]], by rw [htake, e]; simp, hx, ?_, ht⟩
      intro y hy
      rcases List.mem_append.1 hy with hy | hy
      · exact hB y hy
      · obtain rfl : y = S[j] := by simpa using hy
        exact h
    · rw [if_neg (fun h' => h ((hzt _ hm).1 h'))]
      refine ⟨S.take j, S[j], [], htake, h, by simp, ?_⟩
      rw [List.length_take, min_eq_left hjl.le]

theorem hullTail_ub (g : GeoCfg K) (sqrt : K → K) (p0 back : V3 K) (S : List (HullPt K))
    (hzt : ∀ a ∈ S, g.isValueZero (g.polarAngle a.point back p0 ((a.point.sub back).norm sqrt)
      ((p0.sub back).norm sqrt)) g.tol1D = true) : ∀ j ≤ S.length, g.hullTail sqrt p0 back S j = ub := by
  intro j
  induction j with
  | zero => intro _; rfl
  | succ j ih =>
    intro hj
    have hjl : j < S.length := hj
    rw [GeoCfg.hullTail, vget_of_lt hjl, ok_bind]
    dsimp only
    rw [if_pos (hzt _ (List.getElem_mem hjl))]
    exact ih hjl.le

/-- Points that are not on one line are not all in one direction. -/
theorem line_all {v w a b c : V3 K} (hvw : v.x ≠ w.x ∨ v.y ≠ w.y) (ha : area2 v w a = 0) (hb : area2 v w b = 0)
    (hc : area2 v w c = 0) : area2 a b c = 0 := by
  have e1 : (w.x - v.x) * area2 a b c = (b.x - a.x) * (area2 v w c - area2 v w a) -
      (c.x - a.x) * (area2 v w b - area2 v w a) := by unfold area2; ring
  have e2 : (w.y - v.y) * area2 a b c = (b.y - a.y) * (area2 v w c - area2 v w a) -
      (c.y - a.y) * (area2 v w b - area2 v w a) := by unfold area2; ring
  rw [ha, hb, hc] at e1 e2
  simp only [sub_self, mul_zero, sub_zero] at e1 e2
  rcases hvw with h | h
  · rcases mul_eq_zero.1 e1 with h' | h'
    · exact absurd (sub_eq_zero.1 h').symm h
    · exact h'
  · rcases mul_eq_zero.1 e2 with h' | h'
    · exact absurd (sub_eq_zero.1 h').symm h
    · exact h'

/-- The order in which the points are processed when the points in the last direction are reversed. -/
theorem reversed_tail {p b : V3 K} {A B : List (V3 K)} {x : V3 K} (hU : ∀ y ∈ A ++ x :: B, Upper p y)
    (hS : (A ++ x :: B).Pairwise (After p)) (hb : b ∈ A ++ x :: B)
    (hlast : ∀ y ∈ A ++ x :: B, 0 ≤ cw p y b) (hx : cw p x b ≠ 0) (hB : ∀ y ∈ B, cw p y b = 0) :
    (A ++ x :: B.reverse).Pairwise (AfterC (A ++ x :: B) p) ∧
      ∀ y, (A ++ x :: B.reverse).head? = some y → IsFirstDir (A ++ x :: B) p y := by
  have hxm : x ∈ A ++ x :: B := by simp
  have hxpos : 0 < cw p x b := lt_of_le_of_ne (hlast x hxm) (Ne.symm hx)
  have hAm : ∀ a ∈ A, a ∈ A ++ x :: B := fun a ha => by simp [ha]
  have hBm : ∀ a ∈ B, a ∈ A ++ x :: B := fun a ha => by simp [ha]
  have hS' := hS
  rw [List.pairwise_append, List.pairwise_cons] at hS
  obtain ⟨hA, ⟨hxB, hBB⟩, hAB⟩ := hS
  have hnl : ∀ a ∈ A ++ [x], ¬ IsLastDir (A ++ x :: B) p a := by
    intro a ha hl
    have h1 := hl b hb
    have : 0 < cw p a b := by
      rcases List.mem_append.1 ha with ha | ha
      · have hax := (hAB a ha x (by simp)).nonneg
        obtain ⟨h3, h4⟩ := cw_trans (hU a (hAm a ha)) (hU x hxm) (hU b hb) hax hxpos.le
        exact lt_of_le_of_ne h3 fun h => hx (h4 h.symm).2
      · obtain rfl : a = x := by simpa using ha
        exact hxpos
    rw [cw_swap] at h1
    linarith
  have hBl : ∀ a ∈ B, IsLastDir (A ++ x :: B) p a := by
    intro a ha q hq
    have hab := hB a ha
    have hba : cw p b a = 0 := by rw [cw_swap, hab, neg_zero]
    by_contra hc
    have hqb := hlast q hq
    obtain ⟨h3, -⟩ := cw_trans (hU q hq) (hU b hb) (hU a (hBm a ha)) hqb hba.ge
    exact hc h3
  have conv : ∀ a c, a ∈ A ++ [x] → After p a c → AfterC (A ++ x :: B) p a c := by
    intro a c ha h
    rcases h with h | h
    · exact Or.inl h
    · exact Or.inr (Or.inl ⟨hnl a ha, h⟩)
  constructor
  · rw [List.pairwise_append, List.pairwise_cons]
    refine ⟨?_, ⟨?_, ?_⟩, ?_⟩
    · exact (List.Pairwise.and_mem.1 hA).imp fun ⟨h1, _, h3⟩ => conv _ _ (by simp [h1]) h3
    · intro c hc
      exact conv _ _ (by simp) (hxB c (List.mem_reverse.1 hc))
    · rw [List.pairwise_reverse]
      refine (List.Pairwise.and_mem.1 hBB).imp ?_
      rintro a c ⟨ha, hc, h⟩
      rcases h with h | ⟨s, hs, h⟩
      · have := hBl a ha c (hBm c hc)
        rw [cw_swap] at this
        linarith
      · refine Or.inr (Or.inr ⟨hBl c hc, 1 / s, by positivity, ?_, ?_⟩)
        · rw [div_lt_one (by linarith)]; exact hs
        · obtain ⟨h1, h2, h3⟩ := h
          have hs0 : s ≠ 0 := by linarith
          refine ⟨?_, ?_, ?_⟩
          · rw [h1]; field_simp
          · rw [h2]; field_simp
          · rw [h3]; field_simp
    · intro a ha c hc
      refine conv _ _ (by simp [ha]) (hAB a ha c ?_)
      rcases List.mem_cons.1 hc with rfl | hc
      · simp
      · exact List.mem_cons_of_mem _ (List.mem_reverse.1 hc)
  · have first : ∀ y l, A ++ x :: B = y :: l → IsFirstDir (A ++ x :: B) p y := by
      intro y l e q hq
      rw [e] at hS' hq
      rcases List.mem_cons.1 hq with rfl | hq
      · rw [cw_self]
      · exact ((List.pairwise_cons.1 hS').1 q hq).nonneg
    intro y hy
    cases A with
    | nil =>
      obtain rfl : x = y := by simpa using hy
      exact first x B rfl
    | cons a A =>
      obtain rfl : a = y := by simpa using hy
      exact first a _ rfl

/-! ### Convex combinations -/

theorem InHull.convexComb {vs : List (V3 K)} (hnd : vs.Nodup) {p : V3 K} (h : InHull vs p) : ConvexComb vs p := by
  induction h with
  | pt p hp =>
    have key : ∀ f : V3 K → K, (vs.map fun v => (if v = p then 1 else 0) * f v).sum = f p := by
      intro f
      clear * - hnd hp
      induction vs with
      | nil => simp at hp
      | cons v vs ih =>
        rw [List.nodup_cons] at hnd
        rw [List.map_cons, List.sum_cons]
        rcases List.mem_cons.1 hp with rfl | hp
        · have : (vs.map fun v => (if v = p then (1 : K) else 0) * f v).sum = 0 := by
            apply List.sum_eq_zero
            intro y hy
            obtain ⟨v, hv, rfl⟩ := List.mem_map.1 hy
            rw [if_neg (fun e : v = p => hnd.1 (e ▸ hv)), zero_mul]
          rw [this, if_pos rfl, one_mul, add_zero]
        · rw [ih hnd.2 hp, if_neg (fun e : v = p => hnd.1 (e ▸ hp)), zero_mul, zero_add]
    refine ⟨fun v => if v = p then 1 else 0, fun v _ => ?_, ?_, ?_, ?_, ?_⟩
    · dsimp only; split <;> simp
    · have := key fun _ => 1
      simpa using this
    · exact (key V3.x).symm
    · exact (key V3.y).symm
    · exact (key V3.z).symm
  | comb a b s t _ _ hs ht hst iha ihb =>
    obtain ⟨wa, a1, a2, a3, a4, a5⟩ := iha
    obtain ⟨wb, b1, b2, b3, b4, b5⟩ := ihb
    have key : ∀ f : V3 K → K, (vs.map fun v => (s * wa v + t * wb v) * f v).sum =
        s * (vs.map fun v => wa v * f v).sum + t * (vs.map fun v => wb v * f v).sum := by
      intro f
      clear * -
      induction vs with
      | nil => simp
      | cons v vs ih =>
        simp only [List.map_cons, List.sum_cons, ih]
        ring
    refine ⟨fun v => s * wa v + t * wb v, fun v hv => ?_, ?_, ?_, ?_, ?_⟩
    · exact add_nonneg (mul_nonneg hs (a1 v hv)) (mul_nonneg ht (b1 v hv))
    · have := key fun _ => 1
      simp only [mul_one] at this
      rw [this, a2, b2, mul_one, mul_one, hst]
    · rw [key V3.x, ← a3, ← b3]; rfl
    · rw [key V3.y, ← a4, ← b4]; rfl
    · rw [key V3.z, ← a5, ← b5]; rfl

end Verif
