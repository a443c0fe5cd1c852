import Verif.MarkSpec
import Verif.CheckRunLemmas
import Verif.PointPosProps

namespace Verif

open Res

variable {K : Type} [Field K] [LinearOrder K] [IsStrictOrderedRing K]

namespace Mesh

theorem foldRes_one {σ β : Type} (f : σ → β → Res σ) (s : σ) (x : β) : foldRes f s [x] = f s x := by
  rw [foldRes_cons]
  cases f s x <;> rfl

/-- Markers of dimension `d` replaced. -/
def remark (m : Mesh K) (d : Dim) (l : List Nat) : Mesh K := { m with mark := fset m.mark d l }

theorem remark_self (m : Mesh K) (d : Dim) : m.remark d (m.mark d) = m := by
  unfold remark
  have : fset m.mark d (m.mark d) = m.mark := by
    funext x; unfold fset; split
    · rename_i h; rw [h]
    · rfl
  rw [this]

theorem setMark_remark {m : Mesh K} {d : Dim} {l : List Nat} {i a : Nat} (hi : i < m.num d)
    (hl : l.length = m.num d) : (m.remark d l).setMark d i a = ok (m.remark d (l.set i a)) := by
  unfold Mesh.setMark
  have e : (m.remark d l).mark d = l := by simp [remark, fset]
  rw [assert_true (show i < (m.remark d l).num d from hi), ok_bind, e, vset_of_lt _ (by omega), ok_bind]
  congr 1
  unfold remark
  simp only
  congr 1
  funext x; unfold fset; split <;> rfl

theorem marker_remark_same {m : Mesh K} {d : Dim} {l : List Nat} {i : Nat} (hi : i < m.num d)
    (hl : l.length = m.num d) : (m.remark d l).marker d i = ok (l[i]'(by omega)) := by
  unfold Mesh.marker
  have e : (m.remark d l).mark d = l := by simp [remark, fset]
  rw [assert_true (show i < (m.remark d l).num d from hi), ok_bind, e, vget_of_lt]

theorem marker_remark_ne {m : Mesh K} {d d' : Dim} {l : List Nat} {i : Nat} (h : d' ≠ d) :
    (m.remark d l).marker d' i = m.marker d' i := by
  unfold Mesh.marker
  have e : (m.remark d l).mark d' = m.mark d' := by simp [remark, fset, h]
  rw [e]
  rfl

theorem remark_wf {m : Mesh K} (h : m.WF) {d : Dim} {l : List Nat} (hl : l.length = m.num d) : (m.remark d l).WF :=
  ⟨h.coord, h.ext, fun x => by
    show (fset m.mark d l x).length = m.num x
    unfold fset; split
    · rename_i e; rw [e, hl]
    · exact h.mark x, h.act, h.orig0, h.orig, h.upd, h.ids, h.ids_nodup, h.props, h.lists⟩

theorem point_remark (m : Mesh K) (d : Dim) (l : List Nat) (i : Nat) : (m.remark d l).point i = m.point i := rfl

theorem extremes_remark (m : Mesh K) (d : Dim) (l : List Nat) (i : Nat) :
    (m.remark d l).extremes i = m.extremes i := rfl

/-- The loop over the vertices. -/
theorem markVertices_ok {m : Mesh K} (h : m.WF) {test : V3 K → Res Bool}
    (marker k : Nat) (hk : k ≤ m.num .d0) (ht : ∀ i p, i < k → m.point i = ok p → ∃ b, test p = ok b) :
    ∃ l on, foldRes (markVertex test marker) (m, List.replicate (m.num .d0) false) (List.range k) =
        ok (m.remark .d0 l, on) ∧ l.length = m.num .d0 ∧ on.length = m.num .d0 ∧
      ∀ i p b, m.point i = ok p → test p = ok b →
        (on[i]? = some (b && decide (i < k))) ∧
        (l[i]? = if b && decide (i < k) then some marker else (m.mark .d0)[i]?) := by
  induction k with
  | zero =>
    refine ⟨m.mark .d0, _, by rw [remark_self]; rfl, h.mark .d0, by simp, ?_⟩
    intro i p b hp _
    have := point_lt hp
    simp [this]
  | succ k ih =>
    obtain ⟨l, on, e, hl, ho, H⟩ := ih (by omega) fun i p hi => ht i p (by omega)
    obtain ⟨p, hp⟩ := point_of_lt h (show k < m.num .d0 by omega)
    obtain ⟨b, hb⟩ := ht k p (by omega) hp
    rw [List.range_succ, foldRes_append, e, ok_bind, foldRes_one]
    unfold markVertex
    simp only
    rw [point_remark, hp, ok_bind, hb, ok_bind]
    cases b with
    | false =>
      refine ⟨l, on, by simp, hl, ho, ?_⟩
      intro i q c hq hc
      obtain ⟨h1, h2⟩ := H i q c hq hc
      have key : (c && decide (i < k + 1)) = (c && decide (i < k)) := by
        by_cases hik : i = k
        · subst hik
          rw [hp, ok.injEq] at hq
          subst hq
          rw [hb, ok.injEq] at hc
          subst hc
          simp
        · congr 1
          rw [decide_eq_decide]
          omega
      rw [key]
      exact ⟨h1, h2⟩
    | true =>
      simp only [if_true]
      rw [vset_of_lt _ (by omega), ok_bind, setMark_remark (by omega) hl, ok_bind]
      refine ⟨_, _, rfl, by simpa using hl, by simpa using ho, ?_⟩
      intro i q c hq hc
      obtain ⟨h1, h2⟩ := H i q c hq hc
      by_cases hik : i = k
      · subst hik
        rw [hp, ok.injEq] at hq
        subst hq
        rw [hb, ok.injEq] at hc
        subst hc
        simp [ho, hl, show i < m.num .d0 by omega]
      · have key : decide (i < k + 1) = decide (i < k) := by rw [decide_eq_decide]; omega
        rw [key, List.getElem?_set_ne (Ne.symm hik), List.getElem?_set_ne (Ne.symm hik)]
        exact ⟨h1, h2⟩

/-- The loop over the edges. -/
theorem markEdges_ok {m : Mesh K} (h : m.WF) {on : List Bool} (ho : on.length = m.num .d0)
    (hx : EndsExist m) (marker k : Nat) (hk : k ≤ m.num .d1) :
    ∃ l, foldRes (markEdge on marker) m (List.range k) = ok (m.remark .d1 l) ∧ l.length = m.num .d1 ∧
      ∀ e x y a b, m.extremes e = ok (x, y) → on[x]? = some a → on[y]? = some b →
        (l[e]? = if a && b && decide (e < k) then some marker else (m.mark .d1)[e]?) := by
  induction k with
  | zero =>
    refine ⟨m.mark .d1, by rw [remark_self]; rfl, h.mark .d1, ?_⟩
    intro e x y a b _ _ _
    simp
  | succ k ih =>
    obtain ⟨l, e, hl, H⟩ := ih (by omega)
    obtain ⟨⟨x, y⟩, hxy⟩ := m.extremes_exists h (show k < m.num .d1 by omega)
    obtain ⟨h1, h2⟩ := hx k x y hxy
    rw [List.range_succ, foldRes_append, e, ok_bind, foldRes_one]
    unfold markEdge
    rw [extremes_remark, hxy, ok_bind]
    simp only
    rw [vget_of_lt (show x < on.length by omega), ok_bind]
    have keep : (on[x]'(by omega) && on[y]'(by omega)) = false →
        ∀ e' x' y' a b, m.extremes e' = ok (x', y') → on[x']? = some a → on[y']? = some b →
          (l[e']? = if a && b && decide (e' < k + 1) then some marker else (m.mark .d1)[e']?) := by
      intro hf e' x' y' a b h3 h4 h5
      rw [H e' x' y' a b h3 h4 h5]
      have key : (a && b && decide (e' < k + 1)) = (a && b && decide (e' < k)) := by
        by_cases hik : e' = k
        · subst hik
          rw [hxy, ok.injEq, Prod.mk.injEq] at h3
          obtain ⟨rfl, rfl⟩ := h3
          rw [List.getElem?_eq_getElem (by omega), Option.some.injEq] at h4 h5
          rw [← h4, ← h5, hf]
          simp
        · congr 1
          rw [decide_eq_decide]
          omega
      rw [key]
    cases ha : on[x]'(by omega) with
    | false =>
      refine ⟨l, by simp, hl, keep (by rw [ha]; rfl)⟩
    | true =>
      simp only [if_true]
      rw [vget_of_lt (show y < on.length by omega), ok_bind]
      cases hb : on[y]'(by omega) with
      | false => refine ⟨l, by simp, hl, keep (by rw [ha, hb]; rfl)⟩
      | true =>
        simp only [if_true]
        rw [setMark_remark (by omega) hl]
        refine ⟨_, rfl, by simpa using hl, ?_⟩
        intro e' x' y' a b h3 h4 h5
        by_cases hik : e' = k
        · subst hik
          rw [hxy, ok.injEq, Prod.mk.injEq] at h3
          obtain ⟨rfl, rfl⟩ := h3
          rw [List.getElem?_eq_getElem (by omega), Option.some.injEq] at h4 h5
          rw [← h4, ← h5, ha, hb]
          simp [hl, show e' < m.num .d1 by omega]
        · have key : decide (e' < k + 1) = decide (e' < k) := by rw [decide_eq_decide]; omega
          rw [key, List.getElem?_set_ne (Ne.symm hik)]
          exact H e' x' y' a b h3 h4 h5

/-- Both loops. -/
theorem markOn_ok {m : Mesh K} (h : m.WF) (hx : EndsExist m) {test : V3 K → Res Bool}
    {On : V3 K → Prop} (marker : Nat)
    (ht : ∀ i p, m.point i = ok p → ∃ b, test p = ok b ∧ (b = true ↔ On p)) :
    ∃ m', m.markOn test marker = ok m' ∧ m'.WF ∧ MarkedOn On marker m m' := by
  obtain ⟨l, on, e, hl, ho, H⟩ := markVertices_ok h marker (m.num .d0) le_rfl fun i p _ hp => by
    obtain ⟨b, hb, -⟩ := ht i p hp; exact ⟨b, hb⟩
  have hw := remark_wf h hl
  obtain ⟨l', e', hl', H'⟩ := markEdges_ok hw (on := on) ho (fun e x y he => hx e x y he) marker
    (m.num .d1) le_rfl
  refine ⟨_, by unfold markOn; rw [e, ok_bind]; exact e', remark_wf hw hl', ?_, ?_, ?_, ?_⟩
  · rfl
  · intro d h0 h1
    simp [remark, fset, h0, h1]
  · intro i p hp
    have hi := point_lt hp
    obtain ⟨b, hb, hon⟩ := ht i p hp
    have := (H i p b hp hb).2
    rw [marker_remark_ne (by simp), marker_remark_same hi hl]
    simp only [hi, decide_true, Bool.and_true] at this
    constructor
    · intro hO
      rw [hon.2 hO, if_pos rfl, List.getElem?_eq_getElem (by omega), Option.some.injEq] at this
      rw [this]
    · intro hO
      rw [if_neg (fun hb => hO (hon.1 hb)), List.getElem?_eq_getElem (by omega),
        List.getElem?_eq_getElem (by rw [h.mark]; omega), Option.some.injEq] at this
      unfold Mesh.marker
      rw [this, assert_true hi, ok_bind, vget_of_lt]
  · intro ed x y p q hxy hp hq
    have he : ed < m.num .d1 := extremes_lt hxy
    obtain ⟨a, ha, hona⟩ := ht x p hp
    obtain ⟨b, hb, honb⟩ := ht y q hq
    have h1 := (H x p a hp ha).1
    have h2 := (H y q b hq hb).1
    simp only [point_lt hp, point_lt hq, decide_true, Bool.and_true] at h1 h2
    have := H' ed x y a b hxy h1 h2
    rw [marker_remark_same (m := m.remark .d0 l) he hl']
    simp only [he, decide_true, Bool.and_true] at this
    have hm : (m.remark .d0 l).mark .d1 = m.mark .d1 := by simp [remark, fset]
    rw [hm] at this
    constructor
    · intro hO hO'
      rw [hona.2 hO, honb.2 hO', Bool.and_self, if_pos rfl, List.getElem?_eq_getElem (by rw [hl']; exact he), Option.some.injEq] at this
      rw [this]
    · intro hO
      rw [if_neg (by rw [Bool.and_eq_true]; exact fun hb => hO ⟨hona.1 hb.1, honb.1 hb.2⟩),
        List.getElem?_eq_getElem (by rw [hl']; exact he),
        List.getElem?_eq_getElem (by rw [h.mark]; omega), Option.some.injEq] at this
      unfold Mesh.marker
      rw [this, assert_true he, ok_bind, vget_of_lt]

end Mesh

theorem dist2_line (o t p : V3 K) (s : K) : dist2 p (o.add (V3.smul s t)) * t.dot t =
    ((p.sub o).cross t).dot ((p.sub o).cross t) + (s * t.dot t - (p.sub o).dot t) * (s * t.dot t - (p.sub o).dot t) := by
  simp only [dist2, V3.add, V3.smul, V3.dot, V3.cross, V3.sub]
  ring

theorem isPointOnLine_iff (g : GeoCfg K) {o t p : V3 K} (ht : 0 < t.dot t) :
    g.isPointOnLine p o t (t.dot t) = true ↔ g.NearLine o t p := by
  unfold GeoCfg.isPointOnLine GeoCfg.NearLine
  have hc : 0 ≤ ((p.sub o).cross t).dot ((p.sub o).cross t) := dot_self_nonneg _
  simp only [Bool.or_eq_true, Bool.and_eq_true, decide_eq_true_eq]
  rw [g.zero_sq, g.zero_sq, abs_of_nonneg (dot_self_nonneg _), abs_of_nonneg (div_nonneg hc ht.le)]
  constructor
  · rintro (h | ⟨-, h⟩)
    · refine ⟨0, ?_⟩
      have : dist2 p (o.add (V3.smul 0 t)) = (p.sub o).dot (p.sub o) := by
        simp only [dist2, V3.add, V3.smul, V3.dot, V3.sub]; ring
      rw [this]; exact h
    · refine ⟨(p.sub o).dot t / t.dot t, ?_⟩
      have e := dist2_line o t p ((p.sub o).dot t / t.dot t)
      rw [div_mul_cancel₀ _ ht.ne', sub_self, mul_zero, add_zero] at e
      rw [div_le_iff₀ ht] at h
      rw [← e] at h
      exact le_of_mul_le_mul_right h ht
  · rintro ⟨s, hs⟩
    right
    refine ⟨ht.ne', ?_⟩
    rw [div_le_iff₀ ht]
    have e := dist2_line o t p s
    have := mul_le_mul_of_nonneg_right hs ht.le
    have := mul_self_nonneg (s * t.dot t - (p.sub o).dot t)
    linarith

theorem isVertexOnSegment_ok {sqrt : K → K} (hs : IsSqrt sqrt) (g : GeoCfg K) (h0 : 0 ≤ g.minTolerance)
    (hT : g.tol1D < 1 / 2) (h1 : g.tolSq ≤ 1) {o t p : V3 K} (ht : 0 < t.dot t)
    (hf : (o.z = 0 ∧ t.z = 0 ∧ p.z = 0) ∨ (g.NearLine o t p → g.OnLine o (o.add t) p)) :
    ∃ b, g.isVertexOnSegment sqrt o t (t.dot t) p = ok b ∧ (b = true ↔ g.NearSegment o t p) := by
  unfold GeoCfg.isVertexOnSegment
  by_cases hn : g.NearLine o t p
  swap
  · refine ⟨false, ?_, ?_⟩
    · rw [if_pos]
      rw [← Bool.not_eq_true, isPointOnLine_iff g ht]
      exact hn
    · simp [GeoCfg.NearSegment, hn]
  rw [if_neg (by rw [(isPointOnLine_iff g ht).2 hn]; simp)]
  by_cases hl : g.OnLine o (o.add t) p
  · have hd : dist2 o (o.add t) ≠ 0 := by
      have : dist2 o (o.add t) = t.dot t := by simp only [dist2, V3.add, V3.dot]; ring
      rw [this]; exact ht.ne'
    rw [side_on_line hs g p o _ hl, if_neg hd]
    obtain ⟨c1, c2, c3, c4, c5, -⟩ := c29_position g (coordOn o (o.add t) p) h0 hT
    unfold GeoCfg.NearSegment
    by_cases hc : -g.tol1D ≤ coordOn o (o.add t) p ∧ coordOn o (o.add t) p ≤ 1 + g.tol1D
    · refine ⟨true, ?_, by simp [hn, hl, hc]⟩
      obtain ⟨l1, l2⟩ := hc
      by_cases z : |coordOn o (o.add t) p| ≤ g.tol1D
      · rw [c2.2 z, ok_bind]
      by_cases e : |coordOn o (o.add t) p - 1| ≤ g.tol1D
      · rw [c4.2 e, ok_bind]
      rw [c3.2 ?_, ok_bind]
      rw [abs_le, not_and_or, not_le, not_le] at z e
      constructor
      · rcases z with z | z <;> linarith
      · rcases e with e | e <;> linarith
    · refine ⟨false, ?_, by simp only [hn, hl, true_and, hc, iff_false]; simp⟩
      rw [not_and_or, not_le, not_le] at hc
      rcases hc with hc | hc
      · rw [c1.2 hc, ok_bind]
      · rw [c5.2 hc, ok_bind]
  · rcases hf with ⟨ho, hz, hp⟩ | hf
    swap
    · exact absurd (hf hn) hl
    rw [side_off_line_2d hs g h0 h1 p o _ ho (by simp [V3.add, ho, hz]) hp hl, ok_bind]
    refine ⟨false, ?_, by simp [GeoCfg.NearSegment, hl]⟩
    split <;> rename_i e <;> split at e <;> simp at e ⊢

end Verif
