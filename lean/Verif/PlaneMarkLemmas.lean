import Verif.PlaneMarkSpec
import Verif.MarkLemmas
import Verif.BisectStepLemmas
import Verif.ExtractLemmas
import Verif.CompareProps

/-
Lemmas for C122 and C123.
-/
namespace Verif

open Res

variable {K : Type} [Field K] [LinearOrder K] [IsStrictOrderedRing K]

namespace MarkedWhere

variable {S T : Dim → Nat → Prop} {marker : Nat} {m m' m'' : Mesh K}

theorem num_eq (h : MarkedWhere S marker m m') (d : Dim) : m'.num d = m.num d := by rw [h.same]

theorem refl (m : Mesh K) (marker : Nat) (hS : ∀ d i, ¬ S d i) : MarkedWhere S marker m m :=
  ⟨rfl, fun d i _ h => absurd h (hS d i), fun _ _ _ => rfl⟩

theorem trans (h : MarkedWhere S marker m m') (h' : MarkedWhere T marker m' m'') {U : Dim → Nat → Prop}
    (hU : ∀ d i, U d i ↔ S d i ∨ T d i) : MarkedWhere U marker m m'' := by
  refine ⟨?_, fun d i hi hu => ?_, fun d i hu => ?_⟩
  · rw [h'.same]
    conv_lhs => rw [h.same]
  · by_cases ht : T d i
    · exact h'.inside d i (by rw [h.num_eq]; exact hi) ht
    · rw [h'.outside d i ht]
      exact h.inside d i hi (((hU d i).1 hu).resolve_right ht)
  · rw [h'.outside d i fun ht => hu ((hU d i).2 (Or.inr ht)), h.outside d i fun hs => hu ((hU d i).2 (Or.inl hs))]

theorem congr (h : MarkedWhere S marker m m') (e : ∀ d i, T d i ↔ S d i) : MarkedWhere T marker m m' :=
  ⟨h.same, fun d i hi ht => h.inside d i hi ((e d i).1 ht), fun d i ht => h.outside d i fun hs => ht ((e d i).2 hs)⟩

theorem point (h : MarkedWhere S marker m m') (i : Nat) : m'.point i = m.point i := by rw [h.same]; rfl

theorem extremes (h : MarkedWhere S marker m m') (i : Nat) : m'.extremes i = m.extremes i := by rw [h.same]; rfl

theorem row (h : MarkedWhere S marker m m') (l : Lst) (i : Nat) : m'.row l i = m.row l i := by rw [h.same]; rfl

end MarkedWhere

namespace Mesh

/-- One marker is set. -/
theorem setMark_where {m : Mesh K} (h : m.WF) {d : Dim} {i : Nat} (hi : i < m.num d) (marker : Nat) :
    ∃ m', m.setMark d i marker = ok m' ∧ m'.WF ∧ MarkedWhere (fun e j => e = d ∧ j = i) marker m m' := by
  have e := setMark_remark (m := m) (d := d) (l := m.mark d) (a := marker) hi (h.mark d)
  rw [remark_self] at e
  have hl : ((m.mark d).set i marker).length = m.num d := by rw [List.length_set, h.mark d]
  refine ⟨_, e, remark_wf h hl, rfl, ?_, ?_⟩
  · rintro _ _ hj ⟨rfl, rfl⟩
    rw [marker_remark_same hj hl]
    simp
  · intro d' j hne
    by_cases he : d' = d
    · subst he
      have hji : j ≠ i := fun hj => hne ⟨rfl, hj⟩
      unfold Mesh.marker
      have : (m.remark d' ((m.mark d').set i marker)).mark d' = (m.mark d').set i marker := by simp [remark, fset]
      rw [this]
      unfold vget
      rw [List.getElem?_set_ne (Ne.symm hji)]
      rfl
    · exact marker_remark_ne he

/-- The loop over the vertices. -/
theorem markVertices_where {m : Mesh K} (h : m.WF) {test : V3 K → Bool} (marker k : Nat) (hk : k ≤ m.num .d0) :
    ∃ m' on, foldRes (markVertex (fun p => ok (test p)) marker) (m, List.replicate (m.num .d0) false) (List.range k) =
        ok (m', on) ∧ m'.WF ∧ MarkedWhere (fun d i => d = .d0 ∧ i < k ∧ VertexIn m (fun p => test p = true) i) marker m m' ∧
      on.length = m.num .d0 ∧
      ∀ i p, m.point i = ok p → on[i]? = some (test p && decide (i < k)) := by
  induction k with
  | zero =>
    refine ⟨m, _, rfl, h, MarkedWhere.refl m marker (by rintro d i ⟨-, h, -⟩; omega), by simp, ?_⟩
    intro i p hp
    have := point_lt hp
    simp [this]
  | succ k ih =>
    obtain ⟨m1, on, e, hw, M, ho, H⟩ := ih (by omega)
    obtain ⟨p, hp⟩ := point_of_lt h (show k < m.num .d0 by omega)
    rw [List.range_succ, foldRes_append, e, ok_bind, foldRes_one]
    unfold markVertex
    simp only [M.point, hp, ok_bind]
    cases hb : test p with
    | false =>
      refine ⟨m1, on, by simp, hw, M.congr ?_, ho, ?_⟩
      · intro d i
        constructor
        · rintro ⟨h1, h2, q, hq, hq'⟩
          rcases Nat.lt_succ_iff_lt_or_eq.1 h2 with h2 | rfl
          · exact ⟨h1, h2, q, hq, hq'⟩
          · rw [hp, ok.injEq] at hq
            subst hq
            simp [hb] at hq'
        · rintro ⟨h1, h2, h3⟩
          exact ⟨h1, by omega, h3⟩
      · intro i q hq
        rw [H i q hq]
        by_cases hik : i = k
        · subst hik
          rw [hp, ok.injEq] at hq
          subst hq
          simp [hb]
        · have : decide (i < k + 1) = decide (i < k) := by rw [decide_eq_decide]; omega
          rw [this]
    | true =>
      obtain ⟨m2, e2, hw2, M2⟩ := setMark_where hw (d := .d0) (i := k) (by rw [M.num_eq]; omega) marker
      simp only [if_true]
      rw [vset_of_lt _ (by omega), ok_bind, e2, ok_bind]
      refine ⟨m2, _, rfl, hw2, M.trans M2 ?_, by simpa using ho, ?_⟩
      · intro d i
        constructor
        · rintro ⟨h1, h2, h3⟩
          rcases Nat.lt_succ_iff_lt_or_eq.1 h2 with h2 | rfl
          · exact Or.inl ⟨h1, h2, h3⟩
          · exact Or.inr ⟨h1, rfl⟩
        · rintro (⟨h1, h2, h3⟩ | ⟨rfl, rfl⟩)
          · exact ⟨h1, by omega, h3⟩
          · exact ⟨rfl, by omega, p, hp, hb⟩
      · intro i q hq
        by_cases hik : i = k
        · subst hik
          rw [hp, ok.injEq] at hq
          subst hq
          rw [List.getElem?_set_self (by omega)]
          simp [hb]
        · have : decide (i < k + 1) = decide (i < k) := by rw [decide_eq_decide]; omega
          rw [List.getElem?_set_ne (Ne.symm hik), H i q hq, this]

theorem vget_flag {m : Mesh K} (h : m.WF) {test : V3 K → Bool} {on : List Bool}
    (H : ∀ i p, m.point i = ok p → on[i]? = some (test p)) {v : Nat} (hv : v < m.num .d0) :
    ∃ b, vget on v = ok b ∧ (b = true ↔ VertexIn m (fun p => test p = true) v) := by
  obtain ⟨p, hp⟩ := point_of_lt h hv
  refine ⟨test p, vget_eq_ok.2 (H v p hp), fun hb => ⟨p, hp, hb⟩, ?_⟩
  rintro ⟨q, hq, hq'⟩
  rw [hp, ok.injEq] at hq
  subst hq
  exact hq'

theorem VertexIn.of_eq {m m' : Mesh K} (e : ∀ i, m'.point i = m.point i) (On : V3 K → Prop) (v : Nat) :
    VertexIn m' On v ↔ VertexIn m On v := by unfold VertexIn; rw [e]

/-- A loop in which every round may set one marker. -/
theorem markLoop_where {m : Mesh K} (h : m.WF) (d : Dim) (marker : Nat) (f : Mesh K → Nat → Res (Mesh K)) (P : Nat → Prop)
    (T : Dim → Nat → Prop) (m0 : Mesh K) (hm : MarkedWhere T marker m0 m)
    (hf : ∀ m1 T1, m1.WF → MarkedWhere T1 marker m0 m1 → ∀ i, i < m0.num d →
      (P i ∧ f m1 i = m1.setMark d i marker) ∨ (¬ P i ∧ f m1 i = ok m1)) (k : Nat) (hk : k ≤ m0.num d) :
    ∃ m', foldRes f m (List.range k) = ok m' ∧ m'.WF ∧
      MarkedWhere (fun e i => T e i ∨ (e = d ∧ i < k ∧ P i)) marker m0 m' := by
  induction k with
  | zero => exact ⟨m, rfl, h, hm.congr fun e i => by constructor <;> [rintro (h | ⟨-, h, -⟩); exact Or.inl] <;> first | exact h | omega⟩
  | succ k ih =>
    obtain ⟨m1, e1, hw1, M1⟩ := ih (by omega)
    rw [List.range_succ, foldRes_append, e1, ok_bind, foldRes_one]
    rcases hf m1 _ hw1 M1 k (by omega) with ⟨hP, he⟩ | ⟨hP, he⟩
    · obtain ⟨m2, e2, hw2, M2⟩ := setMark_where hw1 (d := d) (i := k) (by rw [M1.num_eq]; omega) marker
      refine ⟨m2, by rw [he, e2], hw2, M1.trans M2 ?_⟩
      intro e i
      constructor
      · rintro (h1 | ⟨h1, h2, h3⟩)
        · exact Or.inl (Or.inl h1)
        · rcases Nat.lt_succ_iff_lt_or_eq.1 h2 with h2 | rfl
          · exact Or.inl (Or.inr ⟨h1, h2, h3⟩)
          · exact Or.inr ⟨h1, rfl⟩
      · rintro ((h1 | ⟨h1, h2, h3⟩) | ⟨rfl, rfl⟩)
        · exact Or.inl h1
        · exact Or.inr ⟨h1, by omega, h3⟩
        · exact Or.inr ⟨rfl, by omega, hP⟩
    · refine ⟨m1, he, hw1, M1.congr ?_⟩
      intro e i
      constructor
      · rintro (h1 | ⟨h1, h2, h3⟩)
        · exact Or.inl h1
        · rcases Nat.lt_succ_iff_lt_or_eq.1 h2 with h2 | rfl
          · exact Or.inr ⟨h1, h2, h3⟩
          · exact absurd h3 hP
      · rintro (h1 | ⟨h1, h2, h3⟩)
        · exact Or.inl h1
        · exact Or.inr ⟨h1, by omega, h3⟩

theorem allOn_ok {m : Mesh K} (h : m.WF) {test : V3 K → Bool} {on : List Bool}
    (H : ∀ i p, m.point i = ok p → on[i]? = some (test p)) (vs : List Nat) (hv : ∀ v ∈ vs, v < m.num .d0) :
    ∃ b, allOn on vs = ok b ∧ (b = true ↔ ∀ v ∈ vs, VertexIn m (fun p => test p = true) v) := by
  induction vs with
  | nil => exact ⟨true, rfl, by simp⟩
  | cons v vs ih =>
    obtain ⟨b, hb, hb'⟩ := vget_flag h H (hv v (by simp))
    obtain ⟨c, hc, hc'⟩ := ih fun w hw => hv w (by simp [hw])
    unfold allOn
    rw [hb, ok_bind]
    cases b with
    | false => exact ⟨false, by simp, by simp only [Bool.false_eq_true, false_iff] at hb' ⊢; exact fun hall => hb' (hall v (by simp))⟩
    | true =>
      refine ⟨c, by simpa using hc, ?_⟩
      rw [hc']
      simp only [true_iff] at hb'
      simp [hb']

end Mesh

/-- `SetMeshMarkersOnPlane` for any test. -/
theorem plane_where {m : Mesh K} (hw : m.WF) (hx : EndsExist m) (hc : CornersExist m) (test : V3 K → Bool) (marker : Nat) :
    ∃ m', (do
        let s ← foldRes (Mesh.markVertex (fun p => ok (test p)) marker)
          (m, List.replicate (m.num .d0) false) (List.range (m.num .d0))
        let m ← foldRes (Mesh.markEdge s.2 marker) s.1 (List.range (s.1.num .d1))
        foldRes (Mesh.markFace s.2 marker) m (List.range (m.num .d2))) = ok m' ∧ m'.WF ∧
      MarkedWhere (AllIn m fun p => test p = true) marker m m' := by
  obtain ⟨m1, on, e1, hw1, M1, ho, H⟩ := Mesh.markVertices_where hw (test := test) marker (m.num .d0) le_rfl
  have H : ∀ i p, m.point i = ok p → on[i]? = some (test p) := by
    intro i p hp
    have := H i p hp
    simpa [point_lt hp] using this
  have n1 : ∀ d, m1.num d = m.num d := M1.num_eq
  obtain ⟨m2, e2, hw2, M2⟩ := Mesh.markLoop_where hw1 .d1 marker (Mesh.markEdge on marker)
    (fun e => AllIn m (fun p => test p = true) .d1 e) _ m M1 (by
      intro n T hn hT e he
      obtain ⟨⟨x, y⟩, hxy⟩ := m.extremes_exists hw he
      obtain ⟨h1, h2⟩ := hx e x y hxy
      obtain ⟨a, ha, ha'⟩ := Mesh.vget_flag hw H h1
      obtain ⟨b, hb, hb'⟩ := Mesh.vget_flag hw H h2
      unfold Mesh.markEdge
      rw [hT.extremes, hxy, ok_bind]
      simp only
      rw [ha, ok_bind]
      have out : ¬ (a = true ∧ b = true) → ¬ AllIn m (fun p => test p = true) .d1 e := by
        rintro hab ⟨x', y', hxy', hx', hy'⟩
        rw [hxy, ok.injEq, Prod.mk.injEq] at hxy'
        obtain ⟨rfl, rfl⟩ := hxy'
        exact hab ⟨ha'.2 hx', hb'.2 hy'⟩
      cases a with
      | false => exact Or.inr ⟨out (by simp), by simp⟩
      | true =>
        simp only [if_true]
        rw [hb, ok_bind]
        cases b with
        | false => exact Or.inr ⟨out (by simp), by simp⟩
        | true => exact Or.inl ⟨⟨x, y, hxy, ha'.1 rfl, hb'.1 rfl⟩, by simp⟩) (m.num .d1) le_rfl
  obtain ⟨m3, e3, hw3, M3⟩ := Mesh.markLoop_where hw2 .d2 marker (Mesh.markFace on marker)
    (fun f => AllIn m (fun p => test p = true) .d2 f) _ m M2 (by
      intro n T hn hT f hf
      obtain ⟨vs, hvs⟩ := Mesh.row_exists hw .vert2 (i := f) hf
      obtain ⟨b, hb, hb'⟩ := Mesh.allOn_ok hw H vs (hc f vs hvs)
      unfold Mesh.markFace
      rw [hT.row, hvs, ok_bind, hb, ok_bind]
      cases b with
      | false =>
        refine Or.inr ⟨?_, by simp⟩
        rintro ⟨vs', hvs', hall⟩
        rw [hvs, ok.injEq] at hvs'
        subst hvs'
        exact absurd (hb'.2 hall) (by simp)
      | true => exact Or.inl ⟨⟨vs, hvs, hb'.1 rfl⟩, by simp⟩) (m.num .d2) le_rfl
  refine ⟨m3, ?_, hw3, M3.congr ?_⟩
  · rw [e1, ok_bind]
    simp only
    rw [n1, e2, ok_bind, M2.num_eq, e3]
  · intro d i
    have l1 : AllIn m (fun p => test p = true) .d1 i → i < m.num .d1 := by
      rintro ⟨x, y, h, -⟩; exact extremes_lt h
    have l0 : AllIn m (fun p => test p = true) .d0 i → i < m.num .d0 := by
      rintro ⟨p, h, -⟩; exact point_lt h
    have l2 : AllIn m (fun p => test p = true) .d2 i → i < m.num .d2 := by
      rintro ⟨vs, h, -⟩
      by_contra hlt
      unfold Mesh.row at h
      rw [assert_false (show ¬ i < m.num (Lst.vert2).owner from hlt)] at h
      cases h
    cases d with
    | d0 => exact ⟨fun h => Or.inl (Or.inl ⟨rfl, l0 h, h⟩), by rintro ((⟨-, -, h⟩ | ⟨h, -⟩) | ⟨h, -⟩) <;> first | exact h | cases h⟩
    | d1 => exact ⟨fun h => Or.inl (Or.inr ⟨rfl, l1 h, h⟩), by rintro ((⟨h, -⟩ | ⟨-, -, h⟩) | ⟨h, -⟩) <;> first | exact h | cases h⟩
    | d2 => exact ⟨fun h => Or.inr ⟨rfl, l2 h, h⟩, by rintro ((⟨h, -⟩ | ⟨h, -⟩) | ⟨-, -, h⟩) <;> first | exact h | cases h⟩
    | d3 => exact ⟨fun h => h.elim, by rintro ((⟨h, -⟩ | ⟨h, -⟩) | ⟨h, -⟩) <;> cases h⟩

theorem norm_mul_self {sqrt : K → K} (hs : IsSqrt sqrt) (a : V3 K) : 0 ≤ a.norm sqrt ∧ a.norm sqrt * a.norm sqrt = a.dot a :=
  hs _ (dot_self_nonneg a)

/-- The squared distance from a plane. -/
theorem nearPlane_iff (g : GeoCfg K) {n o p : V3 K} (hn : 0 < n.dot n) :
    g.NearPlane n o p ↔ n.dot (p.sub o) * n.dot (p.sub o) ≤ g.tol1D * g.tol1D * n.dot n := by
  constructor
  · rintro ⟨q, hq, hd⟩
    have e : n.dot (p.sub o) = n.dot (p.sub q) := by
      have : n.dot (p.sub o) = n.dot (p.sub q) + n.dot (q.sub o) := by simp only [V3.dot, V3.sub]; ring
      rw [this, hq, add_zero]
    have hl := lagrange n (p.sub q)
    have hc := dot_self_nonneg (n.cross (p.sub q))
    have hd' : (p.sub q).dot (p.sub q) = dist2 p q := by simp only [V3.dot, V3.sub, dist2]
    rw [e]
    calc n.dot (p.sub q) * n.dot (p.sub q) ≤ n.dot n * (p.sub q).dot (p.sub q) := by nlinarith
      _ ≤ _ := by rw [hd', mul_comm]; exact mul_le_mul_of_nonneg_right hd hn.le
  · intro h
    refine ⟨p.sub (V3.smul (n.dot (p.sub o) / n.dot n) n), ?_, ?_⟩
    · have : n.dot ((p.sub (V3.smul (n.dot (p.sub o) / n.dot n) n)).sub o) =
          n.dot (p.sub o) - n.dot (p.sub o) / n.dot n * n.dot n := by simp only [V3.dot, V3.sub, V3.smul]; ring
      rw [this, div_mul_cancel₀ _ hn.ne', sub_self]
    · have : dist2 p (p.sub (V3.smul (n.dot (p.sub o) / n.dot n) n)) =
          n.dot (p.sub o) / n.dot n * (n.dot (p.sub o) / n.dot n) * n.dot n := by
        simp only [V3.dot, V3.sub, V3.smul, dist2]; ring
      rw [this]
      have : n.dot (p.sub o) / n.dot n * (n.dot (p.sub o) / n.dot n) * n.dot n =
          n.dot (p.sub o) * n.dot (p.sub o) / n.dot n := by field_simp
      rw [this, div_le_iff₀ hn]
      exact h

theorem isPointOnPlane_iff {sqrt : K → K} (hs : IsSqrt sqrt) (g : GeoCfg K) (h0 : 0 ≤ g.minTolerance) {n o p : V3 K}
    (hn : 0 < n.dot n) : g.isPointOnPlane sqrt p n o = true ↔ g.NearPlane n o p := by
  have hT : 0 ≤ g.tol1D := le_trans h0 (le_max_left _ _)
  have hmax : max |g.tol1D| g.minTolerance = g.tol1D := by
    rw [abs_of_nonneg hT]; exact max_eq_left (le_max_left _ _)
  obtain ⟨_, _, hz⟩ := c27_sign g ((p.sub o).norm sqrt) g.tol1D
  rw [hmax] at hz
  obtain ⟨p0, psq⟩ := norm_mul_self hs (p.sub o)
  obtain ⟨n0, nsq⟩ := norm_mul_self hs n
  have npos : 0 < n.norm sqrt := lt_of_le_of_ne n0 fun h => by rw [← h, mul_zero] at nsq; exact hn.ne nsq
  have hl := lagrange n (p.sub o)
  have hc := dot_self_nonneg (n.cross (p.sub o))
  rw [nearPlane_iff g hn]
  unfold GeoCfg.isPointOnPlane GeoCfg.pointPlane
  simp only [decide_eq_true_eq]
  by_cases h : g.isValueZero ((p.sub o).norm sqrt) g.tol1D = true
  · rw [if_pos h]
    have hp := hz.1 h
    rw [abs_of_nonneg p0] at hp
    have : g.pointPlanePosition 0 = 0 := ((c29_plane_position g 0 h0).1).2 (by simpa using hT)
    simp only [this, true_iff]
    have : (p.sub o).dot (p.sub o) ≤ g.tol1D * g.tol1D := by rw [← psq]; exact mul_self_le_mul_self p0 hp
    nlinarith [mul_le_mul_of_nonneg_left this hn.le]
  · rw [if_neg h, if_neg hn.ne', (c29_plane_position g _ h0).1, abs_div, abs_of_pos npos, div_le_iff₀ npos]
    rw [mul_self_le_mul_self_iff (abs_nonneg _) (mul_nonneg hT n0), abs_mul_abs_self, ← nsq]
    constructor <;> intro h <;> nlinarith

/-! ### Faces by their normal -/

theorem countCells_ok {m : Mesh K} (h : m.WF) {f : Nat} {r : List Nat} (hr : m.row .nb23 f = ok r) (k : Nat) (hk : k ≤ r.length) :
    foldRes (m.countCell f) 0 (List.range k) = ok (((r.take k).filter fun c => decide (c < m.num .d3)).length) := by
  induction k with
  | zero => rfl
  | succ k ih =>
    have hkr : k < r.length := hk
    rw [List.range_succ, foldRes_append, ih (by omega), ok_bind, Mesh.foldRes_one]
    unfold Mesh.countCell
    rw [hasEntry_of_row h hr (List.getElem?_eq_getElem hkr), ok_bind, List.take_add_one, List.getElem?_eq_getElem hkr]
    have ht : (Lst.nb23).target = .d3 := rfl
    rw [ht, List.filter_append, List.length_append]
    by_cases hlt : r[k] < m.num .d3
    · simp [hlt]
    · simp [hlt]

theorem atBoundary_iff {m : Mesh K} {f : Nat} {r : List Nat} (hr : m.row .nb23 f = ok r) :
    AtBoundary m f ↔ (r.filter fun c => decide (c < m.num .d3)).length = 1 := by
  constructor
  · rintro ⟨r', hr', h⟩
    rw [hr, ok.injEq] at hr'
    subst hr'
    exact h
  · exact fun h => ⟨r, hr, h⟩

/-- The loop over the vertices or the edges of a face. -/
theorem markParts_where {m0 : Mesh K} {l : Lst} {d : Dim} (marker : Nat) {f : Nat} {r : List Nat} (hr : m0.row l f = ok r)
    (hb : ∀ v ∈ r, v < m0.num d) {T : Dim → Nat → Prop} {m : Mesh K} (h : m.WF) (hm : MarkedWhere T marker m0 m) (k : Nat)
    (hk : k ≤ r.length) :
    ∃ m', foldRes (Mesh.markPart l d marker f) m (List.range k) = ok m' ∧ m'.WF ∧
      MarkedWhere (fun e i => T e i ∨ (e = d ∧ i ∈ r.take k)) marker m0 m' := by
  induction k with
  | zero => exact ⟨m, rfl, h, hm.congr fun e i => by simp⟩
  | succ k ih =>
    have hkr : k < r.length := hk
    obtain ⟨m1, e1, hw1, M1⟩ := ih (by omega)
    rw [List.range_succ, foldRes_append, e1, ok_bind, Mesh.foldRes_one]
    unfold Mesh.markPart
    rw [entry_of_row hw1 ((M1.row l f).trans hr) (List.getElem?_eq_getElem hkr), ok_bind]
    obtain ⟨m2, e2, hw2, M2⟩ := Mesh.setMark_where hw1 (d := d) (i := r[k])
      (by rw [M1.num_eq]; exact hb _ (List.getElem_mem hkr)) marker
    refine ⟨m2, e2, hw2, M1.trans M2 fun e i => ?_⟩
    rw [List.take_add_one, List.getElem?_eq_getElem hkr]
    simp only [Option.toList_some, List.mem_append, List.mem_singleton]
    tauto

/-- The whole face. -/
theorem markWholeFace_where {m0 : Mesh K} (hv : CornersExist m0) (he : SidesExist m0) (h0 : m0.WF) (marker : Nat) {f : Nat}
    (hf : f < m0.num .d2) {T : Dim → Nat → Prop} {m : Mesh K} (h : m.WF) (hm : MarkedWhere T marker m0 m) :
    ∃ m', m.markWholeFace marker f = ok m' ∧ m'.WF ∧
      MarkedWhere (fun e i => T e i ∨ OfFaces m0 (fun g => g = f) e i) marker m0 m' := by
  obtain ⟨vs, hvs⟩ := Mesh.row_exists h0 .vert2 (i := f) hf
  obtain ⟨es, hes⟩ := Mesh.row_exists h0 .edge2 (i := f) hf
  obtain ⟨m1, e1, hw1, M1⟩ := markParts_where marker hvs (hv f vs hvs) h hm vs.length le_rfl
  obtain ⟨m2, e2, hw2, M2⟩ := markParts_where marker hes (he f es hes) hw1 M1 es.length le_rfl
  obtain ⟨m3, e3, hw3, M3⟩ := Mesh.setMark_where hw2 (d := .d2) (i := f) (by rw [M2.num_eq]; exact hf) marker
  unfold Mesh.markWholeFace
  rw [rowSize_of_row h ((hm.row _ _).trans hvs), ok_bind, e1, ok_bind, rowSize_of_row hw1 ((M1.row _ _).trans hes), ok_bind, e2,
    ok_bind]
  refine ⟨m3, e3, hw3, M2.trans M3 fun d i => ?_⟩
  rw [List.take_length, List.take_length]
  have a0 : OfFaces m0 (fun g => g = f) .d0 i ↔ i ∈ vs := by
    constructor
    · rintro ⟨_, vs', rfl, hr, hi⟩
      rw [hvs, ok.injEq] at hr
      rw [hr]; exact hi
    · exact fun hi => ⟨f, vs, rfl, hvs, hi⟩
  have a1 : OfFaces m0 (fun g => g = f) .d1 i ↔ i ∈ es := by
    constructor
    · rintro ⟨_, vs', rfl, hr, hi⟩
      rw [hes, ok.injEq] at hr
      rw [hr]; exact hi
    · exact fun hi => ⟨f, es, rfl, hes, hi⟩
  cases d with
  | d0 => rw [a0]; simp
  | d1 => rw [a1]; simp
  | d2 => simp [OfFaces]
  | d3 => simp [OfFaces]

theorem almostParallel_iff {sqrt : K → K} (hs : IsSqrt sqrt) (g : GeoCfg K) (h0 : 0 ≤ g.minTolerance) (hc : g.tolSq < 1 / 2)
    {a b : V3 K} (hab : 4 * (g.tolSq * g.tolSq) < a.dot a * b.dot b) :
    g.areValuesEqual (a.norm sqrt * b.norm sqrt) |b.dot a| g.tol1DSquared = true ↔ g.AlmostParallel a b := by
  have hc0 : 0 ≤ g.tolSq := le_trans h0 (le_max_right _ _)
  have ht0 : 0 ≤ g.tol1DSquared := le_trans (mul_self_nonneg _) (le_max_left _ _)
  have hmax : max |g.tol1DSquared| g.minTolerance = g.tolSq := by rw [abs_of_nonneg ht0]; rfl
  obtain ⟨a0, asq⟩ := norm_mul_self hs a
  obtain ⟨b0, bsq⟩ := norm_mul_self hs b
  have e : b.dot a = a.dot b := by simp only [V3.dot]; ring
  have hl := lagrange a b
  have hx := dot_self_nonneg (a.cross b)
  rw [e, c27_equality_region, hmax]
  unfold GeoCfg.AlmostParallel
  generalize hN : a.norm sqrt * b.norm sqrt = N
  have hN0 : 0 ≤ N := hN ▸ mul_nonneg a0 b0
  have hNN : N * N = a.dot a * b.dot b := by rw [← hN, ← asq, ← bsq]; ring
  have hD0 : 0 ≤ |a.dot b| := abs_nonneg _
  have hDD : |a.dot b| * |a.dot b| = a.dot b * a.dot b := abs_mul_abs_self _
  rw [← hNN, ← hDD]
  rw [← hNN] at hab
  generalize |a.dot b| = D at *
  have hDN : D ≤ N := by
    rw [mul_self_le_mul_self_iff hD0 hN0]
    rw [hNN, hDD]
    nlinarith
  have h2 : 2 * g.tolSq < N := by
    by_contra hlt
    have := mul_self_le_mul_self hN0 (not_lt.1 hlt)
    nlinarith
  rw [abs_of_nonneg hN0, abs_of_nonneg hD0, abs_sub_comm, abs_of_nonneg (sub_nonneg.2 hDN)]
  have k : (1 - g.tolSq) * (1 - g.tolSq) * (N * N) ≤ D * D ↔ (1 - g.tolSq) * N ≤ D := by
    rw [mul_self_le_mul_self_iff (mul_nonneg (by linarith) hN0) hD0]
    constructor <;> intro h <;> nlinarith
  rw [k]
  split
  · constructor <;> intro h <;> nlinarith
  · rename_i hif
    have hD : D ≤ g.tolSq := by
      by_contra h
      exact hif ⟨by linarith, by linarith⟩
    rw [mul_one]
    constructor
    · intro h
      exfalso
      linarith
    · intro h
      exfalso
      have := mul_le_mul_of_nonneg_right (show (1 / 2 : K) ≤ 1 - g.tolSq by linarith) hN0
      linarith

/-- The loop over the faces. -/
theorem byNormal_where {sqrt : K → K} (hs : IsSqrt sqrt) (g : GeoCfg K) (h0 : 0 ≤ g.minTolerance) (hc : g.tolSq < 1 / 2)
    {m : Mesh K} (hw : m.WF) (hv : CornersExist m) (he : SidesExist m) {n : V3 K} {normals : List (V3 K)}
    (hn : ∀ f, f < m.num .d2 → AtBoundary m f → ∃ b, normals[f]? = some b ∧ 4 * (g.tolSq * g.tolSq) < n.dot n * b.dot b)
    (marker k : Nat) (hk : k ≤ m.num .d2) :
    ∃ m', foldRes (g.markFaceByNormal sqrt n normals marker) m (List.range k) = ok m' ∧ m'.WF ∧
      MarkedWhere (OfFaces m fun f => f < k ∧ g.Facing m n normals f) marker m m' := by
  induction k with
  | zero =>
    refine ⟨m, rfl, hw, MarkedWhere.refl m marker ?_⟩
    rintro (_ | _ | _ | _) i h
    · obtain ⟨f, _, h, -⟩ := h; omega
    · obtain ⟨f, _, h, -⟩ := h; omega
    · exact absurd h.1 (by omega)
    · exact h
  | succ k ih =>
    obtain ⟨m1, e1, hw1, M1⟩ := ih (by omega)
    rw [List.range_succ, foldRes_append, e1, ok_bind, Mesh.foldRes_one]
    obtain ⟨r, hr⟩ := Mesh.row_exists hw .nb23 (i := k) hk
    have hr1 := (M1.row .nb23 k).trans hr
    have skip : ¬ g.Facing m n normals k →
        MarkedWhere (OfFaces m fun f => f < k + 1 ∧ g.Facing m n normals f) marker m m1 := by
      intro hno
      have e : (fun f => f < k + 1 ∧ g.Facing m n normals f) = fun f => f < k ∧ g.Facing m n normals f := by
        funext f
        refine propext ⟨fun h => ⟨?_, h.2⟩, fun h => ⟨by omega, h.2⟩⟩
        rcases Nat.lt_succ_iff_lt_or_eq.1 h.1 with h1 | rfl
        · exact h1
        · exact absurd h.2 hno
      rw [e]
      exact M1
    unfold GeoCfg.markFaceByNormal
    rw [rowSize_of_row hw1 hr1, ok_bind, countCells_ok hw1 hr1 _ le_rfl, ok_bind, List.take_length, M1.num_eq]
    by_cases hb : (r.filter fun c => decide (c < m.num .d3)).length = 1
    · rw [if_neg (by simpa using hb)]
      have hB := (atBoundary_iff hr).2 hb
      obtain ⟨b, hb1, hb2⟩ := hn k hk hB
      rw [vat_of_getElem? hb1, ok_bind]
      have hp := almostParallel_iff hs g h0 hc hb2
      by_cases hq : g.AlmostParallel n b
      · rw [if_neg (by rw [hp.2 hq]; simp)]
        obtain ⟨m2, e2, hw2, M2⟩ := markWholeFace_where hv he hw marker (f := k) hk hw1 M1
        refine ⟨m2, e2, hw2, M2.congr ?_⟩
        have hF : g.Facing m n normals k := ⟨hk, hB, b, hb1, hq⟩
        have split : ∀ f, (f < k + 1 ∧ g.Facing m n normals f) ↔ (f < k ∧ g.Facing m n normals f) ∨ f = k := by
          intro f
          constructor
          · rintro ⟨h1, h2⟩
            rcases Nat.lt_succ_iff_lt_or_eq.1 h1 with h1 | rfl
            · exact Or.inl ⟨h1, h2⟩
            · exact Or.inr rfl
          · rintro (⟨h1, h2⟩ | rfl)
            · exact ⟨by omega, h2⟩
            · exact ⟨by omega, hF⟩
        rintro (_ | _ | _ | _) i
        · constructor
          · rintro ⟨f, vs, hf, h⟩
            rcases (split f).1 hf with h1 | h1
            · exact Or.inl ⟨f, vs, h1, h⟩
            · exact Or.inr ⟨f, vs, h1, h⟩
          · rintro (⟨f, vs, hf, h⟩ | ⟨f, vs, hf, h⟩)
            · exact ⟨f, vs, (split f).2 (Or.inl hf), h⟩
            · exact ⟨f, vs, (split f).2 (Or.inr hf), h⟩
        · constructor
          · rintro ⟨f, vs, hf, h⟩
            rcases (split f).1 hf with h1 | h1
            · exact Or.inl ⟨f, vs, h1, h⟩
            · exact Or.inr ⟨f, vs, h1, h⟩
          · rintro (⟨f, vs, hf, h⟩ | ⟨f, vs, hf, h⟩)
            · exact ⟨f, vs, (split f).2 (Or.inl hf), h⟩
            · exact ⟨f, vs, (split f).2 (Or.inr hf), h⟩
        · exact split i
        · simp [OfFaces]
      · have hfalse : g.areValuesEqual (n.norm sqrt * b.norm sqrt) |b.dot n| g.tol1DSquared = false := by
          rw [← Bool.not_eq_true, hp]; exact hq
        rw [if_pos hfalse]
        refine ⟨m1, rfl, hw1, skip ?_⟩
        rintro ⟨-, -, b', hb', hq'⟩
        rw [hb1, Option.some.injEq] at hb'
        subst hb'
        exact hq hq'
    · rw [if_pos hb]
      exact ⟨m1, rfl, hw1, skip fun h => hb ((atBoundary_iff hr).1 h.2.1)⟩

end Verif
