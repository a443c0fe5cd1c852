import Verif.PolyMarkSpec
import Verif.MarkLemmas

namespace Verif

open Res

variable {K : Type} [Field K] [LinearOrder K] [IsStrictOrderedRing K]

theorem OnlyMarkers.refl (m : Mesh K) : OnlyMarkers m m := ⟨rfl, fun _ _ _ => rfl⟩

theorem OnlyMarkers.trans {m m' m'' : Mesh K} (h : OnlyMarkers m m') (h' : OnlyMarkers m' m'') : OnlyMarkers m m'' := by
  refine ⟨?_, fun d h0 h1 => (h'.others d h0 h1).trans (h.others d h0 h1)⟩
  have e := h'.same
  rw [h.same] at e
  exact e

theorem OnlyMarkers.point {m m' : Mesh K} (h : OnlyMarkers m m') (i : Nat) : m'.point i = m.point i := by
  rw [h.same]; rfl

theorem OnlyMarkers.extremes {m m' : Mesh K} (h : OnlyMarkers m m') (i : Nat) : m'.extremes i = m.extremes i := by
  rw [h.same]; rfl

theorem OnlyMarkers.num {m m' : Mesh K} (h : OnlyMarkers m m') : m'.num = m.num := by
  rw [h.same]

theorem OnlyMarkers.ends {m m' : Mesh K} (h : OnlyMarkers m m') (hx : EndsExist m) : EndsExist m' := by
  intro e x y he
  rw [h.extremes] at he
  rw [h.num]
  exact hx e x y he

namespace Mesh

theorem onlyMarkers_remark (m : Mesh K) {d : Dim} (hd : d = .d0 ∨ d = .d1) (l : List Nat) :
    OnlyMarkers m (m.remark d l) := by
  refine ⟨rfl, fun x h0 h1 => ?_⟩
  rcases hd with rfl | rfl <;> simp [remark, fset, h0, h1]

theorem marker_of_getElem? {m : Mesh K} {d : Dim} {l : List Nat} {i k : Nat} (hi : i < m.num d)
    (hl : l.length = m.num d) (h : l[i]? = some k) : (m.remark d l).marker d i = ok k := by
  rw [marker_remark_same hi hl]
  rw [List.getElem?_eq_getElem (by omega), Option.some.injEq] at h
  rw [h]

theorem getElem?_of_marker {m : Mesh K} {d : Dim} {i k : Nat} (h : m.marker d i = ok k) :
    i < m.num d ∧ (m.mark d)[i]? = some k := by
  unfold Mesh.marker at h
  by_cases hi : i < m.num d
  · rw [assert_true hi, ok_bind] at h
    exact ⟨hi, vget_eq_ok.1 h⟩
  · rw [assert_false hi] at h
    cases h

theorem marker_exists {m : Mesh K} (hw : m.WF) {d : Dim} {i : Nat} (hi : i < m.num d) : ∃ k, m.marker d i = ok k := by
  unfold Mesh.marker
  have : i < (m.mark d).length := by rw [hw.mark]; exact hi
  rw [assert_true hi, ok_bind, vget_of_lt this]
  exact ⟨_, rfl⟩

/-- What becomes of a marker. -/
def chg (f : Nat → Res Nat) (mk : Nat) : Res Nat := if mk = 0 then ok 0 else f mk

theorem changeMarker_ok {m : Mesh K} {d : Dim} {f : Nat → Res Nat} {l : List Nat} {i mk k : Nat} (hi : i < m.num d)
    (hl : l.length = m.num d) (h : l[i]? = some mk) (hk : chg f mk = ok k) :
    changeMarker d f (m.remark d l) i = ok (m.remark d (l.set i k)) := by
  unfold changeMarker
  rw [marker_of_getElem? hi hl h, ok_bind]
  unfold chg at hk
  split at hk
  · rename_i h0
    subst h0
    rw [if_pos rfl]
    cases hk
    congr 2
    rw [List.getElem?_eq_some_iff] at h
    obtain ⟨h1, h2⟩ := h
    rw [← h2, List.set_getElem_self]
  · rename_i h0
    rw [if_neg h0, hk, ok_bind, setMark_remark hi hl]

theorem changeMarker_throw {m : Mesh K} {d : Dim} {f : Nat → Res Nat} {l : List Nat} {i mk : Nat} (hi : i < m.num d)
    (hl : l.length = m.num d) (h : l[i]? = some mk) (hk : chg f mk = throw) :
    changeMarker d f (m.remark d l) i = throw := by
  unfold changeMarker
  rw [marker_of_getElem? hi hl h, ok_bind]
  unfold chg at hk
  split at hk
  · cases hk
  · rename_i h0
    rw [if_neg h0, hk]
    rfl

/-- The loop that changes markers, up to the cell `k`. -/
theorem changeMarkers_ok {m : Mesh K} (h : m.WF) (d : Dim) (f : Nat → Res Nat) (k : Nat) (hk : k ≤ m.num d)
    (hf : ∀ i mk, i < k → m.marker d i = ok mk → ∃ new, chg f mk = ok new) :
    ∃ l, foldRes (changeMarker d f) m (List.range k) = ok (m.remark d l) ∧ l.length = m.num d ∧
      (∀ i mk new, i < k → m.marker d i = ok mk → chg f mk = ok new → l[i]? = some new) ∧
      (∀ i, k ≤ i → l[i]? = (m.mark d)[i]?) := by
  induction k with
  | zero => exact ⟨m.mark d, by rw [remark_self]; rfl, h.mark d, fun i _ _ hi => absurd hi (by omega), fun _ _ => rfl⟩
  | succ k ih =>
    obtain ⟨l, e, hl, H, H'⟩ := ih (by omega) fun i mk hi => hf i mk (by omega)
    obtain ⟨mk, hmk⟩ := marker_exists h (show k < m.num d by omega)
    obtain ⟨new, hnew⟩ := hf k mk (by omega) hmk
    have hg := (H' k le_rfl).trans (getElem?_of_marker hmk).2
    rw [List.range_succ, foldRes_append, e, ok_bind, foldRes_one, changeMarker_ok (by omega) hl hg hnew]
    refine ⟨_, rfl, by simpa using hl, ?_, ?_⟩
    · intro i mk' new' hi hm hn
      by_cases hik : i = k
      · subst hik
        rw [hmk, ok.injEq] at hm
        subst hm
        rw [hnew, ok.injEq] at hn
        subst hn
        simp [hl, show i < m.num d by omega]
      · rw [List.getElem?_set_ne (Ne.symm hik)]
        exact H i mk' new' (by omega) hm hn
    · intro i hi
      rw [List.getElem?_set_ne (by omega)]
      exact H' i (by omega)

/-- The loop that changes markers throws at the first marker without a new one. -/
theorem changeMarkers_throw {m : Mesh K} (h : m.WF) (d : Dim) (f : Nat → Res Nat)
    (hf : ∀ mk, (∃ new, chg f mk = ok new) ∨ chg f mk = throw)
    (hx : ∃ i mk, m.marker d i = ok mk ∧ chg f mk = throw) :
    foldRes (changeMarker d f) m (List.range (m.num d)) = throw := by
  classical
  obtain ⟨i, ⟨mk, hmk, ht⟩, hmin⟩ : ∃ i, (∃ mk, m.marker d i = ok mk ∧ chg f mk = throw) ∧
      ∀ j, j < i → ¬ ∃ mk, m.marker d j = ok mk ∧ chg f mk = throw :=
    ⟨Nat.find hx, Nat.find_spec hx, fun j hj => Nat.find_min hx hj⟩
  have hi := (getElem?_of_marker hmk).1
  obtain ⟨l, e, hl, -, H'⟩ := changeMarkers_ok h d f i hi.le fun j mk' hj hm => by
    rcases hf mk' with h1 | h1
    · exact h1
    · exact absurd ⟨mk', hm, h1⟩ (hmin j hj)
  have hr : List.range (m.num d) = List.range i ++ i :: (List.range (m.num d - i - 1)).map (fun x => i + 1 + x) := by
    have e1 : m.num d = i + (1 + (m.num d - i - 1)) := by omega
    conv_lhs => rw [e1, List.range_add, List.range_add]
    simp [Nat.add_assoc]
  have hg := (H' i le_rfl).trans (getElem?_of_marker hmk).2
  rw [hr, foldRes_append, e, ok_bind, foldRes_cons, changeMarker_throw hi hl hg ht]
  rfl

/-- The loop over the vertices for one side. -/
theorem markVerticesBy_ok {m : Mesh K} (h : m.WF) {test : V3 K → Res (Option (Option Nat))} (k : Nat)
    (hk : k ≤ m.num .d0) (ht : ∀ i p, m.point i = ok p → ∃ r, test p = ok r) :
    ∃ l on, foldRes (markVertexBy test) (m, List.replicate (m.num .d0) false) (List.range k) =
        ok (m.remark .d0 l, on) ∧ l.length = m.num .d0 ∧ on.length = m.num .d0 ∧
      (∀ i p r, i < k → m.point i = ok p → test p = ok r →
        on[i]? = some r.isSome ∧ (∀ a, r = some (some a) → l[i]? = some a) ∧
        ((∀ a, r ≠ some (some a)) → l[i]? = (m.mark .d0)[i]?)) ∧
      ∀ i, k ≤ i → i < m.num .d0 → on[i]? = some false ∧ l[i]? = (m.mark .d0)[i]? := by
  induction k with
  | zero =>
    refine ⟨m.mark .d0, _, by rw [remark_self]; rfl, h.mark .d0, by simp, fun i _ _ hi => absurd hi (by omega), ?_⟩
    intro i _ hi
    simp [hi]
  | succ k ih =>
    obtain ⟨l, on, e, hl, ho, H, H'⟩ := ih (by omega)
    obtain ⟨p, hp⟩ := point_of_lt h (show k < m.num .d0 by omega)
    obtain ⟨r, hr⟩ := ht k p hp
    obtain ⟨k1, k2⟩ := H' k le_rfl (by omega)
    rw [List.range_succ, foldRes_append, e, ok_bind, foldRes_one]
    unfold markVertexBy
    simp only
    rw [point_remark, hp, ok_bind, hr, ok_bind]
    match r, hr with
    | none, hr =>
      refine ⟨l, on, rfl, hl, ho, ?_, fun i hi => H' i (by omega)⟩
      intro i q r hi hq hc
      by_cases hik : i = k
      · subst hik
        rw [hp, ok.injEq] at hq
        subst hq
        rw [hr, ok.injEq] at hc
        subst hc
        exact ⟨k1, fun a ha => (by cases ha), fun _ => k2⟩
      · exact H i q r (by omega) hq hc
    | some none, hr =>
      simp only
      rw [vset_of_lt _ (by omega), ok_bind]
      refine ⟨l, _, rfl, hl, by simpa using ho, ?_, ?_⟩
      · intro i q r hi hq hc
        by_cases hik : i = k
        · subst hik
          rw [hp, ok.injEq] at hq
          subst hq
          rw [hr, ok.injEq] at hc
          subst hc
          exact ⟨by simp [ho, show i < m.num .d0 by omega], fun a ha => (by simp at ha), fun _ => k2⟩
        · rw [List.getElem?_set_ne (Ne.symm hik)]
          exact H i q r (by omega) hq hc
      · intro i hi
        rw [List.getElem?_set_ne (by omega)]
        exact H' i (by omega)
    | some (some a), hr =>
      simp only
      rw [vset_of_lt _ (by omega), ok_bind, setMark_remark (by omega) hl, ok_bind]
      refine ⟨_, _, rfl, by simpa using hl, by simpa using ho, ?_, ?_⟩
      · intro i q r hi hq hc
        by_cases hik : i = k
        · subst hik
          rw [hp, ok.injEq] at hq
          subst hq
          rw [hr, ok.injEq] at hc
          subst hc
          refine ⟨by simp [ho, show i < m.num .d0 by omega], fun b hb => ?_, fun hb => absurd rfl (hb a)⟩
          simp only [Option.some.injEq] at hb
          simp [hl, show i < m.num .d0 by omega, hb]
        · rw [List.getElem?_set_ne (Ne.symm hik), List.getElem?_set_ne (Ne.symm hik)]
          exact H i q r (by omega) hq hc
      · intro i hi
        rw [List.getElem?_set_ne (by omega), List.getElem?_set_ne (by omega)]
        exact H' i (by omega)

/-- The loop over the edges of the mesh is that of `SetMeshMarkersOnSegment`. -/
theorem markEdgeBy_eq (on : List Bool) {c1 : List Nat} {e k : Nat} (h : c1[e]? = some k) (m : Mesh K) (s : Nat) :
    markEdgeBy on c1 e m s = markEdge on k m s := by
  unfold markEdgeBy markEdge
  rw [vget_eq_ok.2 h]
  rfl

end Mesh

theorem side_add_sub (a b : V3 K) : a.add (b.sub a) = b := by
  cases a; cases b
  simp [V3.add, V3.sub]

theorem dot_sub_self (a b : V3 K) : (b.sub a).dot (b.sub a) = dist2 a b := by
  simp only [dist2, V3.sub, V3.dot]
  ring

theorem vertexOnEdge_ok {sqrt : K → K} (hs : IsSqrt sqrt) (g : GeoCfg K) (h0 : 0 ≤ g.minTolerance)
    (hT : g.tol1D < 1 / 2) (h1 : g.tolSq ≤ 1) {a b p : V3 K} (hab : 0 < dist2 a b) (ha : a.z = 0) (hb : b.z = 0)
    (hp : p.z = 0) {c0 c1 : List Nat} {e k0 k1 : Nat} (hc0 : c0[e]? = some k0) (hc1 : c1[e]? = some k1) :
    ∃ r, g.vertexOnEdge sqrt a (b.sub a) ((b.sub a).dot (b.sub a)) c0 c1 e p = ok r ∧
      (r.isSome = true ↔ g.NearSegment a (b.sub a) p) ∧
      (∀ k, r = some (some k) ↔ (g.AtOrigin a b p ∧ k = k0) ∨ (g.AtInside a b p ∧ k = k1)) := by
  have ht : 0 < (b.sub a).dot (b.sub a) := by rw [dot_sub_self]; exact hab
  unfold GeoCfg.vertexOnEdge GeoCfg.AtOrigin GeoCfg.AtInside
  by_cases hn : g.NearLine a (b.sub a) p
  swap
  · refine ⟨none, ?_, by simp [GeoCfg.NearSegment, hn], by simp [GeoCfg.NearSegment, hn]⟩
    rw [if_pos]
    rw [← Bool.not_eq_true, isPointOnLine_iff g ht]
    exact hn
  rw [if_neg (by rw [(isPointOnLine_iff g ht).2 hn]; simp)]
  unfold GeoCfg.NearSegment
  rw [side_add_sub]
  by_cases hl : g.OnLine a b p
  · rw [side_on_line hs g p a _ hl, if_neg hab.ne']
    obtain ⟨c1', c2, c3, c4, c5, -⟩ := c29_position g (coordOn a b p) h0 hT
    have t0 : 0 ≤ g.tol1D := le_trans h0 (le_max_left _ _)
    by_cases hc : -g.tol1D ≤ coordOn a b p ∧ coordOn a b p ≤ 1 + g.tol1D
    · obtain ⟨l1, l2⟩ := hc
      by_cases z : |coordOn a b p| ≤ g.tol1D
      · rw [c2.2 z, ok_bind, vget_eq_ok.2 hc0, ok_bind]
        have z' := (abs_le.1 z).2
        refine ⟨_, rfl, by simp [hn, hl, l1, l2], fun k => ?_⟩
        simp [hn, hl, l1, l2, z', not_lt.2 z', eq_comm]
      by_cases e' : |coordOn a b p - 1| ≤ g.tol1D
      · rw [c4.2 e', ok_bind]
        have z' := (abs_le.1 e').1
        refine ⟨_, rfl, by simp [hn, hl, l1, l2], fun k => ?_⟩
        simp only [Option.some.injEq, reduceCtorEq, false_iff, not_or, not_and]
        exact ⟨fun hh => absurd hh.2 (by linarith), fun hh => absurd hh.2.2 (by linarith)⟩
      rw [abs_le, not_and_or, not_le, not_le] at z e'
      have i1 : g.tol1D < coordOn a b p := by rcases z with z | z <;> linarith
      have i2 : coordOn a b p < 1 - g.tol1D := by rcases e' with z | z <;> linarith
      rw [c3.2 ⟨i1, i2⟩, ok_bind, vget_eq_ok.2 hc1, ok_bind]
      refine ⟨_, rfl, by simp [hn, hl, l1, l2], fun k => ?_⟩
      simp [hn, hl, l1, l2, i1, i2, eq_comm]
    · refine ⟨none, ?_, by simp only [hn, hl, true_and, hc, iff_false]; simp,
        by simp only [hn, hl, true_and, hc, false_and, or_self, iff_false]; simp⟩
      rw [not_and_or, not_le, not_le] at hc
      rcases hc with hc | hc
      · rw [c1'.2 hc, ok_bind]
      · rw [c5.2 hc, ok_bind]
  · rw [side_off_line_2d hs g h0 h1 p a _ ha hb hp hl, ok_bind]
    refine ⟨none, ?_, by simp [hl], by simp [hl]⟩
    split <;> rename_i e <;> split at e <;> simp at e ⊢

theorem isSide_unique {vs : List (V3 K)} {e : Nat} {a b a' b' : V3 K} (h : IsSide vs e a b) (h' : IsSide vs e a' b') :
    a' = a ∧ b' = b := by
  obtain ⟨h1, h2⟩ := h
  obtain ⟨h1', h2'⟩ := h'
  rw [h1, Option.some.injEq] at h1'
  rw [h2, Option.some.injEq] at h2'
  exact ⟨h1'.symm, h2'.symm⟩

theorem isSide_exists {vs : List (V3 K)} {e : Nat} (he : e < vs.length) : ∃ a b, IsSide vs e a b := by
  have : (e + 1) % vs.length < vs.length := Nat.mod_lt _ (by omega)
  exact ⟨_, _, List.getElem?_eq_getElem he, List.getElem?_eq_getElem this⟩

/-- What one side does to the markers. -/
structure SideDone (g : GeoCfg K) (vs : List (V3 K)) (c0 c1 : List Nat) (e : Nat) (m m' : Mesh K) : Prop where
  only : OnlyMarkers m m'
  wf : m'.WF
  vertices : ∀ i p, m.point i = ok p → (∀ k, g.SideMarks vs c0 c1 p e k → m'.marker .d0 i = ok k) ∧
    ((∀ k, ¬ g.SideMarks vs c0 c1 p e k) → m'.marker .d0 i = m.marker .d0 i)
  edges : ∀ s x y p q, m.extremes s = ok (x, y) → m.point x = ok p → m.point y = ok q →
    (∀ k, g.SideMarksEdge vs c1 p q e k → m'.marker .d1 s = ok k) ∧
    ((∀ k, ¬ g.SideMarksEdge vs c1 p q e k) → m'.marker .d1 s = m.marker .d1 s)

theorem markPolygonEdge_ok {sqrt : K → K} (hs : IsSqrt sqrt) (g : GeoCfg K) (h0 : 0 ≤ g.minTolerance)
    (hT : g.tol1D < 1 / 2) (h1 : g.tolSq ≤ 1) {vs : List (V3 K)} (hz : ∀ p ∈ vs, p.z = 0)
    (hpos : ∀ e a b, IsSide vs e a b → 0 < dist2 a b) {c0 c1 : List Nat} (hc0 : vs.length ≤ c0.length)
    (hc1 : vs.length ≤ c1.length) {m : Mesh K} (hw : m.WF) (hx : EndsExist m)
    (hmz : ∀ i p, m.point i = ok p → p.z = 0) {e : Nat} (he : e < vs.length) :
    ∃ m', m.markPolygonEdge g sqrt vs c0 c1 e = ok m' ∧ SideDone g vs c0 c1 e m m' := by
  obtain ⟨a, b, hab⟩ := isSide_exists he
  have ea : c0[e]? = some (c0[e]'(by omega)) := List.getElem?_eq_getElem _
  have eb : c1[e]? = some (c1[e]'(by omega)) := List.getElem?_eq_getElem _
  generalize c0[e]'(by omega) = k0 at ea
  generalize c1[e]'(by omega) = k1 at eb
  have T := fun p hp => vertexOnEdge_ok (p := p) hs g h0 hT h1 (hpos e a b hab) (hz a (List.mem_of_getElem? hab.1))
    (hz b (List.mem_of_getElem? hab.2)) hp ea eb
  obtain ⟨l, on, E, hl, ho, H, -⟩ := Mesh.markVerticesBy_ok hw
    (test := g.vertexOnEdge sqrt a (b.sub a) ((b.sub a).dot (b.sub a)) c0 c1 e) (m.num .d0) le_rfl
    fun i p hp => by obtain ⟨r, hr, -⟩ := T p (hmz i p hp); exact ⟨r, hr⟩
  have hw' := Mesh.remark_wf hw hl
  obtain ⟨l', E', hl', H'⟩ := Mesh.markEdges_ok hw' (on := on) ho (fun e x y he => hx e x y he) k1 (m.num .d1) le_rfl
  have marks : ∀ p k, g.SideMarks vs c0 c1 p e k ↔ (g.AtOrigin a b p ∧ k = k0) ∨ (g.AtInside a b p ∧ k = k1) := by
    intro p k
    unfold GeoCfg.SideMarks
    rw [ea, eb, Option.some.injEq, Option.some.injEq]
    constructor
    · rintro ⟨a', b', hs, hh⟩
      obtain ⟨rfl, rfl⟩ := isSide_unique hab hs
      simpa only [eq_comm] using hh
    · intro hh
      exact ⟨a, b, hab, by simpa only [eq_comm] using hh⟩
  refine ⟨(m.remark .d0 l).remark .d1 l', ?_, ?_, Mesh.remark_wf hw' hl', ?_, ?_⟩
  · unfold Mesh.markPolygonEdge
    rw [vget_eq_ok.2 hab.1, ok_bind, vget_eq_ok.2 hab.2, ok_bind]
    simp only
    rw [E, ok_bind, ← E']
    congr 1
    funext m s
    exact Mesh.markEdgeBy_eq on eb m s
  · exact (Mesh.onlyMarkers_remark m (Or.inl rfl) l).trans (Mesh.onlyMarkers_remark _ (Or.inr rfl) l')
  · intro i p hp
    have hi := point_lt hp
    obtain ⟨r, hr, -, h3⟩ := T p (hmz i p hp)
    obtain ⟨-, h4, h5⟩ := H i p r hi hp hr
    rw [Mesh.marker_remark_ne (by simp)]
    constructor
    · intro k hk
      exact Mesh.marker_of_getElem? hi hl (h4 k ((h3 k).2 ((marks p k).1 hk)))
    · intro hk
      obtain ⟨old, ho⟩ := Mesh.marker_exists hw hi
      rw [ho]
      refine Mesh.marker_of_getElem? hi hl ((h5 fun k hr => hk k ((marks p k).2 ((h3 k).1 hr))).trans
        (Mesh.getElem?_of_marker ho).2)
  · intro s x y p q hxy hp hq
    have hi : s < m.num .d1 := extremes_lt hxy
    obtain ⟨r, hr, h2, -⟩ := T p (hmz x p hp)
    obtain ⟨r', hr', h2', -⟩ := T q (hmz y q hq)
    have := H' s x y _ _ hxy (H x p r (point_lt hp) hp hr).1 (H y q r' (point_lt hq) hq hr').1
    simp only [hi, decide_true, Bool.and_true] at this
    have hm : (m.remark .d0 l).mark .d1 = m.mark .d1 := by simp [Mesh.remark, fset]
    rw [hm] at this
    constructor
    · rintro k ⟨a', b', hs, hh1, hh2, hk⟩
      obtain ⟨rfl, rfl⟩ := isSide_unique hab hs
      rw [eb, Option.some.injEq] at hk
      subst hk
      rw [h2.2 hh1, h2'.2 hh2, Bool.and_self, if_pos rfl] at this
      exact Mesh.marker_of_getElem? (m := m.remark .d0 l) hi hl' this
    · intro hk
      rw [if_neg] at this
      · obtain ⟨old, ho⟩ := Mesh.marker_exists hw hi
        rw [ho]
        exact Mesh.marker_of_getElem? (m := m.remark .d0 l) hi hl' (this.trans (Mesh.getElem?_of_marker ho).2)
      · rw [Bool.and_eq_true]
        exact fun hh => hk k1 ⟨a, b, hab, h2.1 hh.1, h2'.1 hh.2, eb⟩

theorem lastMark_succ {R : Nat → Nat → Prop} {n old mid new : Nat} (h : LastMark R n old mid)
    (h1 : ∀ k, R n k → new = k) (h2 : (∀ k, ¬ R n k) → new = mid) : LastMark R (n + 1) old new := by
  by_cases hk : ∃ k, R n k
  · obtain ⟨k, hk⟩ := hk
    obtain rfl := h1 k hk
    exact Or.inl ⟨n, by omega, hk, fun e' a b => absurd b (by omega)⟩
  · simp only [not_exists] at hk
    obtain rfl := h2 hk
    rcases h with ⟨e, he, hr, hl⟩ | ⟨hl, rfl⟩
    · refine Or.inl ⟨e, by omega, hr, fun e' a b => ?_⟩
      by_cases e' = n
      · subst e'; exact hk
      · exact hl e' a (by omega)
    · refine Or.inr ⟨fun e' b => ?_, rfl⟩
      by_cases e' = n
      · subst e'; exact hk
      · exact hl e' (by omega)

end Verif
