import Verif.PolyMarkLemmas
import Verif.MarkProps

/-
C110: the markers of a mesh of a polygon.
-/
namespace Verif

open Res

variable {K : Type} [Field K] [LinearOrder K] [IsStrictOrderedRing K]

theorem newMarker0_iff (n : Nat) (c0 c1 : List Nat) (old new : Nat) :
    NewMarker0 n c0 c1 old new ↔ Mesh.chg (Mesh.changedMarker0 n c0 c1) old = ok new := by
  unfold NewMarker0 Mesh.chg Mesh.changedMarker0
  by_cases h0 : old = 0
  · subst h0
    simp only [if_true, ok.injEq, true_and]
    constructor
    · rintro (h | ⟨v, -, h, -⟩ | ⟨e, h, -⟩)
      · exact h.symm
      · omega
      · omega
    · exact fun h => Or.inl h.symm
  rw [if_neg h0]
  have hv : ∀ (l : List Nat) i, vat l i = ok new ↔ l[i]? = some new := by
    intro l i
    unfold vat
    cases l[i]? <;> simp
  by_cases h1 : old ≤ n
  · rw [if_pos h1, hv]
    constructor
    · rintro (⟨h, -⟩ | ⟨v, -, h, h2⟩ | ⟨e, h, -⟩)
      · exact absurd h h0
      · rw [show old - 1 = v by omega]; exact h2
      · omega
    · exact fun h => Or.inr (Or.inl ⟨old - 1, by omega, by omega, h⟩)
  · rw [if_neg h1, hv]
    constructor
    · rintro (⟨h, -⟩ | ⟨v, _, h, h2⟩ | ⟨e, h, h2⟩)
      · exact absurd h h0
      · omega
      · rw [show old - n - 1 = e by omega]; exact h2
    · exact fun h => Or.inr (Or.inr ⟨old - n - 1, by omega, h⟩)

theorem newMarker1_iff (n : Nat) (c1 : List Nat) (old new : Nat) :
    NewMarker1 n c1 old new ↔ Mesh.chg (Mesh.changedMarker1 n c1) old = ok new := by
  unfold NewMarker1 Mesh.chg Mesh.changedMarker1
  by_cases h0 : old = 0
  · subst h0
    simp only [if_true, ok.injEq, true_and]
    constructor
    · rintro (h | ⟨e, h, -⟩)
      · exact h.symm
      · omega
    · exact fun h => Or.inl h.symm
  rw [if_neg h0]
  by_cases h1 : old ≤ n
  · rw [if_pos h1]
    constructor
    · rintro (⟨h, -⟩ | ⟨e, h, h2⟩)
      · exact absurd h h0
      · omega
    · exact fun h => by cases h
  · rw [if_neg h1]
    have hv : vat c1 (old - n - 1) = ok new ↔ c1[old - n - 1]? = some new := by
      unfold vat
      cases c1[old - n - 1]? <;> simp
    rw [hv]
    constructor
    · rintro (⟨h, -⟩ | ⟨e, h, h2⟩)
      · exact absurd h h0
      · rw [show old - n - 1 = e by omega]; exact h2
    · exact fun h => Or.inr ⟨old - n - 1, by omega, h⟩

theorem vat_cases (l : List Nat) (i : Nat) : (∃ k, vat l i = ok k) ∨ vat l i = throw := by
  unfold vat
  cases l[i]? with
  | none => exact Or.inr rfl
  | some k => exact Or.inl ⟨k, rfl⟩

theorem chg0_cases (n : Nat) (c0 c1 : List Nat) (mk : Nat) :
    (∃ new, Mesh.chg (Mesh.changedMarker0 n c0 c1) mk = ok new) ∨
      Mesh.chg (Mesh.changedMarker0 n c0 c1) mk = throw := by
  unfold Mesh.chg Mesh.changedMarker0
  split
  · exact Or.inl ⟨0, rfl⟩
  split <;> exact vat_cases _ _

theorem chg1_cases (n : Nat) (c1 : List Nat) (mk : Nat) :
    (∃ new, Mesh.chg (Mesh.changedMarker1 n c1) mk = ok new) ∨ Mesh.chg (Mesh.changedMarker1 n c1) mk = throw := by
  unfold Mesh.chg Mesh.changedMarker1
  split
  · exact Or.inl ⟨0, rfl⟩
  split
  · exact Or.inr rfl
  · exact vat_cases _ _

/-- C110, change: if every marker has a new one, `ChangePolygonMeshMarkers` replaces the markers of the vertices and the
edges and changes nothing else. -/
theorem c110_change {m : Mesh K} (hw : m.WF) (hd : m.dimension = 2) (n : Nat) (c0 c1 : List Nat)
    (h0 : ∀ i mk, m.marker .d0 i = ok mk → ∃ new, NewMarker0 n c0 c1 mk new)
    (h1 : ∀ i mk, m.marker .d1 i = ok mk → ∃ new, NewMarker1 n c1 mk new) :
    ∃ m', m.changePolygonMarkers n c0 c1 = ok m' ∧ m'.WF ∧ OnlyMarkers m m' ∧
      (∀ i mk, m.marker .d0 i = ok mk → ∃ new, m'.marker .d0 i = ok new ∧ NewMarker0 n c0 c1 mk new) ∧
      (∀ i mk, m.marker .d1 i = ok mk → ∃ new, m'.marker .d1 i = ok new ∧ NewMarker1 n c1 mk new) := by
  obtain ⟨l, e, hl, H, -⟩ := Mesh.changeMarkers_ok hw .d0 (Mesh.changedMarker0 n c0 c1) (m.num .d0) le_rfl
    fun i mk _ hm => by
      obtain ⟨new, hn⟩ := h0 i mk hm
      exact ⟨new, (newMarker0_iff ..).1 hn⟩
  have hw' := Mesh.remark_wf hw hl
  have hm : ∀ i, (m.remark .d0 l).marker .d1 i = m.marker .d1 i := fun i => Mesh.marker_remark_ne (by simp)
  obtain ⟨l', e', hl', H', -⟩ := Mesh.changeMarkers_ok hw' .d1 (Mesh.changedMarker1 n c1) (m.num .d1) le_rfl
    fun i mk _ h => by
      obtain ⟨new, hn⟩ := h1 i mk ((hm i).symm.trans h)
      exact ⟨new, (newMarker1_iff ..).1 hn⟩
  refine ⟨(m.remark .d0 l).remark .d1 l', ?_, Mesh.remark_wf hw' hl',
    (Mesh.onlyMarkers_remark m (Or.inl rfl) l).trans (Mesh.onlyMarkers_remark _ (Or.inr rfl) l'), ?_, ?_⟩
  · unfold Mesh.changePolygonMarkers
    rw [assert_true hd, ok_bind, e, ok_bind]
    exact e'
  · intro i mk h
    obtain ⟨new, hn⟩ := h0 i mk h
    have hi := (Mesh.getElem?_of_marker h).1
    refine ⟨new, ?_, hn⟩
    rw [Mesh.marker_remark_ne (by simp)]
    exact Mesh.marker_of_getElem? hi hl (H i mk new hi h ((newMarker0_iff ..).1 hn))
  · intro i mk h
    obtain ⟨new, hn⟩ := h1 i mk h
    have hi := (Mesh.getElem?_of_marker h).1
    exact ⟨new, Mesh.marker_of_getElem? (m := m.remark .d0 l) hi hl'
      (H' i mk new hi ((hm i).trans h) ((newMarker1_iff ..).1 hn)), hn⟩

/-- C110, change: if some marker has no new one, `ChangePolygonMeshMarkers` throws. -/
theorem c110_change_throws {m : Mesh K} (hw : m.WF) (hd : m.dimension = 2) (n : Nat) (c0 c1 : List Nat)
    (h : (∃ i mk, m.marker .d0 i = ok mk ∧ ∀ new, ¬ NewMarker0 n c0 c1 mk new) ∨
      (∃ i mk, m.marker .d1 i = ok mk ∧ ∀ new, ¬ NewMarker1 n c1 mk new)) :
    m.changePolygonMarkers n c0 c1 = throw := by
  unfold Mesh.changePolygonMarkers
  rw [assert_true hd, ok_bind]
  have t0 : ∀ mk, (∀ new, ¬ NewMarker0 n c0 c1 mk new) → Mesh.chg (Mesh.changedMarker0 n c0 c1) mk = throw := by
    intro mk hn
    rcases chg0_cases n c0 c1 mk with ⟨new, h1⟩ | h1
    · exact absurd ((newMarker0_iff ..).2 h1) (hn new)
    · exact h1
  have t1 : ∀ mk, (∀ new, ¬ NewMarker1 n c1 mk new) → Mesh.chg (Mesh.changedMarker1 n c1) mk = throw := by
    intro mk hn
    rcases chg1_cases n c1 mk with ⟨new, h1⟩ | h1
    · exact absurd ((newMarker1_iff ..).2 h1) (hn new)
    · exact h1
  by_cases h0 : ∃ i mk, m.marker .d0 i = ok mk ∧ ∀ new, ¬ NewMarker0 n c0 c1 mk new
  · obtain ⟨i, mk, h1, h2⟩ := h0
    rw [Mesh.changeMarkers_throw hw .d0 _ (chg0_cases n c0 c1) ⟨i, mk, h1, t0 mk h2⟩]
    rfl
  · obtain ⟨i, mk, h1, h2⟩ := h.resolve_left h0
    obtain ⟨l, e, hl, -⟩ := Mesh.changeMarkers_ok hw .d0 (Mesh.changedMarker0 n c0 c1) (m.num .d0) le_rfl
      fun i mk _ hm => by
        rcases chg0_cases n c0 c1 mk with h1 | h1
        · exact h1
        · refine absurd ⟨i, mk, hm, fun new hn => ?_⟩ h0
          rw [(newMarker0_iff ..).1 hn] at h1
          cases h1
    rw [e, ok_bind]
    exact Mesh.changeMarkers_throw (Mesh.remark_wf hw hl) .d1 _ (chg1_cases n c1)
      ⟨i, mk, (Mesh.marker_remark_ne (by simp)).trans h1, t1 mk h2⟩

/-- C110, change: in the mesh of one polygon with the standard markers every vertex and every side of the polygon gets
the marker that belongs to it. -/
theorem c110_change_polygon {ps : List (V3 K)} {m : Mesh K} (h : PolygonMesh ps [] [] m) (hn : 0 < ps.length)
    {c0 c1 : List Nat} (h0 : c0.length = ps.length) (h1 : c1.length = ps.length) :
    ∃ m', m.changePolygonMarkers ps.length c0 c1 = ok m' ∧ m'.WF ∧ OnlyMarkers m m' ∧
      ∀ (v : Nat), v < ps.length → ∃ k k', c0[v]? = some k ∧ m'.marker .d0 v = ok k ∧ c1[v]? = some k' ∧
        m'.marker .d1 v = ok k' := by
  have hv : ∀ i mk, m.marker .d0 i = ok mk → i < ps.length ∧ mk = i + 1 := by
    intro i mk hm
    have hi := (Mesh.getElem?_of_marker hm).1
    rw [h.points.1] at hi
    obtain ⟨k, hk, -, h2⟩ := h.vertexMarkers i hi
    rw [hm, ok.injEq] at hk
    exact ⟨hi, hk.trans (h2 (by simp; omega))⟩
  have he : ∀ i mk, m.marker .d1 i = ok mk → i < ps.length ∧ mk = ps.length + i + 1 := by
    intro i mk hm
    have hi := (Mesh.getElem?_of_marker hm).1
    rw [h.edges.1, List.length_map, List.length_range] at hi
    obtain ⟨k, hk, -, h2⟩ := h.edgeMarkers i hi
    rw [hm, ok.injEq] at hk
    exact ⟨hi, hk.trans (h2 (by simp; omega))⟩
  obtain ⟨m', e, w, o, H0, H1⟩ := c110_change h.wf h.dimension ps.length c0 c1
    (fun i mk hm => by
      obtain ⟨hi, rfl⟩ := hv i mk hm
      exact ⟨c0[i]'(by omega), Or.inr (Or.inl ⟨i, hi, rfl, List.getElem?_eq_getElem _⟩)⟩)
    (fun i mk hm => by
      obtain ⟨hi, rfl⟩ := he i mk hm
      exact ⟨c1[i]'(by omega), Or.inr ⟨i, by omega, List.getElem?_eq_getElem _⟩⟩)
  refine ⟨m', e, w, o, fun v hvl => ?_⟩
  obtain ⟨k, hk, -, h2⟩ := h.vertexMarkers v hvl
  obtain ⟨k', hk', -, h2'⟩ := h.edgeMarkers v hvl
  obtain rfl := h2 (by simp; omega)
  obtain rfl := h2' (by simp; omega)
  obtain ⟨new, r, hN⟩ := H0 v _ hk
  obtain ⟨new', r', hN'⟩ := H1 v _ hk'
  refine ⟨new, new', ?_, r, ?_, r'⟩
  · rcases hN with ⟨x, -⟩ | ⟨w, -, x, y⟩ | ⟨w, x, -⟩
    · omega
    · rw [show v = w by omega]; exact y
    · omega
  · rcases hN' with ⟨x, -⟩ | ⟨w, x, y⟩
    · omega
    · rw [show v = w by omega]; exact y

/-- C110, set: `SetPolygonMeshMarkers` gives every vertex the marker of the last side of the polygon it is on, that of the
origin of the side or that of the side, but not at the end of the side; every edge with both ends on a side gets the
marker of the last such side; nothing else changes. -/
theorem c110_set (g : GeoCfg K) {sqrt : K → K} (hs : IsSqrt sqrt) {vs : List (V3 K)} {c0 c1 : List Nat} {m : Mesh K}
    (h : g.CanMark vs c0 c1 m) :
    ∃ m', m.setPolygonMarkers g sqrt vs c0 c1 = ok m' ∧ m'.WF ∧ OnlyMarkers m m' ∧
      (∀ i p old, m.point i = ok p → m.marker .d0 i = ok old → ∃ new, m'.marker .d0 i = ok new ∧
        LastMark (g.SideMarks vs c0 c1 p) vs.length old new) ∧
      (∀ s x y p q old, m.extremes s = ok (x, y) → m.point x = ok p → m.point y = ok q → m.marker .d1 s = ok old →
        ∃ new, m'.marker .d1 s = ok new ∧ LastMark (g.SideMarksEdge vs c1 p q) vs.length old new) := by
  unfold Mesh.setPolygonMarkers
  rw [assert_true h.dimension, ok_bind]
  have key : ∀ k, k ≤ vs.length → ∃ m', foldRes (Mesh.markPolygonEdge g sqrt vs c0 c1) m (List.range k) = ok m' ∧
      m'.WF ∧ OnlyMarkers m m' ∧
      (∀ i p old, m.point i = ok p → m.marker .d0 i = ok old → ∃ new, m'.marker .d0 i = ok new ∧
        LastMark (g.SideMarks vs c0 c1 p) k old new) ∧
      (∀ s x y p q old, m.extremes s = ok (x, y) → m.point x = ok p → m.point y = ok q → m.marker .d1 s = ok old →
        ∃ new, m'.marker .d1 s = ok new ∧ LastMark (g.SideMarksEdge vs c1 p q) k old new) := by
    intro k
    induction k with
    | zero =>
      intro _
      exact ⟨m, rfl, h.wf, OnlyMarkers.refl m,
        fun i p old _ ho => ⟨old, ho, Or.inr ⟨fun e he => absurd he (by omega), rfl⟩⟩,
        fun s x y p q old _ _ _ ho => ⟨old, ho, Or.inr ⟨fun e he => absurd he (by omega), rfl⟩⟩⟩
    | succ k ih =>
      intro hk
      obtain ⟨m1, e, w, o, V, E⟩ := ih (by omega)
      obtain ⟨m2, e2, S⟩ := markPolygonEdge_ok hs g h.minTol h.tol h.tolSq h.flat h.sides h.vertexMarkers h.sideMarkers w
        (o.ends h.ends) (fun i p hp => h.meshFlat i p ((o.point i).symm.trans hp)) (show k < vs.length by omega)
      rw [List.range_succ, foldRes_append, e, ok_bind, Mesh.foldRes_one]
      refine ⟨m2, e2, S.wf, o.trans S.only, ?_, ?_⟩
      · intro i p old hp ho
        obtain ⟨mid, hm, hl⟩ := V i p old hp ho
        obtain ⟨s1, s2⟩ := S.vertices i p ((o.point i).trans hp)
        obtain ⟨new, hn⟩ := Mesh.marker_exists S.wf (d := .d0) (i := i) (by
          rw [S.only.num, o.num]; exact point_lt hp)
        refine ⟨new, hn, lastMark_succ hl (fun a ha => ?_) fun ha => ?_⟩
        · exact ok.inj (hn.symm.trans (s1 a ha))
        · exact ok.inj (hn.symm.trans ((s2 ha).trans hm))
      · intro s x y p q old hx hp hq ho
        obtain ⟨mid, hm, hl⟩ := E s x y p q old hx hp hq ho
        obtain ⟨s1, s2⟩ := S.edges s x y p q ((o.extremes s).trans hx) ((o.point x).trans hp) ((o.point y).trans hq)
        obtain ⟨new, hn⟩ := Mesh.marker_exists S.wf (d := .d1) (i := s) (by
          rw [S.only.num, o.num]; exact extremes_lt hx)
        refine ⟨new, hn, lastMark_succ hl (fun a ha => ?_) fun ha => ?_⟩
        · exact ok.inj (hn.symm.trans (s1 a ha))
        · exact ok.inj (hn.symm.trans ((s2 ha).trans hm))
  exact key vs.length le_rfl

theorem coordOn_at {a b : V3 K} (hab : 0 < dist2 a b) (s : K) : coordOn a b (a.add (V3.smul s (b.sub a))) = s := by
  unfold coordOn
  rw [div_eq_iff hab.ne']
  simp only [dot4, dist2, V3.add, V3.smul, V3.sub]
  ring

theorem nearSegment_at (g : GeoCfg K) {a b : V3 K} (hab : 0 < dist2 a b) (s : K) :
    g.NearSegment a (b.sub a) (a.add (V3.smul s (b.sub a))) ↔ -g.tol1D ≤ s ∧ s ≤ 1 + g.tol1D :=
  c90_exact g (by rw [dot_sub_self]; exact hab) s

/-- A marker that only one side gives. -/
theorem lastMark_unique {R : Nat → Nat → Prop} {n old new e k : Nat} (h : LastMark R n old new) (he : e < n)
    (hk : R e k) (hu : ∀ e' k', e' < n → R e' k' → k' = k) : new = k := by
  rcases h with ⟨e', he', hr, -⟩ | ⟨hl, -⟩
  · exact hu e' new he' hr
  · exact absurd hk (hl e he k)

theorem lastMark_none {R : Nat → Nat → Prop} {n old new : Nat} (h : LastMark R n old new)
    (hu : ∀ e' k', e' < n → ¬ R e' k') : new = old := by
  rcases h with ⟨e', he', hr, -⟩ | ⟨-, hl⟩
  · exact absurd hr (hu e' new he')
  · exact hl

/-- C110, set: what the vertices of the mesh get. A mesh vertex at the vertex `e` of the polygon gets the marker of this
vertex, if it is near no side but the two that meet there. A mesh vertex in the interior of the side `e` and near no
other side gets the marker of the side. A mesh vertex near no side keeps its marker. -/
theorem c110_vertices (g : GeoCfg K) {sqrt : K → K} (hs : IsSqrt sqrt) {vs : List (V3 K)} {c0 c1 : List Nat}
    {m m' : Mesh K} (h : g.CanMark vs c0 c1 m) (hm : m.setPolygonMarkers g sqrt vs c0 c1 = ok m') (i : Nat) {p : V3 K}
    (hp : m.point i = ok p) :
    (∀ (e k : Nat), vs[e]? = some p → c0[e]? = some k →
      (∀ e' a b, IsSide vs e' a b → g.NearSegment a (b.sub a) p → e' = e ∨ (e' + 1) % vs.length = e) →
      m'.marker .d0 i = ok k) ∧
    (∀ (e k : Nat) a b s, IsSide vs e a b → p = a.add (V3.smul s (b.sub a)) → g.tol1D < s → s < 1 - g.tol1D →
      c1[e]? = some k → (∀ e' a b, IsSide vs e' a b → g.NearSegment a (b.sub a) p → e' = e) →
      m'.marker .d0 i = ok k) ∧
    ((∀ e a b, IsSide vs e a b → ¬ g.NearSegment a (b.sub a) p) → m'.marker .d0 i = m.marker .d0 i) := by
  obtain ⟨m₁, e₁, -, -, V, -⟩ := c110_set g hs h
  rw [hm, ok.injEq] at e₁
  subst e₁
  have t0 : 0 ≤ g.tol1D := le_trans h.minTol (le_max_left _ _)
  have tl := h.tol
  obtain ⟨old, ho⟩ := Mesh.marker_exists h.wf (point_lt hp)
  obtain ⟨new, hn, hl⟩ := V i p old hp ho
  refine ⟨?_, ?_, ?_⟩
  · intro e k he hk hu
    have hel : e < vs.length := (List.getElem?_eq_some_iff.1 he).1
    obtain ⟨a, b, hab⟩ := isSide_exists hel
    have ha : a = p := by
      have := hab.1
      rw [he, Option.some.injEq] at this
      exact this.symm
    subst ha
    have hd := h.sides e a b hab
    have ea : a = a.add (V3.smul 0 (b.sub a)) := by cases a; simp [V3.add, V3.smul]
    have c0' : coordOn a b a = 0 := by
      have := coordOn_at hd 0
      rwa [← ea] at this
    have hnear : g.NearSegment a (b.sub a) a := by
      have := (nearSegment_at g hd 0).2 ⟨by linarith, by linarith⟩
      rwa [← ea] at this
    rw [hn, lastMark_unique hl hel (k := k) ⟨a, b, hab, Or.inl ⟨⟨hnear, by rw [c0']; exact t0⟩, hk⟩⟩]
    rintro e' k' he' ⟨a', b', hab', hh⟩
    by_cases hee : e' = e
    · subst hee
      obtain ⟨rfl, rfl⟩ := isSide_unique hab hab'
      rcases hh with ⟨-, h2⟩ | ⟨h2, -⟩
      · rw [hk, Option.some.injEq] at h2
        exact h2.symm
      · have := h2.2.1
        rw [c0'] at this
        exact absurd this (not_lt.2 t0)
    · have hne : g.NearSegment a' (b'.sub a') a := by
        rcases hh with h2 | h2
        · exact h2.1.1
        · exact h2.1.1
      have hp' := (hu e' a' b' hab' hne).resolve_left hee
      have hb : b' = a := by
        have := hab'.2
        rw [hp', he, Option.some.injEq] at this
        exact this.symm
      subst hb
      have hd' := h.sides e' a' b' hab'
      have eb : b' = a'.add (V3.smul 1 (b'.sub a')) := by cases b'; simp [V3.add, V3.smul, V3.sub]
      have c1' : coordOn a' b' b' = 1 := by
        have := coordOn_at hd' 1
        rwa [← eb] at this
      rcases hh with ⟨h2, -⟩ | ⟨h2, -⟩
      · have := h2.2
        rw [c1'] at this
        linarith
      · have := h2.2.2
        rw [c1'] at this
        linarith
  · intro e k a b s hab hps s0 s1 hk hu
    have hel : e < vs.length := (List.getElem?_eq_some_iff.1 hab.1).1
    have hd := h.sides e a b hab
    have hc : coordOn a b p = s := by rw [hps]; exact coordOn_at hd s
    have hnear : g.NearSegment a (b.sub a) p := by
      rw [hps]; exact (nearSegment_at g hd s).2 ⟨by linarith, by linarith⟩
    rw [hn, lastMark_unique hl hel (k := k)
      ⟨a, b, hab, Or.inr ⟨⟨hnear, by rw [hc]; exact s0, by rw [hc]; exact s1⟩, hk⟩⟩]
    rintro e' k' he' ⟨a', b', hab', hh⟩
    have hne : g.NearSegment a' (b'.sub a') p := by
      rcases hh with h2 | h2
      · exact h2.1.1
      · exact h2.1.1
    obtain rfl := hu e' a' b' hab' hne
    obtain ⟨rfl, rfl⟩ := isSide_unique hab hab'
    rcases hh with ⟨h2, -⟩ | ⟨-, h2⟩
    · have := h2.2
      rw [hc] at this
      exact absurd s0 (not_lt.2 this)
    · rw [hk, Option.some.injEq] at h2
      exact h2.symm
  · intro hu
    rw [hn, ho, lastMark_none hl]
    rintro e' k' - ⟨a', b', hab', hh⟩
    rcases hh with h2 | h2
    · exact hu e' a' b' hab' h2.1.1
    · exact hu e' a' b' hab' h2.1.1

/-- C110, set: what the edges of the mesh get. An edge on the side `e`, ends included, whose ends are not both near
another side, gets the marker of the side. An edge whose ends are near no common side keeps its marker. -/
theorem c110_edges (g : GeoCfg K) {sqrt : K → K} (hs : IsSqrt sqrt) {vs : List (V3 K)} {c0 c1 : List Nat}
    {m m' : Mesh K} (h : g.CanMark vs c0 c1 m) (hm : m.setPolygonMarkers g sqrt vs c0 c1 = ok m') {s x y : Nat}
    {p q : V3 K} (hx : m.extremes s = ok (x, y)) (hp : m.point x = ok p) (hq : m.point y = ok q) :
    (∀ (e k : Nat) a b u v, IsSide vs e a b → p = a.add (V3.smul u (b.sub a)) → q = a.add (V3.smul v (b.sub a)) →
      0 ≤ u → u ≤ 1 → 0 ≤ v → v ≤ 1 → c1[e]? = some k →
      (∀ e' a b, IsSide vs e' a b → g.NearSegment a (b.sub a) p → g.NearSegment a (b.sub a) q → e' = e) →
      m'.marker .d1 s = ok k) ∧
    ((∀ e a b, IsSide vs e a b → ¬ (g.NearSegment a (b.sub a) p ∧ g.NearSegment a (b.sub a) q)) →
      m'.marker .d1 s = m.marker .d1 s) := by
  obtain ⟨m₁, e₁, -, -, -, E⟩ := c110_set g hs h
  rw [hm, ok.injEq] at e₁
  subst e₁
  have t0 : 0 ≤ g.tol1D := le_trans h.minTol (le_max_left _ _)
  obtain ⟨old, ho⟩ := Mesh.marker_exists h.wf (d := .d1) (extremes_lt hx)
  obtain ⟨new, hn, hl⟩ := E s x y p q old hx hp hq ho
  refine ⟨?_, ?_⟩
  · intro e k a b u v hab hpu hqv u0 u1 v0 v1 hk hu
    have hel : e < vs.length := (List.getElem?_eq_some_iff.1 hab.1).1
    have hd := h.sides e a b hab
    have n1 : g.NearSegment a (b.sub a) p := by
      rw [hpu]; exact (nearSegment_at g hd u).2 ⟨by linarith, by linarith⟩
    have n2 : g.NearSegment a (b.sub a) q := by
      rw [hqv]; exact (nearSegment_at g hd v).2 ⟨by linarith, by linarith⟩
    rw [hn, lastMark_unique hl hel (k := k) ⟨a, b, hab, n1, n2, hk⟩]
    rintro e' k' he' ⟨a', b', hab', h1, h2, h3⟩
    obtain rfl := hu e' a' b' hab' h1 h2
    rw [hk, Option.some.injEq] at h3
    exact h3.symm
  · intro hu
    rw [hn, ho, lastMark_none hl]
    rintro e' k' - ⟨a', b', hab', h1, h2, -⟩
    exact hu e' a' b' hab' ⟨h1, h2⟩

theorem not_near_line {o t p : V3 ℝ} (h : 1 / 2 ^ 40 * t.dot t < ((p.sub o).cross t).dot ((p.sub o).cross t)) :
    ¬ defaultGeo.NearLine o t p := by
  rintro ⟨s, hs⟩
  have e := dist2_line o t p s
  have h1 := mul_self_nonneg (s * t.dot t - (p.sub o).dot t)
  have h2 := mul_le_mul_of_nonneg_right hs (dot_self_nonneg t)
  have h3 : defaultGeo.tolSq ≤ 1 / 2 ^ 40 := by rw [defaultGeo_tolSq]; norm_num
  have h4 := mul_le_mul_of_nonneg_right h3 (dot_self_nonneg t)
  linarith

theorem isSide_three {a b c : V3 K} {e : Nat} {x y : V3 K} (h : IsSide [a, b, c] e x y) :
    (e = 0 ∧ x = a ∧ y = b) ∨ (e = 1 ∧ x = b ∧ y = c) ∨ (e = 2 ∧ x = c ∧ y = a) := by
  obtain ⟨h1, h2⟩ := h
  have he := (List.getElem?_eq_some_iff.1 h1).1
  simp only [List.length_cons, List.length_nil] at he h2
  obtain rfl | rfl | rfl : e = 0 ∨ e = 1 ∨ e = 2 := by omega
  all_goals simp at h1 h2
  · exact Or.inl ⟨rfl, h1.symm, h2.symm⟩
  · exact Or.inr (Or.inl ⟨rfl, h1.symm, h2.symm⟩)
  · exact Or.inr (Or.inr ⟨rfl, h1.symm, h2.symm⟩)

theorem canMark_triangle {ps : List (V3 ℝ)} {m : Mesh ℝ} (h : PolygonMesh ps [] [] m) (hn : 2 < ps.length)
    (hz : ∀ p ∈ ps, p.z = 0) {a b c : V3 ℝ} (ha : a.z = 0) (hb : b.z = 0) (hc : c.z = 0) (d1 : 0 < dist2 a b)
    (d2 : 0 < dist2 b c) (d3 : 0 < dist2 c a) : defaultGeo.CanMark [a, b, c] [7, 8, 9] [17, 18, 19] m where
  minTol := defaultGeo_min_nonneg
  tol := defaultGeo_lt_half
  tolSq := defaultGeo_tolSq_le
  flat := by
    intro p hp
    simp only [List.mem_cons, List.not_mem_nil, or_false] at hp
    rcases hp with rfl | rfl | rfl <;> assumption
  sides := by
    intro e x y he
    rcases isSide_three he with ⟨-, rfl, rfl⟩ | ⟨-, rfl, rfl⟩ | ⟨-, rfl, rfl⟩ <;> assumption
  vertexMarkers := le_rfl
  sideMarkers := le_rfl
  wf := h.wf
  dimension := h.dimension
  ends := polygonMesh_ends hn h
  meshFlat := fun i p hp => hz p (List.mem_of_getElem? ((polygonMesh_point h i p).1 hp))

/-- The hypotheses of `c110_change` and of `c110_change_polygon` are met by a triangle, those of `c110_change_throws` if the
vector of the markers of the edges is too short. -/
example : ∃ m m' : Mesh ℝ, m.WF ∧ m.dimension = 2 ∧ m.changePolygonMarkers 3 [7, 8, 9] [17, 18, 19] = ok m' ∧
    m.marker .d0 1 = ok 2 ∧ m'.marker .d0 1 = ok 8 ∧ m.marker .d1 2 = ok 6 ∧ m'.marker .d1 2 = ok 19 ∧
    m.changePolygonMarkers 3 [7, 8, 9] [17, 18] = throw := by
  obtain ⟨m, -, h⟩ := (c89_polygon_mesh ([⟨0, 0, 0⟩, ⟨1, 0, 0⟩, ⟨0, 1, 0⟩] : List (V3 ℝ)) [] []).1 (by simp)
  obtain ⟨m', e, -, -, H⟩ := c110_change_polygon h (by simp) (c0 := [7, 8, 9]) (c1 := [17, 18, 19]) rfl rfl
  have v1 : m.marker .d0 1 = ok 2 := by
    obtain ⟨k, hk, -, h1⟩ := h.vertexMarkers 1 (by simp)
    rw [hk, h1 (by simp)]
  have e2 : m.marker .d1 2 = ok 6 := by
    obtain ⟨k, hk, -, h1⟩ := h.edgeMarkers 2 (by simp)
    rw [hk, h1 (by simp)]; rfl
  refine ⟨m, m', h.wf, h.dimension, e, v1, ?_, e2, ?_, ?_⟩
  · obtain ⟨k, k', h1, h2, h3, h4⟩ := H 1 (by simp)
    rw [h2]; simp at h1; rw [← h1]
  · obtain ⟨k, k', h1, h2, h3, h4⟩ := H 2 (by simp)
    rw [h4]; simp at h3; rw [← h3]
  · refine c110_change_throws h.wf h.dimension 3 _ _ (Or.inr ⟨2, 6, e2, ?_⟩)
    rintro new (⟨h1, -⟩ | ⟨j, h1, h2⟩)
    · omega
    · obtain rfl : j = 2 := by omega
      simp at h2

/-- The hypotheses of `c110_set`, `c110_vertices` and `c110_edges`: in the mesh of the triangle (0, 0), (1, 0), (0, 1) two
vertices and the edge between them are on the side from (-1, 0) to (2, 0) of a greater triangle, the third vertex is
inside. -/
example : ∃ m m' : Mesh ℝ,
    defaultGeo.CanMark [⟨-1, 0, 0⟩, ⟨2, 0, 0⟩, ⟨0, 2, 0⟩] [7, 8, 9] [17, 18, 19] m ∧
    m.setPolygonMarkers defaultGeo Real.sqrt [⟨-1, 0, 0⟩, ⟨2, 0, 0⟩, ⟨0, 2, 0⟩] [7, 8, 9] [17, 18, 19] = ok m' ∧
    m'.marker .d0 0 = ok 17 ∧ m'.marker .d0 2 = m.marker .d0 2 ∧ m'.marker .d1 0 = ok 17 ∧
    m'.marker .d1 1 = m.marker .d1 1 := by
  obtain ⟨m, -, h⟩ := (c89_polygon_mesh ([⟨0, 0, 0⟩, ⟨1, 0, 0⟩, ⟨0, 1, 0⟩] : List (V3 ℝ)) [] []).1 (by simp)
  have hc := canMark_triangle h (by simp) (by simp) (a := ⟨-1, 0, 0⟩) (b := ⟨2, 0, 0⟩) (c := ⟨0, 2, 0⟩) rfl rfl rfl
    (by norm_num [dist2]) (by norm_num [dist2]) (by norm_num [dist2])
  obtain ⟨m', e, -⟩ := c110_set defaultGeo isSqrt_real hc
  have p0 : m.point 0 = ok ⟨0, 0, 0⟩ := (polygonMesh_point h 0 _).2 rfl
  have p1 : m.point 1 = ok ⟨1, 0, 0⟩ := (polygonMesh_point h 1 _).2 rfl
  have p2 : m.point 2 = ok ⟨0, 1, 0⟩ := (polygonMesh_point h 2 _).2 rfl
  have x0 : m.extremes 0 = ok (0, 1) := h.edges.2 0 _ rfl
  have x1 : m.extremes 1 = ok (1, 2) := h.edges.2 1 _ rfl
  have side : IsSide ([⟨-1, 0, 0⟩, ⟨2, 0, 0⟩, ⟨0, 2, 0⟩] : List (V3 ℝ)) 0 ⟨-1, 0, 0⟩ ⟨2, 0, 0⟩ := ⟨rfl, rfl⟩
  have a0 : (⟨0, 0, 0⟩ : V3 ℝ) = (⟨-1, 0, 0⟩ : V3 ℝ).add (V3.smul (1 / 3) ((⟨2, 0, 0⟩ : V3 ℝ).sub ⟨-1, 0, 0⟩)) := by
    norm_num [V3.add, V3.smul, V3.sub]
  have a1 : (⟨1, 0, 0⟩ : V3 ℝ) = (⟨-1, 0, 0⟩ : V3 ℝ).add (V3.smul (2 / 3) ((⟨2, 0, 0⟩ : V3 ℝ).sub ⟨-1, 0, 0⟩)) := by
    norm_num [V3.add, V3.smul, V3.sub]
  have only0 : ∀ e' a b, IsSide ([⟨-1, 0, 0⟩, ⟨2, 0, 0⟩, ⟨0, 2, 0⟩] : List (V3 ℝ)) e' a b →
      defaultGeo.NearSegment a (b.sub a) ⟨0, 0, 0⟩ → e' = 0 := by
    intro e' a b hs hn
    rcases isSide_three hs with ⟨r, -, -⟩ | ⟨-, rfl, rfl⟩ | ⟨-, rfl, rfl⟩
    · exact r
    · exact absurd hn.1 (not_near_line (by norm_num [V3.sub, V3.cross, V3.dot]))
    · exact absurd hn.1 (not_near_line (by norm_num [V3.sub, V3.cross, V3.dot]))
  have none2 : ∀ e' a b, IsSide ([⟨-1, 0, 0⟩, ⟨2, 0, 0⟩, ⟨0, 2, 0⟩] : List (V3 ℝ)) e' a b →
      ¬ defaultGeo.NearSegment a (b.sub a) ⟨0, 1, 0⟩ := by
    intro e' a b hs hn
    rcases isSide_three hs with ⟨-, rfl, rfl⟩ | ⟨-, rfl, rfl⟩ | ⟨-, rfl, rfl⟩ <;>
      exact absurd hn.1 (not_near_line (by norm_num [V3.sub, V3.cross, V3.dot]))
  refine ⟨m, m', hc, e, ?_, ?_, ?_, ?_⟩
  · exact (c110_vertices defaultGeo isSqrt_real hc e 0 p0).2.1 0 17 _ _ (1 / 3) side a0
      (by rw [defaultGeo_tol1D]; norm_num) (by rw [defaultGeo_tol1D]; norm_num) rfl only0
  · exact (c110_vertices defaultGeo isSqrt_real hc e 2 p2).2.2 none2
  · exact (c110_edges defaultGeo isSqrt_real hc e x0 p0 p1).1 0 17 _ _ (1 / 3) (2 / 3) side a0 a1 (by norm_num)
      (by norm_num) (by norm_num) (by norm_num) rfl fun e' a b hs h1 _ => only0 e' a b hs h1
  · exact (c110_edges defaultGeo isSqrt_real hc e x1 p1 p2).2 fun e' a b hs hh => none2 e' a b hs hh.2

/-- The first part of `c110_vertices`: in the mesh of a triangle the vertex 0 gets the marker of the vertex 0. -/
example : ∃ m m' : Mesh ℝ,
    m.setPolygonMarkers defaultGeo Real.sqrt [⟨0, 0, 0⟩, ⟨1, 0, 0⟩, ⟨0, 1, 0⟩] [7, 8, 9] [17, 18, 19] = ok m' ∧
    m'.marker .d0 0 = ok 7 := by
  obtain ⟨m, -, h⟩ := (c89_polygon_mesh ([⟨0, 0, 0⟩, ⟨1, 0, 0⟩, ⟨0, 1, 0⟩] : List (V3 ℝ)) [] []).1 (by simp)
  have hc := canMark_triangle h (by simp) (by simp) (a := ⟨0, 0, 0⟩) (b := ⟨1, 0, 0⟩) (c := ⟨0, 1, 0⟩) rfl rfl rfl
    (by norm_num [dist2]) (by norm_num [dist2]) (by norm_num [dist2])
  obtain ⟨m', e, -⟩ := c110_set defaultGeo isSqrt_real hc
  refine ⟨m, m', e, (c110_vertices defaultGeo isSqrt_real hc e 0 ((polygonMesh_point h 0 _).2 rfl)).1 0 7 rfl rfl ?_⟩
  intro e' a b hs hn
  rcases isSide_three hs with ⟨r, -, -⟩ | ⟨-, rfl, rfl⟩ | ⟨r, -, -⟩
  · exact Or.inl r
  · exact absurd hn.1 (not_near_line (by norm_num [V3.sub, V3.cross, V3.dot]))
  · right; rw [r]; rfl

end Verif
