import Verif.LinePosLemmas

/-
Property C109: position of a line with respect to a polygon.
-/
namespace Verif

open Res

variable {K : Type} [Field K] [LinearOrder K] [IsStrictOrderedRing K]

/-- C109: whatever the tolerances decide, a polygon with edges longer than the tolerance and a
direction longer than the tolerance get an answer; the answer has entries of different edges in the
order of the edges, and says that the line intersects the polygon exactly if there is an entry. A
shorter direction is refused. -/
theorem c109_returns (sqrt : K → K) (hs : IsSqrt sqrt) (g : GeoCfg K) (h0 : 0 ≤ g.minTolerance)
    (hT : g.tol1D < 1 / 2) (t o : V3 K) (vs : List (V3 K)) :
    ((∀ (e : Nat) a b, vs[e]? = some a → vs[(e + 1) % vs.length]? = some b → g.tolSq < dist2 a b) →
      g.tolSq < dist2 o (o.add t) →
      ∃ r, g.linePolygonPosition sqrt t o vs = ok r ∧ (r.intersecting = true ↔ r.hits ≠ []) ∧
        (r.hits.map (·.index)).Pairwise (· < ·) ∧ ∀ h ∈ r.hits, h.index < vs.length) ∧
    (vs ≠ [] → dist2 o (o.add t) ≤ g.tolSq → g.linePolygonPosition sqrt t o vs = abort) := by
  constructor
  · intro hv ht
    have key : ∀ (e : Nat) a b, vs[e]? = some a → vs[(e + 1) % vs.length]? = some b →
        ∃ x, g.lineEdge sqrt o t a b e = ok x ∧ ∀ h, x = some h → h.index = e := by
      intro e a b ha hb
      obtain ⟨r, hr⟩ := (c65_degenerate sqrt hs g h0 hT a b o (o.add t)).2 ⟨hv e a b ha hb, ht⟩
      rw [GeoCfg.lineEdge, hr, ok_bind]
      have hfirst : r.lines = .coPlanarIntersecting → ∃ p, vget r.first 0 = ok p := by
        intro hl
        rw [segSeg_cases hs g _ _ _ _ (by rw [V3.sub_dot_pointAt]; exact hv e a b ha hb)
          (by rw [V3.sub_dot_pointAt]; exact ht)] at hr
        split at hr
        · cases hr; cases hl
        split at hr
        · obtain ⟨ps, _, hr⟩ := bind_eq_ok.1 hr
          obtain ⟨pq, _, hr⟩ := bind_eq_ok.1 hr
          cases hr
          exact ⟨_, rfl⟩
        · have := parallelSegments_lines g a b o _ r hr
          rw [this] at hl; cases hl
      have hmul : r.lines = .coPlanarParallel → r.segments = .noIntersection ∨
          r.segments = .multipleIntersections := by
        intro hl
        rw [segSeg_cases hs g _ _ _ _ (by rw [V3.sub_dot_pointAt]; exact hv e a b ha hb)
          (by rw [V3.sub_dot_pointAt]; exact ht)] at hr
        split at hr
        · cases hr; cases hl
        split at hr
        · obtain ⟨ps, _, hr⟩ := bind_eq_ok.1 hr
          obtain ⟨pq, _, hr⟩ := bind_eq_ok.1 hr
          cases hr; cases hl
        · unfold GeoCfg.parallelSegments at hr
          simp only at hr
          split at hr
          · cases hr; exact Or.inl rfl
          split at hr
          · cases hr; exact Or.inl rfl
          · obtain ⟨_, _, hr⟩ := bind_eq_ok.1 hr
            obtain ⟨_, _, hr⟩ := bind_eq_ok.1 hr
            obtain ⟨_, _, hr⟩ := bind_eq_ok.1 hr
            obtain ⟨_, _, hr⟩ := bind_eq_ok.1 hr
            cases hr; exact Or.inr rfl
      unfold edgeHit
      split
      · exact ⟨_, rfl, by simp⟩
      next hd =>
      split
      · exact ⟨_, rfl, by simp⟩
      next hp =>
      split
      · exact ⟨_, rfl, by rintro h ⟨⟩; rfl⟩
      next hm =>
      have hl : r.lines = .coPlanarIntersecting := by
        cases hc : r.lines with
        | onDifferentPlanes => exact absurd hc hd
        | coPlanarParallel =>
          rcases hmul hc with h | h
          · exact absurd ⟨hc, h⟩ hp
          · exact absurd h hm
        | coPlanarIntersecting => rfl
      obtain ⟨p, hp⟩ := hfirst hl
      rw [hp, ok_bind]
      refine ⟨_, rfl, ?_⟩
      intro h hh
      unfold edgeHitOf at hh
      split at hh <;> cases hh <;> rfl
    classical
    let entry : Nat → Option (EdgeHit K) := fun e =>
      if h : ∃ x, ∀ a b, vs[e]? = some a → vs[(e + 1) % vs.length]? = some b →
        g.lineEdge sqrt o t a b e = ok x ∧ ∀ h, x = some h → h.index = e then h.choose else none
    have hentry : ∀ e a b, vs[e]? = some a → vs[(e + 1) % vs.length]? = some b →
        g.lineEdge sqrt o t a b e = ok (entry e) ∧ ∀ h, entry e = some h → h.index = e := by
      intro e a b ha hb
      have hex : ∃ x, ∀ a b, vs[e]? = some a → vs[(e + 1) % vs.length]? = some b →
          g.lineEdge sqrt o t a b e = ok x ∧ ∀ h, x = some h → h.index = e := by
        obtain ⟨x, hx⟩ := key e a b ha hb
        refine ⟨x, fun a' b' ha' hb' => ?_⟩
        rw [ha] at ha'; rw [hb] at hb'
        cases ha'; cases hb'; exact hx
      simp only [entry, dif_pos hex]
      exact hex.choose_spec a b ha hb
    have hrun := linePolygon_fold g t o vs entry (fun e a b ha hb => (hentry e a b ha hb).1) vs.length le_rfl
    refine ⟨_, hrun, by simp, ?_, ?_⟩
    · have hidx : ∀ e < vs.length, ∀ h, entry e = some h → h.index = e := by
        intro e he h hh
        exact (hentry e _ _ (List.getElem?_eq_getElem he)
          (List.getElem?_eq_getElem (Nat.mod_lt _ (by omega)))).2 h hh
      have : ∀ n ≤ vs.length, ((((List.range n).map entry).filterMap id).map (·.index)).Pairwise (· < ·) ∧
          ∀ i ∈ (((List.range n).map entry).filterMap id).map (·.index), i < n := by
        intro n
        induction n with
        | zero => simp
        | succ n ih =>
          intro hn
          obtain ⟨i1, i2⟩ := ih (by omega)
          rw [List.range_succ, List.map_append, List.filterMap_append, List.map_append]
          cases he : entry n with
          | none =>
            simp only [List.map_cons, List.map_nil, he, List.filterMap_cons, id_eq, List.filterMap_nil,
              List.append_nil]
            exact ⟨i1, fun i hi => Nat.lt_succ_of_lt (i2 i hi)⟩
          | some h =>
            have hi := hidx n (by omega) h he
            simp only [List.map_cons, List.map_nil, he, List.filterMap_cons, id_eq, List.filterMap_nil, hi]
            refine ⟨List.pairwise_append.2 ⟨i1, by simp, fun i hi' j hj => ?_⟩, fun i hi' => ?_⟩
            · cases List.mem_singleton.1 hj
              exact i2 i hi'
            · rcases List.mem_append.1 hi' with h' | h'
              · exact Nat.lt_succ_of_lt (i2 i h')
              · cases List.mem_singleton.1 h'; exact Nat.lt_succ_self n
      exact (this vs.length le_rfl).1
    · intro h hh
      simp only [List.mem_filterMap, List.mem_map, List.mem_range, id_eq] at hh
      obtain ⟨_, ⟨e, he, rfl⟩, hh⟩ := hh
      rw [(hentry e _ _ (List.getElem?_eq_getElem he)
          (List.getElem?_eq_getElem (Nat.mod_lt _ (by omega)))).2 h hh]
      exact he
  · intro hne ht
    have hl : 0 < vs.length := List.length_pos_of_ne_nil hne
    obtain ⟨n, hn⟩ : ∃ n, vs.length = n + 1 := ⟨vs.length - 1, by omega⟩
    have hd := (c65_degenerate sqrt hs g h0 hT vs[0] (vs[(0 + 1) % vs.length]'(Nat.mod_lt _ hl)) o
      (o.add t)).1 (Or.inr ht)
    unfold GeoCfg.linePolygonPosition
    rw [hn, List.range_succ_eq_map, foldRes_cons, linePolygonStep_eq g t o vs _ 0
      (List.getElem?_eq_getElem hl) (List.getElem?_eq_getElem (Nat.mod_lt _ hl)), GeoCfg.lineEdge]
    rw [hd]
    rfl

/-- C109 where the tolerances do not matter: the answer of the call is the right one.

Full statement: for every polygon with edges longer than the tolerance and every line in its plane,
`LinePolygonOk o t vs r` holds for the answer `r`. What is missing: an edge on the line that is away
from the segment between `o` and `o + t` (see `c109_parallel_violated`), and edges and lines within
the tolerances of one of the decisions; `LineEdgeResolved` rules out both. -/
theorem c109_position_partial (sqrt : K → K) (hs : IsSqrt sqrt) (g : GeoCfg K) (h0 : 0 ≤ g.minTolerance)
    (hT : g.tol1D < 1 / 2) (h1 : g.tolSq ≤ 1) (t o : V3 K) (vs : List (V3 K))
    (h : ∀ (e : Nat) a b, vs[e]? = some a → vs[(e + 1) % vs.length]? = some b →
      LineEdgeResolved g o t a b) :
    ∃ r, g.linePolygonPosition sqrt t o vs = ok r ∧ LinePolygonOk o t vs r := by
  classical
  let entry : Nat → Option (EdgeHit K) := fun e =>
    if h : ∃ x, ∀ a b, vs[e]? = some a → vs[(e + 1) % vs.length]? = some b →
      g.lineEdge sqrt o t a b e = ok x ∧ EdgeEntry o t a b e x then h.choose else none
  have hentry : ∀ e a b, vs[e]? = some a → vs[(e + 1) % vs.length]? = some b →
      g.lineEdge sqrt o t a b e = ok (entry e) ∧ EdgeEntry o t a b e (entry e) := by
    intro e a b ha hb
    have hex : ∃ x, ∀ a b, vs[e]? = some a → vs[(e + 1) % vs.length]? = some b →
        g.lineEdge sqrt o t a b e = ok x ∧ EdgeEntry o t a b e x := by
      obtain ⟨x, hx⟩ := lineEdge_ok hs g h0 hT h1 o t a b e (h e a b ha hb)
      refine ⟨x, fun a' b' ha' hb' => ?_⟩
      rw [ha] at ha'; rw [hb] at hb'
      cases ha'; cases hb'; exact hx
    simp only [entry, dif_pos hex]
    exact hex.choose_spec a b ha hb
  have hrun := linePolygon_fold g t o vs entry (fun e a b ha hb => (hentry e a b ha hb).1) vs.length le_rfl
  refine ⟨_, hrun, (List.range vs.length).map entry, by simp, ?_, rfl, by simp⟩
  intro e a b x ha hb hx
  rw [List.getElem?_map, Option.map_eq_some_iff] at hx
  obtain ⟨e', he', rfl⟩ := hx
  obtain ⟨_, rfl⟩ := List.getElem?_eq_some_iff.1 he'
  rw [List.getElem_range]
  exact (hentry e a b ha hb).2

/-- The corners of the unit square. -/
def unitSquare : List (V3 ℝ) := [⟨0, 0, 0⟩, ⟨1, 0, 0⟩, ⟨1, 1, 0⟩, ⟨0, 1, 0⟩]

theorem defaultGeo_tolSq_le_one : defaultGeo.tolSq ≤ 1 := by rw [defaultGeo_tolSq]; norm_num

/-- The edges of the unit square. -/
theorem unitSquare_edges {P : V3 ℝ → V3 ℝ → Prop} (h0 : P ⟨0, 0, 0⟩ ⟨1, 0, 0⟩) (h1 : P ⟨1, 0, 0⟩ ⟨1, 1, 0⟩)
    (h2 : P ⟨1, 1, 0⟩ ⟨0, 1, 0⟩) (h3 : P ⟨0, 1, 0⟩ ⟨0, 0, 0⟩) :
    ∀ (e : Nat) a b, unitSquare[e]? = some a → unitSquare[(e + 1) % unitSquare.length]? = some b → P a b := by
  intro e a b ha hb
  have hlt : e < 4 := (List.getElem?_eq_some_iff.1 ha).1
  obtain rfl | rfl | rfl | rfl : e = 0 ∨ e = 1 ∨ e = 2 ∨ e = 3 := by omega
  · cases ha; cases hb; exact h0
  · cases ha; cases hb; exact h1
  · cases ha; cases hb; exact h2
  · cases ha; cases hb; exact h3

/-- The hypotheses of `c109_position_partial` for the unit square: the line through its lower side
from the corner `(0, 0)`. It contains the lower side, goes through ends of the sides on the right
and on the left and is parallel to the upper side. -/
theorem unitSquare_resolved : ∀ (e : Nat) a b, unitSquare[e]? = some a →
    unitSquare[(e + 1) % unitSquare.length]? = some b →
    LineEdgeResolved defaultGeo ⟨0, 0, 0⟩ ⟨1, 0, 0⟩ a b := by
  apply unitSquare_edges
  · refine ⟨by rw [defaultGeo_tolSq]; norm_num [dist2],
      by rw [defaultGeo_tolSq]; norm_num [dist2, V3.add], Or.inl ⟨0, 1, ?_, ?_, ?_, ?_⟩⟩
    · simp [pointAt]
    · simp [pointAt, V3.add]
    · norm_num
    · norm_num
  · refine ⟨by rw [defaultGeo_tolSq]; norm_num [dist2],
      by rw [defaultGeo_tolSq]; norm_num [dist2, V3.add], Or.inr (Or.inr ⟨?_, 0, 1, ?_, Or.inl rfl⟩)⟩
    · rw [defaultGeo_tolSq]; norm_num [dist2, dot4, V3.add]
    · simp [pointAt, V3.add]
  · refine ⟨by rw [defaultGeo_tolSq]; norm_num [dist2],
      by rw [defaultGeo_tolSq]; norm_num [dist2, V3.add], Or.inr (Or.inl ⟨⟨-1, ?_⟩, ?_, ?_⟩)⟩
    · norm_num [V3.smul, V3.sub]
    · rw [defaultGeo_tol1D]; norm_num [dist2, V3.sub, V3.cross, V3.dot]
    · rw [defaultGeo_tol1D]; norm_num [dist2, V3.sub, V3.cross, V3.dot, V3.add]
  · refine ⟨by rw [defaultGeo_tolSq]; norm_num [dist2],
      by rw [defaultGeo_tolSq]; norm_num [dist2, V3.add], Or.inr (Or.inr ⟨?_, 1, 0, ?_, Or.inr (Or.inl rfl)⟩)⟩
    · rw [defaultGeo_tolSq]; norm_num [dist2, dot4, V3.add]
    · simp [pointAt]

/-- `c109_position_partial` and `c109_returns` for the unit square. -/
example : ∃ r, defaultGeo.linePolygonPosition Real.sqrt ⟨1, 0, 0⟩ ⟨0, 0, 0⟩ unitSquare = ok r ∧
    LinePolygonOk ⟨0, 0, 0⟩ ⟨1, 0, 0⟩ unitSquare r :=
  c109_position_partial Real.sqrt isSqrt_real defaultGeo defaultGeo_min_nonneg defaultGeo_lt_half
    defaultGeo_tolSq_le_one _ _ _ unitSquare_resolved

example : defaultGeo.tolSq < dist2 (⟨0, 0, 0⟩ : V3 ℝ) (V3.add ⟨0, 0, 0⟩ ⟨1, 0, 0⟩) ∧
    ∀ (e : Nat) a b, unitSquare[e]? = some a → unitSquare[(e + 1) % unitSquare.length]? = some b →
      defaultGeo.tolSq < dist2 a b :=
  ⟨by rw [defaultGeo_tolSq]; norm_num [dist2, V3.add],
    fun e a b ha hb => (unitSquare_resolved e a b ha hb).1⟩

/-- C109 fails for an edge on the line away from the segment from the origin of the line along its
direction: the line through `(10, 0)` with the direction `(1, 0)` contains the lower side of the
unit square, but the answer has no entry for this side. With the origin `(0, 0)` of the same line
the side is reported as parallel. -/
theorem c109_parallel_violated : ∃ r r',
    defaultGeo.linePolygonPosition Real.sqrt ⟨1, 0, 0⟩ ⟨10, 0, 0⟩ unitSquare = ok r ∧
    defaultGeo.linePolygonPosition Real.sqrt ⟨1, 0, 0⟩ ⟨0, 0, 0⟩ unitSquare = ok r' ∧
    (∀ p : V3 ℝ, OnDirLine ⟨10, 0, 0⟩ ⟨1, 0, 0⟩ p ↔ OnDirLine ⟨0, 0, 0⟩ ⟨1, 0, 0⟩ p) ∧
    (∀ s, OnDirLine ⟨10, 0, 0⟩ ⟨1, 0, 0⟩ (pointAt (⟨0, 0, 0⟩ : V3 ℝ) ⟨1, 0, 0⟩ s)) ∧
    r.hits = [⟨.onEdgeOrigin, 1, 0⟩, ⟨.onEdgeEnd, 3, 1⟩] ∧
    r'.hits = [⟨.parallel, 0, 0⟩, ⟨.onEdgeOrigin, 1, 0⟩, ⟨.onEdgeEnd, 3, 1⟩] := by
  have h0 := defaultGeo_min_nonneg
  have hT := defaultGeo_lt_half
  have run : ∀ (x : ℝ) (first : Option (EdgeHit ℝ)),
      defaultGeo.lineEdge Real.sqrt ⟨x, 0, 0⟩ ⟨1, 0, 0⟩ ⟨0, 0, 0⟩ ⟨1, 0, 0⟩ 0 = ok first → 0 ≤ x → x ≤ 10 →
      defaultGeo.linePolygonPosition Real.sqrt ⟨1, 0, 0⟩ ⟨x, 0, 0⟩ unitSquare =
        ok ⟨true, [first].filterMap id ++ [⟨.onEdgeOrigin, 1, 0⟩, ⟨.onEdgeEnd, 3, 1⟩]⟩ := by
    intro x first hf hx0 hx
    have dt : defaultGeo.tolSq < dist2 (⟨x, 0, 0⟩ : V3 ℝ) (V3.add ⟨x, 0, 0⟩ ⟨1, 0, 0⟩) := by
      rw [defaultGeo_tolSq]; norm_num [dist2, V3.add]
    have e1 : defaultGeo.lineEdge Real.sqrt ⟨x, 0, 0⟩ ⟨1, 0, 0⟩ ⟨1, 0, 0⟩ ⟨1, 1, 0⟩ 1 =
        ok (some ⟨.onEdgeOrigin, 1, 0⟩) := by
      obtain ⟨p, hp, hr, _⟩ := lineEdge_cross isSqrt_real defaultGeo h0 hT defaultGeo_tolSq_le_one
        ⟨1, 0, 0⟩ ⟨1, 1, 0⟩ ⟨x, 0, 0⟩ ⟨1, 0, 0⟩ 1 0 (1 - x) (by rw [defaultGeo_tolSq]; norm_num [dist2]) dt
        (by rw [defaultGeo_tolSq]; norm_num [dist2, dot4, V3.add]) (by simp [pointAt, V3.add])
      have := (c29_position defaultGeo 0 h0 hT).2.1.2 (by rw [abs_zero]; exact defaultGeo.tol1D_nonneg h0)
      rw [this] at hp
      cases hp
      exact hr
    have e3 : defaultGeo.lineEdge Real.sqrt ⟨x, 0, 0⟩ ⟨1, 0, 0⟩ ⟨0, 1, 0⟩ ⟨0, 0, 0⟩ 3 =
        ok (some ⟨.onEdgeEnd, 3, 1⟩) := by
      obtain ⟨p, hp, hr, _⟩ := lineEdge_cross isSqrt_real defaultGeo h0 hT defaultGeo_tolSq_le_one
        ⟨0, 1, 0⟩ ⟨0, 0, 0⟩ ⟨x, 0, 0⟩ ⟨1, 0, 0⟩ 3 1 (-x) (by rw [defaultGeo_tolSq]; norm_num [dist2]) dt
        (by rw [defaultGeo_tolSq]; norm_num [dist2, dot4, V3.add]) (by simp [pointAt, V3.add])
      have := (c29_position defaultGeo 1 h0 hT).2.2.2.1.2
        (by rw [sub_self, abs_zero]; exact defaultGeo.tol1D_nonneg h0)
      rw [this] at hp
      cases hp
      exact hr
    have e2 : defaultGeo.lineEdge Real.sqrt ⟨x, 0, 0⟩ ⟨1, 0, 0⟩ ⟨1, 1, 0⟩ ⟨0, 1, 0⟩ 2 = ok none := by
      have ht : (⟨1, 0, 0⟩ : V3 ℝ) = V3.smul (-1) (V3.sub ⟨0, 1, 0⟩ ⟨1, 1, 0⟩) := by
        norm_num [V3.smul, V3.sub]
      have := (lineEdge_away isSqrt_real defaultGeo h0 ⟨1, 1, 0⟩ ⟨0, 1, 0⟩ ⟨x, 0, 0⟩ (-1) 2
        (by rw [defaultGeo_tolSq]; norm_num [dist2]) (by rw [← ht]; exact dt)
        (by
          rw [defaultGeo_tol1D]; norm_num [dist2, V3.sub, V3.cross, V3.dot]; nlinarith)
        (by
          rw [← ht, defaultGeo_tol1D]; norm_num [dist2, V3.sub, V3.cross, V3.dot, V3.add]; nlinarith)).1
      rw [← ht] at this
      exact this
    unfold GeoCfg.linePolygonPosition
    rw [show List.range unitSquare.length = [0, 1, 2, 3] from rfl, foldRes_cons,
      linePolygonStep_eq defaultGeo _ _ unitSquare _ 0 (a := ⟨0, 0, 0⟩) (b := ⟨1, 0, 0⟩) rfl rfl, hf, ok_bind]
    cases first with
    | none =>
      simp only [ok_bind]
      rw [foldRes_cons, linePolygonStep_eq defaultGeo _ _ unitSquare _ 1 (a := ⟨1, 0, 0⟩) (b := ⟨1, 1, 0⟩) rfl rfl,
        e1, ok_bind]
      simp only [ok_bind]
      rw [foldRes_cons, linePolygonStep_eq defaultGeo _ _ unitSquare _ 2 (a := ⟨1, 1, 0⟩) (b := ⟨0, 1, 0⟩) rfl rfl,
        e2, ok_bind]
      simp only [ok_bind]
      rw [foldRes_cons, linePolygonStep_eq defaultGeo _ _ unitSquare _ 3 (a := ⟨0, 1, 0⟩) (b := ⟨0, 0, 0⟩) rfl rfl,
        e3, ok_bind]
      rfl
    | some f =>
      simp only [ok_bind]
      rw [foldRes_cons, linePolygonStep_eq defaultGeo _ _ unitSquare _ 1 (a := ⟨1, 0, 0⟩) (b := ⟨1, 1, 0⟩) rfl rfl,
        e1, ok_bind]
      simp only [ok_bind]
      rw [foldRes_cons, linePolygonStep_eq defaultGeo _ _ unitSquare _ 2 (a := ⟨1, 1, 0⟩) (b := ⟨0, 1, 0⟩) rfl rfl,
        e2, ok_bind]
      simp only [ok_bind]
      rw [foldRes_cons, linePolygonStep_eq defaultGeo _ _ unitSquare _ 3 (a := ⟨0, 1, 0⟩) (b := ⟨0, 0, 0⟩) rfl rfl,
        e3, ok_bind]
      rfl
  have first10 : defaultGeo.lineEdge Real.sqrt ⟨10, 0, 0⟩ ⟨1, 0, 0⟩ ⟨0, 0, 0⟩ ⟨1, 0, 0⟩ 0 = ok none := by
    have p1 : (⟨10, 0, 0⟩ : V3 ℝ) = pointAt ⟨0, 0, 0⟩ ⟨1, 0, 0⟩ 10 := by simp [pointAt]
    have p2 : V3.add (⟨10, 0, 0⟩ : V3 ℝ) ⟨1, 0, 0⟩ = pointAt ⟨0, 0, 0⟩ ⟨1, 0, 0⟩ 11 := by
      norm_num [pointAt, V3.add]
    rw [GeoCfg.lineEdge, p2, p1, segSeg_collinear isSqrt_real defaultGeo h0 _ _ _ _
      (by rw [defaultGeo_tolSq]; norm_num [dist2]) (by rw [defaultGeo_tolSq]; norm_num [dist2]), if_pos]
    · rfl
    · have n2 : ((⟨1, 0, 0⟩ : V3 ℝ).sub ⟨0, 0, 0⟩).norm Real.sqrt = 1 := by
        have : (⟨1, 0, 0⟩ : V3 ℝ).sub ⟨0, 0, 0⟩ = ⟨1, 0, 0⟩ := by norm_num [V3.sub]
        rw [this, norm_axis _ (by norm_num)]
      rw [n2, defaultGeo_tol1D, min_eq_left (by norm_num : (10 : ℝ) ≤ 11)]
      exact lt_of_lt_of_le (by norm_num : (10 : ℝ) / 2 ^ 52 < 1 * (10 - 1))
        (mul_le_mul_of_nonneg_left (le_max_left _ _) zero_le_one)
  have first0 : defaultGeo.lineEdge Real.sqrt ⟨0, 0, 0⟩ ⟨1, 0, 0⟩ ⟨0, 0, 0⟩ ⟨1, 0, 0⟩ 0 =
      ok (some ⟨.parallel, 0, 0⟩) := by
    have p1 : (⟨0, 0, 0⟩ : V3 ℝ) = pointAt ⟨0, 0, 0⟩ ⟨1, 0, 0⟩ 0 := by simp [pointAt]
    have := (lineEdge_on isSqrt_real defaultGeo h0 hT ⟨0, 0, 0⟩ ⟨1, 0, 0⟩ 0 1 0 ⟨1, 0, 0⟩
      (by simp [pointAt, V3.add]) (by rw [defaultGeo_tolSq]; norm_num [dist2])
      (by rw [defaultGeo_tolSq]; norm_num [dist2, pointAt]) (by norm_num) (by norm_num)).1
    rw [← p1] at this
    exact this
  refine ⟨_, _, run 10 _ first10 (by norm_num) le_rfl, run 0 _ first0 le_rfl (by norm_num), ?_, ?_, rfl, rfl⟩
  · intro p
    constructor
    · rintro ⟨q, rfl⟩
      exact ⟨10 + q, by simp⟩
    · rintro ⟨q, rfl⟩
      exact ⟨q - 10, by simp⟩
  · intro s
    exact ⟨s - 10, by simp [pointAt]⟩

end Verif
