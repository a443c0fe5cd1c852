import Verif.CheckRefLemmas
import Verif.DirCutProps
import Verif.LinePosProps

/-
C119: the two sides of a polygon that are met by a line.
-/
namespace Verif

open Res

variable {K : Type} [Field K] [LinearOrder K] [IsStrictOrderedRing K]

/-- The polygon is reported as split before, as too small or as not met by the line. -/
theorem c119_refused (g : GeoCfg K) (sqrt : K → K) (tol2D : K) (m : Mesh K) (c : Nat) (ps : List (V3 K)) (t o : V3 K)
    (quality : List K) (aligned : List Nat) (qw aw area : K) (lengths : List (List K)) (dirs : List Bool) :
    (∀ u, m.updated .d2 c = ok (some u) →
      g.checkRefinement sqrt tol2D m c ps t o quality aligned qw aw area lengths dirs = ok .alreadySplit) ∧
    (m.updated .d2 c = ok none →
      (|1 / 2 * area| ≤ max |tol2D| g.minTolerance →
        g.checkRefinement sqrt tol2D m c ps t o quality aligned qw aw area lengths dirs = ok .underTolerance) ∧
      (max |tol2D| g.minTolerance < |1 / 2 * area| → ∀ r, g.linePolygonPosition sqrt t o ps = ok r →
        (r.hits = [] → g.checkRefinement sqrt tol2D m c ps t o quality aligned qw aw area lengths dirs = ok .notInside) ∧
        (∀ x, r.hits = [x] → g.checkRefinement sqrt tol2D m c ps t o quality aligned qw aw area lengths dirs = throw) ∧
        (∀ x y l, r.hits = x :: y :: l → x.type = .parallel →
          g.checkRefinement sqrt tol2D m c ps t o quality aligned qw aw area lengths dirs = ok .notInside))) := by
  refine ⟨?_, ?_⟩
  · intro u hu
    unfold GeoCfg.checkRefinement
    rw [hu, ok_bind]
    rfl
  intro hu
  refine ⟨?_, ?_⟩
  · intro hz
    unfold GeoCfg.checkRefinement
    rw [hu, ok_bind, if_neg (by simp), if_pos ((GeoCfg.isValueZero_iff ..).2 hz)]
  intro hz r hr
  have hz' : ¬ g.isValueZero (1 / 2 * area) tol2D = true := fun hc =>
    absurd ((GeoCfg.isValueZero_iff ..).1 hc) (not_le.2 hz)
  have h1 := (linePolygon_indices g sqrt t o ps _ r hr).1
  have key : g.checkRefinement sqrt tol2D m c ps t o quality aligned qw aw area lengths dirs =
      g.checkHits m c r quality aligned qw aw lengths dirs := by
    unfold GeoCfg.checkRefinement
    rw [hu, ok_bind, if_neg (by simp), if_neg hz', hr, ok_bind]
  rw [key]
  unfold GeoCfg.checkHits
  refine ⟨?_, ?_, ?_⟩
  · intro he
    rw [if_pos]
    by_contra hc
    exact h1.1 (by simpa using hc) he
  · intro x he
    rw [if_neg (by rw [h1.2 (by rw [he]; simp)]; simp), if_pos (by rw [he]; simp)]
  · intro x y l he hx
    rw [if_neg (by rw [h1.2 (by rw [he]; simp)]; simp), if_neg (by rw [he]; simp), he]
    show (if x.type = .parallel then _ else _) = _
    rw [if_pos hx]

/-- The polygon is to be split: it was not split before, it has an area, the two sides are those of the first intersection of
the line with the polygon and of the first one after it that is not on the first side, they are different sides, and for both
of them it was asked if they are to be split.

Missing for the full statement, that the two intersections are different points: see `c119_different_partial` and
`c119_touch_violated`. -/
theorem c119_split_partial (g : GeoCfg K) (sqrt : K → K) (tol2D : K) (m : Mesh K) (c : Nat) (vs es : List Nat) (ps : List (V3 K))
    (t o : V3 K) (quality : List K) (aligned : List Nat) (qw aw area : K) (lengths : List (List K)) (dirs : List Bool)
    (hw : m.WF) (hb : BoundedBy m c vs es) (hR : RunsAlong m c vs es dirs) (hp : ps.length = vs.length) (k : DirCheck K)
    (hrun : g.checkRefinement sqrt tol2D m c ps t o quality aligned qw aw area lengths dirs = ok (.toBeSplit k)) :
    m.updated .d2 c = ok none ∧ max |tol2D| g.minTolerance < |1 / 2 * area| ∧
    ∃ r one two, g.linePolygonPosition sqrt t o ps = ok r ∧ FirstTwo vs r.hits one two ∧
      one.index < two.index ∧ two.index < vs.length ∧
      k.hitOne = ⟨one.index, one.coord, decide (one.type = .insideEdge)⟩ ∧
      k.hitTwo = ⟨two.index, two.coord, decide (two.type = .insideEdge)⟩ ∧
      es[one.index]? = some k.edgeOne ∧ es[two.index]? = some k.edgeTwo ∧
      g.isEdgeToSplit m k.edgeOne c k.hitOne.inside one.index lengths qw aw quality aligned = ok k.sideOne ∧
      g.isEdgeToSplit m k.edgeTwo c k.hitTwo.inside two.index lengths qw aw quality aligned = ok k.sideTwo := by
  unfold GeoCfg.checkRefinement at hrun
  obtain ⟨u, hu, hr1⟩ := bind_eq_ok.1 hrun
  clear hrun
  split at hr1
  · cases hr1
  rename_i hus
  split at hr1
  · cases hr1
  rename_i hz
  obtain ⟨r, hr, hr2⟩ := bind_eq_ok.1 hr1
  clear hr1
  obtain ⟨i1, i2, i3⟩ := linePolygon_indices g sqrt t o ps _ r hr
  have hu' : u = none := by
    cases u with
    | none => rfl
    | some u => exact absurd rfl hus
  subst hu'
  refine ⟨hu, ?_, ?_⟩
  · by_contra hc
    exact hz ((GeoCfg.isValueZero_iff ..).2 (not_lt.1 hc))
  unfold GeoCfg.checkHits at hr2
  split at hr2
  · cases hr2
  split at hr2
  · cases hr2
  obtain ⟨one, h1, hr3⟩ := bind_eq_ok.1 hr2
  clear hr2
  split at hr3
  · cases hr3
  rename_i htype
  obtain ⟨e1, he1, hr4⟩ := bind_eq_ok.1 hr3
  clear hr3
  obtain ⟨two', htwo, hr5⟩ := bind_eq_ok.1 hr4
  clear hr4
  cases two' with
  | none => cases hr5
  | some two =>
    simp only [] at hr5
    obtain ⟨e2, he2, hr6⟩ := bind_eq_ok.1 hr5
    clear hr5
    obtain ⟨s1, hs1, hr7⟩ := bind_eq_ok.1 hr6
    clear hr6
    obtain ⟨s2, hs2, hr8⟩ := bind_eq_ok.1 hr7
    clear hr7
    cases hr8
    have hhits : r.hits = one :: r.hits.tail := by
      have := vget_eq_ok.1 h1
      cases hc : r.hits with
      | nil => rw [hc] at this; simp at this
      | cons x l => rw [hc] at this; simp at this; rw [this]; rfl
    have hlt : ∀ h ∈ r.hits, h.index < vs.length := fun h hh => hp ▸ i3 h hh
    have hone := hlt one (by rw [hhits]; exact List.mem_cons_self)
    have edge : ∀ {i e}, i < vs.length → m.entry .edge2 c i = ok e → es[i]? = some e := by
      intro i e hi he
      have hi' : i < es.length := by rw [hb.count]; exact hi
      rw [entry_edge hw hb (List.getElem?_eq_getElem hi')] at he
      cases he
      exact List.getElem?_eq_getElem hi'
    have f1 := edge hone he1
    obtain ⟨l, rr, hl, hbet, t2, t3⟩ := (secondHit_spec hw hb hR f1 r.hits.tail
      (fun h hh => hlt h (List.mem_of_mem_tail hh)) two).1 htwo
    rw [hl] at hhits
    have htwo' := hlt two (by rw [hhits]; simp)
    refine ⟨r, one, two, hr, ⟨⟨l, rr, hhits, hbet⟩, htype, t2, t3⟩, ?_, htwo', rfl, rfl, f1, edge htwo' he2, hs1, hs2⟩
    rw [hhits] at i2
    simp only [List.map_cons, List.pairwise_cons] at i2
    exact i2.1 _ (by simp)

/-- Conversely: with a first and a second intersection the polygon is reported as to be split, if the answers for the two
sides are there. -/
theorem c119_found (g : GeoCfg K) (sqrt : K → K) (tol2D : K) (m : Mesh K) (c : Nat) (vs es : List Nat) (ps : List (V3 K))
    (t o : V3 K) (quality : List K) (aligned : List Nat) (qw aw area : K) (lengths : List (List K)) (dirs : List Bool)
    (hw : m.WF) (hb : BoundedBy m c vs es) (hR : RunsAlong m c vs es dirs) (hp : ps.length = vs.length)
    (hu : m.updated .d2 c = ok none) (hz : max |tol2D| g.minTolerance < |1 / 2 * area|) (r : LinePolygonResult K)
    (hr : g.linePolygonPosition sqrt t o ps = ok r) (one two : EdgeHit K) (hF : FirstTwo vs r.hits one two) (e1 e2 : Nat)
    (he1 : es[one.index]? = some e1) (he2 : es[two.index]? = some e2) (s1 s2 : SideCheck)
    (hs1 : g.isEdgeToSplit m e1 c (decide (one.type = .insideEdge)) one.index lengths qw aw quality aligned = ok s1)
    (hs2 : g.isEdgeToSplit m e2 c (decide (two.type = .insideEdge)) two.index lengths qw aw quality aligned = ok s2) :
    g.checkRefinement sqrt tol2D m c ps t o quality aligned qw aw area lengths dirs =
      ok (.toBeSplit ⟨e1, e2, ⟨one.index, one.coord, decide (one.type = .insideEdge)⟩,
        ⟨two.index, two.coord, decide (two.type = .insideEdge)⟩, s1, s2⟩) := by
  obtain ⟨i1, i2, i3⟩ := linePolygon_indices g sqrt t o ps _ r hr
  obtain ⟨⟨l, rr, hhits, hbet⟩, t1, t2, t3⟩ := hF
  have hz' : ¬ g.isValueZero (1 / 2 * area) tol2D = true := fun hc =>
    absurd ((GeoCfg.isValueZero_iff ..).1 hc) (not_le.2 hz)
  have hsecond : m.secondHit c e1 dirs r.hits.tail = ok (some two) := by
    refine (secondHit_spec hw hb hR he1 _ ?_ _).2 ⟨l, rr, by rw [hhits]; rfl, hbet, t2, t3⟩
    intro h hh
    exact hp ▸ i3 h (List.mem_of_mem_tail hh)
  unfold GeoCfg.checkRefinement
  rw [hu, ok_bind, if_neg (by simp), if_neg hz', hr, ok_bind]
  unfold GeoCfg.checkHits
  rw [if_neg (by rw [i1.2 (by rw [hhits]; simp)]; simp), if_neg (by rw [hhits]; simp),
    vget_eq_ok.2 (by rw [hhits]; rfl), ok_bind, if_neg t1, entry_edge hw hb he1, ok_bind, hsecond, ok_bind]
  simp only []
  rw [entry_edge hw hb he2, ok_bind, hs1, ok_bind, hs2, ok_bind]
  rfl

/-- After intersections that are all ends of the first side: a side on the line makes the polygon one that is not met, and if
there is nothing more the answer is an exception. -/
theorem c119_along (g : GeoCfg K) (sqrt : K → K) (tol2D : K) (m : Mesh K) (c : Nat) (vs es : List Nat) (ps : List (V3 K))
    (t o : V3 K) (quality : List K) (aligned : List Nat) (qw aw area : K) (lengths : List (List K)) (dirs : List Bool)
    (hw : m.WF) (hb : BoundedBy m c vs es) (hR : RunsAlong m c vs es dirs) (hp : ps.length = vs.length)
    (hu : m.updated .d2 c = ok none) (hz : max |tol2D| g.minTolerance < |1 / 2 * area|) (r : LinePolygonResult K)
    (hr : g.linePolygonPosition sqrt t o ps = ok r) (one : EdgeHit K) (h1 : one.type ≠ .parallel) (l l' : List (EdgeHit K))
    (hh : r.hits = one :: (l ++ l'))
    (hl : ∀ x ∈ l, (x.type = .onEdgeOrigin ∨ x.type = .onEdgeEnd) ∧ TouchesSide vs one.index x.index) :
    (∀ x l'', l' = x :: l'' → x.type = .parallel →
      g.checkRefinement sqrt tol2D m c ps t o quality aligned qw aw area lengths dirs = ok .notInside) ∧
    (l' = [] → g.checkRefinement sqrt tol2D m c ps t o quality aligned qw aw area lengths dirs = throw) := by
  obtain ⟨i1, i2, i3⟩ := linePolygon_indices g sqrt t o ps _ r hr
  have hz' : ¬ g.isValueZero (1 / 2 * area) tol2D = true := fun hc =>
    absurd ((GeoCfg.isValueZero_iff ..).1 hc) (not_le.2 hz)
  have hone : one.index < es.length := by
    rw [hb.count]
    exact hp ▸ i3 one (by rw [hh]; simp)
  have he1 : es[one.index]? = some es[one.index] := List.getElem?_eq_getElem hone
  have hskip : m.secondHit c es[one.index] dirs r.hits.tail = m.secondHit c es[one.index] dirs l' := by
    rw [hh]
    exact secondHit_skip hw hb hR he1 l' l (fun x hx => hp ▸ i3 x (by rw [hh]; simp [hx])) hl
  have key : ¬ r.hits.length < 2 → g.checkRefinement sqrt tol2D m c ps t o quality aligned qw aw area lengths dirs =
      (m.secondHit c es[one.index] dirs l' >>= fun two => match two with
        | none => ok .notInside
        | some h2 => do
          let e2 ← m.entry .edge2 c h2.index
          let s1 ← g.isEdgeToSplit m es[one.index] c (decide (one.type = .insideEdge)) one.index lengths qw aw quality aligned
          let s2 ← g.isEdgeToSplit m e2 c (decide (h2.type = .insideEdge)) h2.index lengths qw aw quality aligned
          ok (.toBeSplit ⟨es[one.index], e2, one.toDirHit, h2.toDirHit, s1, s2⟩)) := by
    intro hlen
    unfold GeoCfg.checkRefinement
    rw [hu, ok_bind, if_neg (by simp), if_neg hz', hr, ok_bind]
    unfold GeoCfg.checkHits
    rw [if_neg (by rw [i1.2 (by rw [hh]; simp)]; simp), if_neg hlen, vget_eq_ok.2 (by rw [hh]; rfl), ok_bind, if_neg h1,
      entry_edge hw hb he1, ok_bind, hskip]
    rfl
  refine ⟨?_, ?_⟩
  · rintro x l'' rfl hx
    rw [key (by rw [hh]; simp)]
    rw [Mesh.secondHit, hx]
    rfl
  · rintro rfl
    by_cases hlen : r.hits.length < 2
    · unfold GeoCfg.checkRefinement
      rw [hu, ok_bind, if_neg (by simp), if_neg hz', hr, ok_bind]
      unfold GeoCfg.checkHits
      rw [if_neg (by rw [i1.2 (by rw [hh]; simp)]; simp), if_pos hlen]
    · rw [key hlen]
      rfl

/-- The answer is what the refinement by the direction needs (C118), and a side whose intersection is a vertex is not to be
split. -/
theorem c119_input (g : GeoCfg K) (sqrt : K → K) (tol2D : K) (m : Mesh K) (c : Nat) (vs es : List Nat) (ps : List (V3 K))
    (t o : V3 K) (quality : List K) (aligned : List Nat) (qw aw area : K) (lengths : List (List K)) (dirs : List Bool)
    (hw : m.WF) (hb : BoundedBy m c vs es) (hR : RunsAlong m c vs es dirs) (hp : ps.length = vs.length) (hn : es.Nodup)
    (hends : ∀ e ∈ es, ∃ a b, m.extremes e = ok (a, b) ∧ a < m.num .d0 ∧ b < m.num .d0) (k : DirCheck K)
    (hrun : g.checkRefinement sqrt tol2D m c ps t o quality aligned qw aw area lengths dirs = ok (.toBeSplit k)) :
    DirInput m c vs es ps k ∧
      (k.hitOne.inside = false → k.sideOne.verdict = .notInside ∧ k.sideOne.isToSplit = false) ∧
      (k.hitTwo.inside = false → k.sideTwo.verdict = .notInside ∧ k.sideTwo.isToSplit = false) := by
  obtain ⟨-, -, r, one, two, -, -, hlt, -, k1, k2, e1, e2, s1, s2⟩ := c119_split_partial g sqrt tol2D m c vs es ps t o quality
    aligned qw aw area lengths dirs hw hb hR hp k hrun
  refine ⟨⟨hw, hb, hp, hn, hends, ?_, ?_, ?_⟩, ?_, ?_⟩
  · rw [k1]; exact e1
  · rw [k2]; exact e2
  · rw [k1, k2]; exact Nat.ne_of_lt hlt
  · intro hi
    rw [hi, c116_not_inside] at s1
    injection s1 with s1
    rw [← s1]
    exact ⟨rfl, rfl⟩
  · intro hi
    rw [hi, c116_not_inside] at s2
    injection s2 with s2
    rw [← s2]
    exact ⟨rfl, rfl⟩

/-- Where the position of the line is right (C109), both intersections are points of the line, and they are different points
unless both are the first vertex of the polygon.

Missing for the full statement: the case that both are the first vertex; see `c119_touch_violated`. -/
theorem c119_different_partial (g : GeoCfg K) (sqrt : K → K) (tol2D : K) (m : Mesh K) (c : Nat) (vs es : List Nat)
    (ps : List (V3 K)) (t o : V3 K) (quality : List K) (aligned : List Nat) (qw aw area : K) (lengths : List (List K))
    (dirs : List Bool) (hw : m.WF) (hb : BoundedBy m c vs es) (hR : RunsAlong m c vs es dirs) (hp : ps.length = vs.length)
    (hline : ∀ r, g.linePolygonPosition sqrt t o ps = ok r → LinePolygonOk o t ps r) (k : DirCheck K)
    (hrun : g.checkRefinement sqrt tol2D m c ps t o quality aligned qw aw area lengths dirs = ok (.toBeSplit k)) :
    ∃ p q, IsHitPoint ps k.hitOne p ∧ IsHitPoint ps k.hitTwo q ∧ OnDirLine o t p ∧ OnDirLine o t q ∧
      (k.hitOne.inside = true ↔ 0 < k.hitOne.coordinate ∧ k.hitOne.coordinate < 1) ∧
      (k.hitTwo.inside = true ↔ 0 < k.hitTwo.coordinate ∧ k.hitTwo.coordinate < 1) ∧
      (SidesMeetInCorners ps → ps[0]? ≠ some p → p ≠ q) := by
  obtain ⟨-, -, r, one, two, hr, ⟨⟨l, rr, hhits, -⟩, t1, t2, t3⟩, hlt, hlen, k1, k2, -, -, -, -⟩ :=
    c119_split_partial g sqrt tol2D m c vs es ps t o quality aligned qw aw area lengths dirs hw hb hR hp k hrun
  obtain ⟨entries, hel, hent, hhe, -⟩ := hline r hr
  have key : ∀ h ∈ r.hits, h.type ≠ .parallel → h.index < ps.length → ∃ a b, ps[h.index]? = some a ∧
      ps[(h.index + 1) % ps.length]? = some b ∧ OnDirLine o t (pointAt a b h.coord) ∧ 0 ≤ h.coord ∧ h.coord ≤ 1 ∧
      (h.type = .onEdgeOrigin ↔ h.coord = 0) ∧ (h.type = .onEdgeEnd ↔ h.coord = 1) := by
    intro h hh ht hi
    rw [hhe] at hh
    obtain ⟨x, hx, hxe⟩ := List.mem_filterMap.1 hh
    cases hxe
    obtain ⟨e, he, hge⟩ := List.mem_iff_getElem.1 hx
    have hxe : entries[e]? = some (some h) := by rw [List.getElem?_eq_getElem he, hge]
    have hep : e < ps.length := hel ▸ he
    have ea := List.getElem?_eq_getElem hep
    have eb := List.getElem?_eq_getElem (l := ps) (Nat.mod_lt (e + 1) (by omega : 0 < ps.length))
    obtain ⟨hidx, hE⟩ := hent e _ _ _ ea eb hxe
    rw [if_neg ht] at hE
    obtain ⟨c0, c1, hon, ho, he'⟩ := hE
    subst hidx
    exact ⟨_, _, ea, eb, (hon _).2 rfl, c0, c1, ho, he'⟩
  have inside : ∀ {h : EdgeHit K}, h.type ≠ .parallel → 0 ≤ h.coord → h.coord ≤ 1 → (h.type = .onEdgeOrigin ↔ h.coord = 0) →
      (h.type = .onEdgeEnd ↔ h.coord = 1) → (decide (h.type = .insideEdge) = true ↔ 0 < h.coord ∧ h.coord < 1) := by
    intro h h1 h2 h3 h4 h5
    rw [decide_eq_true_iff]
    constructor
    · intro h6
      exact ⟨lt_of_le_of_ne h2 (fun hc => by rw [h4.2 hc.symm] at h6; cases h6),
        lt_of_le_of_ne h3 (fun hc => by rw [h5.2 hc] at h6; cases h6)⟩
    · rintro ⟨h6, h7⟩
      cases ht : h.type with
      | parallel => exact absurd ht h1
      | insideEdge => rfl
      | onEdgeOrigin => exact absurd (h4.1 ht) (ne_of_gt h6)
      | onEdgeEnd => exact absurd (h5.1 ht) (ne_of_lt h7)
  obtain ⟨a, b, ha, hb', hon, c0, c1, ho, he⟩ := key one (by rw [hhits]; simp) t1 (by omega)
  obtain ⟨a', b', ha', hb'', hon', c0', c1', ho', he'⟩ := key two (by rw [hhits]; simp) t2 (by omega)
  refine ⟨_, _, ⟨a, b, by rw [k1]; exact ha, by rw [k1]; exact hb', by rw [k1]⟩,
    ⟨a', b', by rw [k2]; exact ha', by rw [k2]; exact hb'', by rw [k2]⟩, hon, hon', by rw [k1]; exact inside t1 c0 c1 ho he,
    by rw [k2]; exact inside t2 c0' c1' ho' he', ?_⟩
  intro hS hfirst heq
  rcases hS _ _ _ _ _ _ _ _ (Nat.ne_of_lt hlt) ha hb' ha' hb'' c0 c1 c0' c1' heq with ⟨-, h0, hi⟩ | ⟨h0, -, hi⟩
  · have htt := ho'.2 h0
    refine t3 (by rw [htt]; simp) ?_
    rw [hp] at hi
    have ev := List.getElem?_eq_getElem hlen
    exact ⟨_, ev, Or.inr (by rw [hi]; exact ev)⟩
  · rcases Nat.lt_or_ge (two.index + 1) ps.length with h | h
    · rw [Nat.mod_eq_of_lt h] at hi
      omega
    · have : two.index + 1 = ps.length := by omega
      rw [this, Nat.mod_self] at hi
      refine hfirst ?_
      rw [← hi] at ha
      rw [ha, h0]
      simp [pointAt]

/-- What is seen of an answer. -/
def checkView (x : Res (CheckOutcome ℚ)) : Res (List Nat × List ℚ × List Bool) :=
  match x with
  | ok (.toBeSplit k) => ok ([k.hitOne.index, k.hitTwo.index], [k.hitOne.coordinate, k.hitTwo.coordinate],
      [k.sideOne.isToSplit, k.sideTwo.isToSplit])
  | ok _ => ok ([], [], [])
  | abort => abort
  | Res.throw => Res.throw
  | ub => ub
  | loop => loop

/-- The square with the line through `o` with the direction `t`. -/
def checkSquare (t o : V3 ℚ) : Res (CheckOutcome ℚ) :=
  chordGeo.checkRefinement ratRoot (1 / 1000000) dirBase 0 dirPoints t o [1] [0, 1, 2, 3] 1 1 16 [[4, 4, 4, 4]]
    [true, true, false, true]

/-- A line through the middles of two sides, a line through a vertex and a point of a side, a line beside the square and one
along a side. -/
example : checkView (checkSquare ⟨0, 1, 0⟩ ⟨2, 0, 0⟩) = ok ([0, 2], [1 / 2, 1 / 2], [true, true]) := by decide +kernel

example : checkView (checkSquare ⟨3, 4, 0⟩ ⟨0, 0, 0⟩) = ok ([0, 2], [0, 1 / 4], [false, true]) := by decide +kernel

example : checkView (checkSquare ⟨0, 1, 0⟩ ⟨5, 0, 0⟩) = ok ([], [], []) := by decide +kernel

example : checkView (checkSquare ⟨1, 0, 0⟩ ⟨0, 4, 0⟩) = ok ([], [], []) := by decide +kernel

/-- The intersections. -/
def hitsView (x : Res (LinePolygonResult ℚ)) : List (EdgeHit ℚ) :=
  match x with
  | ok r => r.hits
  | _ => []

/-- Along the side 2: the first intersection is the end of the side 1, the second one is the side on the line. At the vertex 2:
the two intersections are the ends of sides next to each other. -/
example : hitsView (chordGeo.linePolygonPosition ratRoot ⟨1, 0, 0⟩ ⟨0, 4, 0⟩ dirPoints) =
      [⟨.onEdgeEnd, 1, 1⟩, ⟨.parallel, 2, 0⟩, ⟨.onEdgeOrigin, 3, 0⟩] ∧
    hitsView (chordGeo.linePolygonPosition ratRoot ⟨3, -4, 0⟩ ⟨4, 4, 0⟩ dirPoints) =
      [⟨.onEdgeEnd, 1, 1⟩, ⟨.onEdgeOrigin, 2, 0⟩] ∧ TouchesSide [0, 1, 2, 3] 1 2 ∧
    (match checkSquare ⟨1, 0, 0⟩ ⟨0, 4, 0⟩ with | ok .notInside => true | _ => false) = true :=
  ⟨by decide +kernel, by decide +kernel, ⟨2, rfl, .inr rfl⟩, by decide +kernel⟩

/-- The square is a polygon as in the theorems. -/
example : dirBase.WF ∧ BoundedBy dirBase 0 [0, 1, 2, 3] [0, 1, 2, 3] ∧ dirPoints.length = 4 ∧
    dirBase.updated .d2 0 = ok none ∧ max |(1 / 1000000 : ℚ)| chordGeo.minTolerance < |1 / 2 * 16| :=
  ⟨(dirBase_input sideYes sideYes).wf, (dirBase_input sideYes sideYes).bounded, rfl, by decide +kernel, by decide +kernel⟩

/-- Its sides have only corners in common. -/
example : SidesMeetInCorners dirPoints := by
  intro i j a b a' b' s t hij ha hb ha' hb' hs hs' ht ht' he
  have hi : i < 4 := (List.getElem?_eq_some_iff.1 ha).1
  have hj : j < 4 := (List.getElem?_eq_some_iff.1 ha').1
  obtain rfl | rfl | rfl | rfl : i = 0 ∨ i = 1 ∨ i = 2 ∨ i = 3 := by omega
  all_goals
    obtain rfl | rfl | rfl | rfl : j = 0 ∨ j = 1 ∨ j = 2 ∨ j = 3 := by omega
    all_goals first
      | exact absurd rfl hij
      | (cases ha; cases hb; cases ha'; cases hb'
         simp only [pointAt, V3.mk.injEq] at he
         obtain ⟨h1, h2, -⟩ := he
         first
           | (left; exact ⟨by linarith, by linarith, rfl⟩)
           | (right; exact ⟨by linarith, by linarith, rfl⟩)
           | (exfalso; linarith))

/-- A line that has only a vertex in common with the square is not reported as outside: for the vertex 0 the square is to be
split, although both intersections are that vertex; for the vertex 2 the answer is an exception. -/
theorem c119_touch_violated :
    (∀ x y, 0 ≤ x → x ≤ 4 → 0 ≤ y → y ≤ 4 → (OnDirLine ⟨0, 0, 0⟩ ⟨3, -4, 0⟩ (⟨x, y, 0⟩ : V3 ℚ) ↔ x = 0 ∧ y = 0)) ∧
    (∀ x y, 0 ≤ x → x ≤ 4 → 0 ≤ y → y ≤ 4 → (OnDirLine ⟨4, 4, 0⟩ ⟨3, -4, 0⟩ (⟨x, y, 0⟩ : V3 ℚ) ↔ x = 4 ∧ y = 4)) ∧
    checkView (checkSquare ⟨3, -4, 0⟩ ⟨0, 0, 0⟩) = ok ([0, 3], [0, 1], [false, false]) ∧
    pointAt (⟨0, 0, 0⟩ : V3 ℚ) ⟨4, 0, 0⟩ 0 = pointAt (⟨0, 4, 0⟩ : V3 ℚ) ⟨0, 0, 0⟩ 1 ∧
    checkSquare ⟨3, -4, 0⟩ ⟨4, 4, 0⟩ = throw := by
  refine ⟨?_, ?_, by decide +kernel, by decide +kernel, ?_⟩
  · intro x y hx hx' hy hy'
    constructor
    · rintro ⟨q, hq⟩
      simp only [V3.mk.injEq] at hq
      exact ⟨by linarith [hq.1, hq.2.1], by linarith [hq.1, hq.2.1]⟩
    · rintro ⟨rfl, rfl⟩
      exact ⟨0, by simp⟩
  · intro x y hx hx' hy hy'
    constructor
    · rintro ⟨q, hq⟩
      simp only [V3.mk.injEq] at hq
      exact ⟨by linarith [hq.1, hq.2.1], by linarith [hq.1, hq.2.1]⟩
    · rintro ⟨rfl, rfl⟩
      exact ⟨0, by simp⟩
  · have h : checkView (checkSquare ⟨3, -4, 0⟩ ⟨4, 4, 0⟩) = Res.throw := by decide +kernel
    revert h
    cases checkSquare ⟨3, -4, 0⟩ ⟨4, 4, 0⟩ with
    | ok k => cases k <;> (intro h; cases h)
    | throw => intro _; rfl
    | _ => intro h; cases h

end Verif
