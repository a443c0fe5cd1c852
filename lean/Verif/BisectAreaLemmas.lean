import Verif.BisectRunLemmas
import Verif.EarProps
import Verif.ExtractLemmas

/-
Helper lemmas: the checks of a bisection.
-/
namespace Verif

open Res

variable {K : Type} [Field K] [LinearOrder K] [IsStrictOrderedRing K]

theorem mapRes_three {β γ : Type} {f : β → Res γ} {a b c : β} {x y z : γ} (ha : f a = ok x)
    (hb : f b = ok y) (hc : f c = ok z) : mapRes f [a, b, c] = ok [x, y, z] := by
  simp [mapRes, ha, hb, hc]

theorem unaligned_three (g : GeoCfg K) (sqrt : K → K) {p q r : V3 K} (h : g.Corners sqrt p q r) :
    g.unalignedPoints sqrt [p, q, r] 0 = ok [0, 1, 2] := by
  obtain ⟨h1, h2, h3⟩ := h
  unfold GeoCfg.unalignedPoints
  rw [assert_true (by simp), ok_bind, if_neg (by simp)]
  show g.unalignedLoop sqrt [p, q, r] 0 [0, 1, 2] [] = _
  simp [GeoCfg.unalignedLoop, vget, h1, h2, h3]

theorem fan_three (g : GeoCfg K) (sqrt : K → K) {p q r : V3 K} (h : g.Corners sqrt p q r) :
    g.triangulationByFirstVertex sqrt [p, q, r] = ok [0, 1, 2] := by
  obtain ⟨h1, h2, h3⟩ := h
  unfold GeoCfg.triangulationByFirstVertex
  rw [assert_true (by simp), ok_bind]
  show (do let l ← g.fanLoop sqrt [p, q, r] [0, 1, 2] []; _) = _
  simp [GeoCfg.fanLoop, vget, h2, assert_true]

theorem polygonArea_three (g : GeoCfg K) (h0 : 0 ≤ g.tolerance1D) {p q r : V3 K} (hp : p.z = 0)
    (hq : q.z = 0) (hr : r.z = 0) : g.polygonArea [p, q, r] = ok (1 / 2 * area2 p q r) := by
  unfold GeoCfg.polygonArea GeoCfg.pointsAre2D
  rw [assert_true (by simp), ok_bind, ok_bind,
    assert_true (by simp [hp, hq, hr, h0]), ok_bind]
  simp [vget, dotL, area2]
  ring

theorem isAreaPositive_three (g : GeoCfg K) (sqrt : K → K) (tol2D : K) (h0 : 0 ≤ g.tolerance1D)
    {m : Mesh K} {a b c : Nat} {rotation : M3 K} {translation : V3 K} {p q r : V3 K}
    (ha : m.point a = ok p) (hb : m.point b = ok q) (hc : m.point c = ok r)
    (hn : g.Corners sqrt (rotateTo2D rotation translation p) (rotateTo2D rotation translation q)
      (rotateTo2D rotation translation r)) :
    g.isAreaPositive sqrt tol2D m [a, b, c] rotation translation =
      ok (!g.isValueZero (1 / 2 * area2 (rotateTo2D rotation translation p)
        (rotateTo2D rotation translation q) (rotateTo2D rotation translation r)) tol2D) := by
  unfold GeoCfg.isAreaPositive
  rw [mapRes_three ha hb hc, ok_bind, assert_true (by simp), ok_bind]
  show (do
    let un ← g.unalignedPoints sqrt [rotateTo2D rotation translation p,
      rotateTo2D rotation translation q, rotateTo2D rotation translation r] 0
    let us ← extractPoints [rotateTo2D rotation translation p,
      rotateTo2D rotation translation q, rotateTo2D rotation translation r] un
    let t ← g.triangulationByFirstVertex sqrt us
    let ts ← extractTriangulationPoints us t
    let areas ← mapRes (fun t : V3 K × V3 K × V3 K => g.polygonArea [t.1, t.2.1, t.2.2]) ts
    ok (!g.isValueZero areas.sum tol2D)) = _
  rw [unaligned_three g sqrt hn, ok_bind]
  have he : extractPoints [rotateTo2D rotation translation p,
      rotateTo2D rotation translation q, rotateTo2D rotation translation r] [0, 1, 2] =
      ok [rotateTo2D rotation translation p,
      rotateTo2D rotation translation q, rotateTo2D rotation translation r] := rfl
  rw [he, ok_bind, fan_three g sqrt hn, ok_bind]
  have ht : extractTriangulationPoints [rotateTo2D rotation translation p,
      rotateTo2D rotation translation q, rotateTo2D rotation translation r] [0, 1, 2] =
      ok [(rotateTo2D rotation translation p,
      rotateTo2D rotation translation q, rotateTo2D rotation translation r)] := rfl
  rw [ht, ok_bind]
  simp only [mapRes]
  rw [polygonArea_three g h0 rfl rfl rfl]
  simp only [ok_bind, List.sum_cons, List.sum_nil, add_zero]

/-- A waiting triangle whose halves are triangles within the tolerances is split. -/
theorem Pending.split_ok (G : GeoCfg K) (sqrt : K → K) (tol2D : K) (h0 : 0 ≤ G.tolerance1D)
    {m : Mesh K} {E h0' h1' w a b t i x y o : Nat} {P : Nat → Prop} {dir : Bool} {rotation : M3 K}
    {translation : V3 K} {vs : List Nat} {p q r : V3 K}
    (h : Pending m E h0' h1' w a b P) (hP : P t) (side : SideAt m t i E dir)
    (hv : m.row .vert2 t = ok vs) (vx : vs[i]? = some x) (vy : vs[(i + 1) % 3]? = some y)
    (vo : vs[(i + 2) % 3]? = some o) (hp : m.point x = ok p) (hq : m.point y = ok q)
    (hr : m.point o = ok r) (hw : m.point w = ok (middle p q))
    (hh : G.Halvable sqrt tol2D rotation translation p q r) :
    ∃ m', G.splitNewVertexTo sqrt tol2D m t 3 ((i + 2) % 3) i rotation translation w [h0', h1'] dir
      = ok (m', some (m.num .d1, [m.num .d2, m.num .d2 + 1])) := by
  obtain ⟨hta, -, -⟩ := h.pend t hP
  obtain ⟨-, ⟨vs', es, tri⟩, -⟩ := h.triangles t hta
  have hi := (side.at tri.vertices tri.edges).1
  have hvs : vs' = vs := (Res.ok.inj (hv.symm.trans tri.vertices)).symm
  subst hvs
  obtain ⟨x', y', o', e, f, g, vx', vy', vo', ee, ef, eg⟩ := tri.at hi
  obtain ⟨⟨c1, z1⟩, ⟨c2, z2⟩, z3⟩ := hh
  obtain ⟨m', -, heq⟩ := splitNewVertexTo_eq G sqrt tol2D (dir := dir) h.wf rotation translation tri hi vx vy vo
    ee ef eg h.wlt (lt_of_active h.active0) (lt_of_active h.active1)
    (h.edge_lt hta tri ef (by omega)) (h.edge_lt hta tri eg (by omega))
  refine ⟨m', ?_⟩
  rw [heq, isAreaPositive_three G sqrt tol2D h0 hr hp hw c1, ok_bind, z1]
  simp only [Bool.not_false, Bool.not_true, Bool.false_eq_true, if_false]
  rw [isAreaPositive_three G sqrt tol2D h0 hw hq hr c2, ok_bind, z2]
  simp only [Bool.not_false, Bool.not_true, Bool.false_eq_true, if_false]
  rw [hw, ok_bind, hr, ok_bind, z3]
  rfl

theorem point_congr {m m' : Mesh K} {v : Nat} (h : m'.coordinates v = m.coordinates v) :
    m'.point v = m.point v := by
  unfold Mesh.point
  rw [h]

theorem smul_add_middle (p q : V3 K) : V3.smul (1 / 2) (p.add q) = middle p q := by
  ext <;> simp only [V3.smul, V3.add, middle] <;> ring

theorem middle_comm (p q : V3 K) : middle p q = middle q p := by
  ext <;> simp only [middle] <;> ring

theorem bisectByEdge_ok (G : GeoCfg K) (sqrt : K → K) (tol2D : K) (h0 : 0 ≤ G.tolerance1D) {m : Mesh K}
    {t i e x y o : Nat} {directions : List Bool} {area len : K} {rotation : M3 K} {translation : V3 K}
    {lengths : List K} {dir : Bool} {vs : List Nat} {p q r : V3 K} (hc : Conforming m)
    (small : m.num .d2 + 2 ≤ UINT_MAX)
    (ht : m.active .d2 t = ok true) (side : SideAt m t i e dir) (hdir : directions[i]? = some dir)
    (hlen : lengths[i]? = some len) (z1 : G.isValueZero (1 / 2 * area) tol2D = false)
    (z2 : G.isValueZero (1 / 2 * len) G.tol1D = false)
    (hv : m.row .vert2 t = ok vs) (vx : vs[i]? = some x) (vy : vs[(i + 1) % 3]? = some y)
    (vo : vs[(i + 2) % 3]? = some o) (hp : m.point x = ok p) (hq : m.point y = ok q)
    (hr : m.point o = ok r) (hh : G.Halvable sqrt tol2D rotation translation p q r) :
    ∃ m1, G.bisectByEdge sqrt tol2D m t i ((i + 2) % 3) directions area rotation translation lengths
      = ok (m1, .successful (m.num .d0) [m.num .d1, m.num .d1 + 1] (m.num .d1 + 2)
          [m.num .d2, m.num .d2 + 1]) := by
  obtain ⟨hu, ⟨vs', es, tri⟩, hsd⟩ := hc.triangles t ht
  have hvs : vs' = vs := (Res.ok.inj (hv.symm.trans tri.vertices)).symm
  subst hvs
  obtain ⟨hi, hee, x', y', vx', vy', hext⟩ := side.at tri.vertices tri.edges
  rw [vx] at vx'; rw [vy] at vy'; cases vx'; cases vy'
  obtain ⟨e', d', s', ea, sl⟩ := hsd i hi
  have he' : e' = e := by
    obtain ⟨-, q, -⟩ := s'.at tri.vertices tri.edges
    rw [hee] at q; cases q; rfl
  subst he'
  obtain ⟨-, hd⟩ := SideAt.unique tri s' side
  subst hd
  have xy : x ≠ y := ne_of_nodup tri.nodup vx vy (by omega)
  obtain ⟨⟨a, b, hab, hal, hbl⟩, -⟩ := hc.edges e' ea
  have hab' := Res.ok.inj (hab.symm.trans hext)
  have ab : a ≠ b := by
    intro q
    cases d' <;> simp only [Bool.false_eq_true, if_false, if_true, Prod.mk.injEq] at hab'
    · exact xy (by rw [← hab'.1, ← hab'.2, q])
    · exact xy (by rw [← hab'.1, ← hab'.2, q])
  have hmid : ∃ pa pb, m.point a = ok pa ∧ m.point b = ok pb ∧ middle pa pb = middle p q := by
    cases d' <;> simp only [Bool.false_eq_true, if_false, if_true, Prod.mk.injEq] at hab'
    · obtain ⟨rfl, rfl⟩ := hab'
      exact ⟨q, p, hq, hp, middle_comm _ _⟩
    · obtain ⟨rfl, rfl⟩ := hab'
      exact ⟨p, q, hp, hq, rfl⟩
  obtain ⟨pa, pb, hpa, hpb, hm⟩ := hmid
  obtain ⟨mE, hrE, hES, hpt⟩ := splitEdgeAt_spec hc.wf hab hal hbl (V3.smul (1 / 2) (pa.add pb))
  rw [smul_add_middle, hm] at hpt
  have hpend := Pending.of_edgeSplit hc ea hab (by omega) ab hES
  have ht2 := lt_of_active ht
  have sideE : SideAt mE t i e' d' :=
    (SideAt.congr (hES.vertices t ht2) (hES.edges t ht2) (hES.extremes e' (lt_of_active ea))).2 side
  have hlt : ∀ {k v}, vs'[k]? = some v → v < m.num .d0 := fun hk =>
    tri.lt _ (List.mem_of_getElem? hk)
  obtain ⟨m1, hsp⟩ := hpend.split_ok G sqrt tol2D h0 (rotation := rotation) (translation := translation)
    ⟨ht, d', sl⟩ sideE ((hES.vertices t ht2).trans hv) vx vy vo
    ((point_congr (hES.coordinates x (hlt vx))).trans hp)
    ((point_congr (hES.coordinates y (hlt vy))).trans hq)
    ((point_congr (hES.coordinates o (hlt vo))).trans hr) hpt hh
  refine ⟨m1, ?_⟩
  unfold GeoCfg.bisectByEdge
  rw [hu, ok_bind]
  simp only [Option.isSome_none, Bool.false_eq_true, if_false, z1]
  rw [vget_eq_ok.2 hlen, ok_bind, z2]
  simp only [Bool.false_eq_true, if_false]
  rw [entry_of_row hc.wf tri.edges hee, ok_bind, vget_eq_ok.2 hdir, ok_bind]
  have hsm : m.splitEdgeMiddle e' = ok (mE, m.num .d0, [m.num .d1, m.num .d1 + 1]) := by
    unfold Mesh.splitEdgeMiddle
    rw [hab, ok_bind]
    dsimp only
    rw [hpa, ok_bind, hpb, ok_bind, hrE]
  rw [hsm, ok_bind]
  dsimp only
  rw [hsp, ok_bind]
  dsimp only
  rw [hES.num1, hES.num2]

theorem bisectNeighbours_ok (G : GeoCfg K) (sqrt : K → K) (tol2D : K) (h0 : 0 ≤ G.tolerance1D)
    {m1 : Mesh K} {t e h0' h1' w a b u : Nat} {dir : Bool} {P : Nat → Prop}
    (h : Pending m1 e h0' h1' w a b P)
    (small : m1.num .d2 + 2 ≤ UINT_MAX) (ht : t < m1.num .d2)
    (sl : SlotIs m1 e dir t) (sl' : SlotIs m1 e (!dir) u) (hu : u ≠ UINT_MAX → u ≠ t → P u)
    (hum : u = UINT_MAX ∨ u < m1.num .d2)
    (hh : u ≠ UINT_MAX → u ≠ t → ∀ j vs x y o, SideAt m1 u j e (!dir) → m1.row .vert2 u = ok vs →
      vs[j]? = some x → vs[(j + 1) % 3]? = some y → vs[(j + 2) % 3]? = some o →
      ∃ p q r, m1.point x = ok p ∧ m1.point y = ok q ∧ m1.point o = ok r ∧
        m1.point w = ok (middle p q) ∧ G.Halvable sqrt tol2D M3.one V3.zero p q r) :
    ∃ m2 out, G.bisectNeighbours sqrt tol2D m1 t e w [h0', h1'] dir [] [] = ok (m2, out) ∧
      (u ≠ UINT_MAX → u ≠ t → out ≠ []) := by
  have own : ∀ {m : Mesh K} {out : List (Nat × Nat)} {n : Nat} {r : List Nat}, m.WF → t < m.num .d2 →
      m.row .nb12 e = ok r → r[n]? = some t →
      G.bisectNeighbour sqrt tol2D t e w [h0', h1'] dir [] [] (m, out) n = ok (m, out) := by
    intro m out n r hwf ht hr hn
    unfold GeoCfg.bisectNeighbour
    dsimp only
    rw [hasEntry_of_row hwf hr hn, ok_bind]
    rw [show decide (t < m.num (Lst.target .nb12)) = true from decide_eq_true ht]
    simp only [Bool.not_true, Bool.false_eq_true, if_false]
    rw [entry_of_row hwf hr hn, ok_bind, if_pos rfl]
  have other : ∀ {n : Nat} {r : List Nat}, m1.row .nb12 e = ok r → r[n]? = some u →
      ∃ s, G.bisectNeighbour sqrt tol2D t e w [h0', h1'] dir [] [] (m1, []) n = ok s ∧
        (u ≠ UINT_MAX → u ≠ t → s.2 ≠ []) ∧
        s.1.WF ∧ t < s.1.num .d2 ∧ ∀ r' l, m1.row .nb12 e = ok [r', l] →
          (∃ r'' l', s.1.row .nb12 e = ok [r'', l'] ∧ (r' = t → r'' = t) ∧ (l = t → l' = t)) := by
    intro n r hr hn
    unfold GeoCfg.bisectNeighbour
    dsimp only
    rw [hasEntry_of_row h.wf hr hn, ok_bind]
    by_cases c1 : u < m1.num .d2
    · rw [show decide (u < m1.num (Lst.target .nb12)) = true from decide_eq_true c1]
      simp only [Bool.not_true, Bool.false_eq_true, if_false]
      rw [entry_of_row h.wf hr hn, ok_bind]
      by_cases c2 : u = t
      · rw [if_pos c2]
        exact ⟨_, rfl, fun _ q => absurd c2 q, h.wf, ht, fun r' l q => ⟨r', l, q, id, id⟩⟩
      · rw [if_neg c2]
        have hum : u ≠ UINT_MAX := by have := h.small; omega
        have hP := hu hum c2
        obtain ⟨p1, -, j, d, p2, p3⟩ := h.pend u hP
        obtain ⟨p4, ⟨vs, es, tri⟩, p5⟩ := h.triangles u p1
        rw [p4, ok_bind]
        simp only [Option.isSome_none, Bool.false_eq_true, if_false]
        rw [findEntry_side tri (fun j hj => by
          obtain ⟨e, d, q, -⟩ := p5 j hj
          exact ⟨e, d, q⟩) p2, ok_bind]
        have hd : d = !dir := by
          by_contra hne
          have hdd : d = dir := by cases d <;> cases dir <;> simp_all
          subst hdd
          exact c2 (SlotIs.unique p3 sl)
        subst hd
        have hj := (p2.at tri.vertices tri.edges).1
        obtain ⟨x, y, o, _, _, _, vx, vy, vo, -, -, -⟩ := tri.at hj
        obtain ⟨p, q, r, hp, hq, hr', hw, hhal⟩ := hh hum c2 j vs x y o p2 tri.vertices vx vy vo
        obtain ⟨m2, hsp⟩ := h.split_ok G sqrt tol2D h0 hP p2 tri.vertices vx vy vo hp hq hr' hw hhal
        have hsplit := h.split G sqrt tol2D small hP p2 hsp
        simp only [atOr, ok_bind]
        rw [hsp, ok_bind]
        refine ⟨_, rfl, fun _ _ => by simp, ?_⟩
        rcases hsplit with ⟨c, -⟩ | ⟨_, _, _, _, f, g, _, _, _, _, -, q5, -⟩
        · cases c
        · refine ⟨q5.wf, by show t < m2.num .d2; rw [q5.num2]; omega, fun r' l q => ?_⟩
          have hrow := q5.neighbours e _ (lt_of_active h.inactive) q
          refine ⟨_, _, hrow, ?_, ?_⟩
          · intro k
            subst k
            exact if_neg (Ne.symm c2)
          · intro k
            subst k
            exact if_neg (Ne.symm c2)
    · rw [show decide (u < m1.num (Lst.target .nb12)) = false from decide_eq_false c1]
      simp only [Bool.not_false, if_true]
      refine ⟨_, rfl, fun q _ => ?_, h.wf, ht, fun r' l q => ⟨r', l, q, id, id⟩⟩
      exact absurd (hum.resolve_right c1) q
  obtain ⟨r, l, hrl, hsel⟩ := sl
  obtain ⟨r', l', hrl', hsel'⟩ := sl'
  rw [hrl] at hrl'
  cases hrl'
  unfold GeoCfg.bisectNeighbours
  rw [rowSize_of_row h.wf hrl, ok_bind]
  show ∃ m2 out, foldRes _ (m1, []) [0, 1] = ok (m2, out) ∧ _
  simp only [foldRes]
  cases dir with
  | true =>
    simp only [Bool.not_true, Bool.false_eq_true, if_false, if_true] at hsel hsel'
    subst hsel
    subst hsel'
    obtain ⟨s, hs, hne, hwf, hlt, hrow⟩ := other (n := 0) hrl rfl
    obtain ⟨r'', l'', hr2, -, hl2⟩ := hrow _ _ hrl
    refine ⟨s.1, s.2, ?_, hne⟩
    rw [hs, ok_bind, own (m := s.1) (out := s.2) hwf hlt hr2 (n := 1) (by simp [hl2 rfl]), ok_bind]
  | false =>
    simp only [Bool.not_false, Bool.false_eq_true, if_false, if_true] at hsel hsel'
    subst hsel
    subst hsel'
    obtain ⟨s, hs, hne, -⟩ := other (n := 1) hrl rfl
    refine ⟨s.1, s.2, ?_, hne⟩
    rw [own h.wf ht hrl rfl, ok_bind, hs, ok_bind]

theorem IsHalved.of_triSplit {m m0 m' : Mesh K} {t i w x y o ha hb f g : Nat} {vs : List Nat}
    (hv : m.row .vert2 t = ok vs) (vx : vs[i]? = some x) (vy : vs[(i + 1) % 3]? = some y)
    (vo : vs[(i + 2) % 3]? = some o) (hs : TriSplit m0 m' t w x y o ha hb f g) :
    IsHalved m m' t i w (m0.num .d2) :=
  ⟨hs.inactive, hs.updatedOld, ⟨vs, x, y, o, hv, vx, vy, vo, hs.vertices0, hs.vertices1⟩,
    ⟨hs.active2New 0 (by omega), hs.active2New 1 (by omega)⟩,
    ⟨hs.originalNew 0 (by omega), hs.originalNew 1 (by omega)⟩⟩

/-- A halved triangle stays halved when another triangle is split. -/
theorem IsHalved.keep {m m1 m2 : Mesh K} {t i w n u w' x y o ha hb f g : Nat}
    (h : IsHalved m m1 t i w n) (hs : TriSplit m1 m2 u w' x y o ha hb f g) (htu : t ≠ u) (hnu : n ≠ u)
    (hnu' : n + 1 ≠ u) : IsHalved m m2 t i w n := by
  obtain ⟨h1, ⟨l, h2, h2'⟩, ⟨vs, a, b, c, h3, h4, h5, h6, h7, h8⟩, ⟨h9, h10⟩, h11, h12⟩ := h
  have l0 := lt_of_active h9
  have l1 := lt_of_active h10
  have lt := lt_of_active h1
  refine ⟨by rw [hs.active2 t lt htu]; exact h1, ⟨l, by rw [hs.updated t lt htu]; exact h2, h2'⟩,
    ⟨vs, a, b, c, h3, h4, h5, h6, by rw [hs.vertices n l0]; exact h7,
      by rw [hs.vertices (n + 1) l1]; exact h8⟩,
    ⟨by rw [hs.active2 n l0 hnu]; exact h9, by rw [hs.active2 (n + 1) l1 hnu']; exact h10⟩,
    by rw [hs.original n l0]; exact h11, by rw [hs.original (n + 1) l1]; exact h12⟩

/-- The situation after `RefineTriangleCell_ByEdge`. -/
theorem bisect_between {m m1 mE : Mesh K} {t i e a b x y o f g u : Nat} {dir : Bool} (hc : Conforming m)
    (ht : m.active .d2 t = ok true) (side : SideAt m t i e dir) (hu : SlotIs m e (!dir) u)
    (hES : EdgeSplit m mE e a b)
    (hT : TriSplit mE m1 t (m.num .d0) x y o (if dir then m.num .d1 else m.num .d1 + 1)
        (if dir then m.num .d1 + 1 else m.num .d1) f g)
    (hP : Pending m1 e (m.num .d1) (m.num .d1 + 1) (m.num .d0) a b
        (fun u => (m.active .d2 u = ok true ∧ ∃ d, SlotIs m e d u) ∧ u ≠ t))
    (sl : SlotIs m e dir t) :
    e < m.num .d1 ∧ u ≠ t ∧ SlotIs m1 e dir t ∧ SlotIs m1 e (!dir) u ∧
      (u ≠ UINT_MAX → m.active .d2 u = ok true ∧ ∃ j, SideAt m u j e (!dir)) := by
  obtain ⟨-, ⟨vs0, es0, tri⟩, hsd⟩ := hc.triangles t ht
  have ea : m.active .d1 e = ok true := by
    obtain ⟨hi, hee, -⟩ := side.at tri.vertices tri.edges
    obtain ⟨e', d', s', ea, -⟩ := hsd i hi
    obtain ⟨-, q, -⟩ := s'.at tri.vertices tri.edges
    rw [hee] at q; cases q; exact ea
  have heE := lt_of_active ea
  have ht2 := lt_of_active ht
  have huN : u ≠ UINT_MAX → m.active .d2 u = ok true ∧ ∃ j, SideAt m u j e (!dir) := by
    intro hne
    obtain ⟨u', s', c⟩ := (hc.edges e ea).2 (!dir)
    have := s'.unique hu
    subst this
    rcases c with c | c
    · exact absurd c hne
    · exact c
  have hut : u ≠ t := by
    rintro rfl
    by_cases c : u = UINT_MAX
    · have := hP.small
      rw [hT.num2, hES.num2] at this
      omega
    · obtain ⟨-, j, s'⟩ := huN c
      have := (SideAt.unique tri s' side).2
      revert this
      cases dir <;> decide
  -- the other edges of the halves are still active
  have hN : ∀ k, k < 2 → ¬ ((m.active .d2 (mE.num .d2 + k) = ok true ∧ ∃ d, SlotIs m e d (mE.num .d2 + k)) ∧
      mE.num .d2 + k ≠ t) := by
    rintro k hk ⟨⟨q, -⟩, -⟩
    have := lt_of_active q
    rw [hES.num2] at this
    omega
  have hf : f ≠ e := by
    rintro rfl
    obtain ⟨-, -, hs⟩ := hP.triangles (mE.num .d2 + 1) (hT.active2New 1 (by omega))
    obtain ⟨e', d', s', c | c⟩ := hs 1 (by omega)
    · obtain ⟨-, q, -⟩ := s'.at hT.vertices1 hT.edges1
      cases q
      rw [hP.inactive] at c
      cases c.1
    · exact hN 1 (by omega) c.2.1
  have hg : g ≠ e := by
    rintro rfl
    obtain ⟨-, -, hs⟩ := hP.triangles (mE.num .d2) (hT.active2New 0 (by omega))
    obtain ⟨e', d', s', c | c⟩ := hs 0 (by omega)
    · obtain ⟨-, q, -⟩ := s'.at hT.vertices0 hT.edges0
      cases q
      rw [hP.inactive] at c
      cases c.1
    · exact hN 0 (by omega) c.2.1
  have hrow : ∀ r, m.row .nb12 e = ok r → m1.row .nb12 e = ok r := by
    intro r hr
    rw [hT.neighbours e r (by rw [hES.num1]; omega) ((hES.neighbours e heE).trans hr)]
    congr 1
    conv_rhs => rw [← List.map_id r]
    apply List.map_congr_left
    intro z _
    by_cases c : z = t
    · rw [if_pos c, if_neg, if_neg, c]
      · rfl
      · rintro (q | q)
        · cases dir <;> simp at q <;> omega
        · exact hf q.symm
      · rintro (q | q)
        · exact hg q.symm
        · cases dir <;> simp at q <;> omega
    · rw [if_neg c]; rfl
  refine ⟨heE, hut, ?_, ?_, huN⟩
  · obtain ⟨r, l, q, q'⟩ := sl
    exact ⟨r, l, hrow _ q, q'⟩
  · obtain ⟨r, l, q, q'⟩ := hu
    exact ⟨r, l, hrow _ q, q'⟩

theorem point_exists {m : Mesh K} (h : m.WF) {v : Nat} (hv : v < m.num .d0) : ∃ p, m.point v = ok p := by
  obtain ⟨c, hc⟩ := Mesh.coordinates_exists h hv
  exact ⟨_, by unfold Mesh.point; rw [hc, ok_bind]⟩

theorem rotateTo2D_one {p : V3 K} (h : p.z = 0) : rotateTo2D M3.one V3.zero p = p := by
  ext <;> simp [rotateTo2D, M3.one, V3.zero, M3.col0, M3.col1, V3.dot, V3.sub, h]

/-- A neighbour whose first half is below the tolerance is left alone. -/
theorem bisectNeighbours_small (G : GeoCfg K) (sqrt : K → K) (tol2D : K) (h0 : 0 ≤ G.tolerance1D)
    {m1 : Mesh K} {t e h0' h1' w a b u j x y o : Nat} {dir : Bool} {P : Nat → Prop} {vs : List Nat}
    {p r pw : V3 K} (h : Pending m1 e h0' h1' w a b P) (ht : t < m1.num .d2)
    (sl : SlotIs m1 e dir t) (sl' : SlotIs m1 e (!dir) u) (hP : P u) (c2 : u ≠ t)
    (side : SideAt m1 u j e (!dir)) (hv : m1.row .vert2 u = ok vs) (vx : vs[j]? = some x)
    (vy : vs[(j + 1) % 3]? = some y) (vo : vs[(j + 2) % 3]? = some o)
    (hp : m1.point x = ok p) (hr : m1.point o = ok r) (hw : m1.point w = ok pw)
    (hcor : G.Corners sqrt (rotateTo2D M3.one V3.zero r) (rotateTo2D M3.one V3.zero p)
      (rotateTo2D M3.one V3.zero pw))
    (hz : G.isValueZero (1 / 2 * area2 (rotateTo2D M3.one V3.zero r) (rotateTo2D M3.one V3.zero p)
      (rotateTo2D M3.one V3.zero pw)) tol2D = true) :
    G.bisectNeighbours sqrt tol2D m1 t e w [h0', h1'] dir [] [] = ok (m1, []) := by
  obtain ⟨p1, -⟩ := h.pend u hP
  have own : ∀ {n : Nat} {r : List Nat}, m1.row .nb12 e = ok r → r[n]? = some t →
      G.bisectNeighbour sqrt tol2D t e w [h0', h1'] dir [] [] (m1, []) n = ok (m1, []) := by
    intro n r hr hn
    unfold GeoCfg.bisectNeighbour
    dsimp only
    rw [hasEntry_of_row h.wf hr hn, ok_bind]
    rw [show decide (t < m1.num (Lst.target .nb12)) = true from decide_eq_true ht]
    simp only [Bool.not_true, Bool.false_eq_true, if_false]
    rw [entry_of_row h.wf hr hn, ok_bind, if_pos rfl]
  have other : ∀ {n : Nat} {r : List Nat}, m1.row .nb12 e = ok r → r[n]? = some u →
      G.bisectNeighbour sqrt tol2D t e w [h0', h1'] dir [] [] (m1, []) n = ok (m1, []) := by
    intro n r hr' hn
    unfold GeoCfg.bisectNeighbour
    dsimp only
    rw [hasEntry_of_row h.wf hr' hn, ok_bind]
    rw [show decide (u < m1.num (Lst.target .nb12)) = true from decide_eq_true (lt_of_active p1)]
    simp only [Bool.not_true, Bool.false_eq_true, if_false]
    rw [entry_of_row h.wf hr' hn, ok_bind, if_neg c2]
    obtain ⟨p4, ⟨vs', es, tri⟩, p5⟩ := h.triangles u p1
    have hvs : vs' = vs := (Res.ok.inj (hv.symm.trans tri.vertices)).symm
    subst hvs
    rw [p4, ok_bind]
    simp only [Option.isSome_none, Bool.false_eq_true, if_false]
    rw [findEntry_side tri (fun j hj => by
      obtain ⟨e, d, q, -⟩ := p5 j hj
      exact ⟨e, d, q⟩) side, ok_bind]
    have hj := (side.at tri.vertices tri.edges).1
    obtain ⟨x', y', o', e', f, g, -, -, -, ee, ef, eg⟩ := tri.at hj
    obtain ⟨m', -, heq⟩ := splitNewVertexTo_eq G sqrt tol2D (dir := !dir) h.wf M3.one V3.zero tri hj vx vy vo
      ee ef eg h.wlt (lt_of_active h.active0) (lt_of_active h.active1)
      (h.edge_lt p1 tri ef (by omega)) (h.edge_lt p1 tri eg (by omega))
    simp only [atOr, ok_bind]
    rw [heq, isAreaPositive_three G sqrt tol2D h0 hr hp hw hcor, ok_bind, hz]
    rfl
  obtain ⟨r', l', hrl, hsel⟩ := sl
  obtain ⟨r'', l'', hrl', hsel'⟩ := sl'
  rw [hrl] at hrl'
  cases hrl'
  unfold GeoCfg.bisectNeighbours
  rw [rowSize_of_row h.wf hrl, ok_bind]
  show foldRes _ (m1, []) [0, 1] = _
  simp only [foldRes]
  cases dir with
  | true =>
    simp only [Bool.not_true, Bool.false_eq_true, if_false, if_true] at hsel hsel'
    subst hsel
    subst hsel'
    rw [other hrl rfl, ok_bind, own hrl rfl, ok_bind]
  | false =>
    simp only [Bool.not_false, Bool.false_eq_true, if_false, if_true] at hsel hsel'
    subst hsel
    subst hsel'
    rw [own hrl rfl, ok_bind, other hrl rfl, ok_bind]

end Verif
