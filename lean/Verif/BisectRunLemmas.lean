import Verif.BisectConfLemmas

/-
Helper lemmas: the run of a bisection.
-/
namespace Verif

open Res

variable {α : Type}

/-- A triangle has an edge on one side only. -/
theorem SideAt.unique {m : Mesh α} {t i j e : Nat} {d d' : Bool} {vs es : List Nat}
    (tri : IsTri m t vs es) (h : SideAt m t i e d) (h' : SideAt m t j e d') : i = j ∧ d = d' := by
  obtain ⟨hi, -, x, y, h1, h2, h3⟩ := h.at tri.vertices tri.edges
  obtain ⟨hj, -, x', y', h1', h2', h3'⟩ := h'.at tri.vertices tri.edges
  have h4 : (if d then (x, y) else (y, x)) = if d' then (x', y') else (y', x') :=
    Res.ok.inj (h3.symm.trans h3')
  have hn := tri.nodup
  have e1 : i ≠ j → x ≠ x' := fun c => ne_of_nodup hn h1 h1' c
  have e2 : i ≠ (j + 1) % 3 → x ≠ y' := fun c => ne_of_nodup hn h1 h2' c
  have e3 : (i + 1) % 3 ≠ j → y ≠ x' := fun c => ne_of_nodup hn h2 h1' c
  have e4 : (i + 1) % 3 ≠ (j + 1) % 3 → y ≠ y' := fun c => ne_of_nodup hn h2 h2' c
  have hij : i = j := by
    by_contra hne
    rcases Bool.eq_false_or_eq_true d with rfl | rfl <;>
      rcases Bool.eq_false_or_eq_true d' with rfl | rfl <;>
      simp only [if_true, Bool.false_eq_true, if_false, Prod.mk.injEq] at h4
    · exact e1 hne h4.1
    · by_cases c : i = (j + 1) % 3
      · exact e3 (by omega) h4.2
      · exact e2 c h4.1
    · by_cases c : i = (j + 1) % 3
      · exact e3 (by omega) h4.1
      · exact e2 c h4.2
    · exact e1 hne h4.2
  refine ⟨hij, ?_⟩
  subst hij
  rw [h1] at h1'
  rw [h2] at h2'
  cases h1'
  cases h2'
  have hxy : x ≠ y := ne_of_nodup hn h1 h2 (by omega)
  cases d <;> cases d' <;> simp [hxy, hxy.symm] at h4 ⊢

/-- The position of an edge in a triangle. -/
theorem findEntry_side {m : Mesh α} {t i e : Nat} {d : Bool} {vs es : List Nat}
    (tri : IsTri m t vs es) (hs : ∀ j, j < 3 → ∃ e d, SideAt m t j e d) (h : SideAt m t i e d) :
    m.findEntry .edge2 t e = ok i := by
  unfold Mesh.findEntry
  rw [tri.edges, ok_bind]
  congr 1
  obtain ⟨hi, he, -⟩ := h.at tri.vertices tri.edges
  obtain ⟨hil, hie⟩ := List.getElem?_eq_some_iff.1 he
  unfold Mesh.findIn
  have hlt : es.findIdx (fun y => y == e) < es.length :=
    List.findIdx_lt_length_of_exists ⟨e, List.mem_of_getElem? he, by simp⟩
  have hp := List.findIdx_getElem (w := hlt)
  obtain ⟨e', d', h'⟩ := hs (es.findIdx (fun y => y == e)) (by rw [← tri.elen]; exact hlt)
  obtain ⟨-, he', -⟩ := h'.at tri.vertices tri.edges
  have : e' = e := by
    rw [List.getElem?_eq_getElem hlt] at he'
    simp only [beq_iff_eq] at hp
    exact (Option.some.inj he').symm.trans hp
  subst this
  exact (SideAt.unique tri h' h).1

/-- The three positions of a triangle. -/
theorem IsTri.at {m : Mesh α} {t i : Nat} {vs es : List Nat} (tri : IsTri m t vs es) (hi : i < 3) :
    ∃ x y o e f g, vs[i]? = some x ∧ vs[(i + 1) % 3]? = some y ∧ vs[(i + 2) % 3]? = some o ∧
      es[i]? = some e ∧ es[(i + 1) % 3]? = some f ∧ es[(i + 2) % 3]? = some g := by
  have h1 := tri.vlen
  have h2 := tri.elen
  exact ⟨_, _, _, _, _, _, List.getElem?_eq_getElem (by omega), List.getElem?_eq_getElem (by omega),
    List.getElem?_eq_getElem (by omega), List.getElem?_eq_getElem (by omega),
    List.getElem?_eq_getElem (by omega), List.getElem?_eq_getElem (by omega)⟩

theorem Pending.edge_lt {m : Mesh α} {E h0 h1 w a b t i e : Nat} {P : Nat → Prop}
    (h : Pending m E h0 h1 w a b P) (ht : m.active .d2 t = ok true) {vs es : List Nat}
    (tri : IsTri m t vs es) (he : es[i]? = some e) (hi : i < 3) : e < m.num .d1 := by
  obtain ⟨e', d, s, -⟩ := (h.triangles t ht).2.2 i hi
  obtain ⟨-, q, -⟩ := s.at tri.vertices tri.edges
  rw [he] at q
  cases q
  obtain ⟨_, _, _, _, _, _, _, _, _, _, q⟩ := s
  exact lt_of_extremes q

section
variable {K : Type} [Field K] [LinearOrder K] [IsStrictOrderedRing K]

/-- The split of a waiting triangle. -/
theorem Pending.split (G : GeoCfg K) (sqrt : K → K) (tol2D : K) {m m' : Mesh K}
    {E h0 h1 w a b t i : Nat} {P : Nat → Prop} {dir : Bool} {rotation : M3 K} {translation : V3 K}
    {res : Option (Nat × List Nat)}
    (h : Pending m E h0 h1 w a b P) (small : m.num .d2 + 2 ≤ UINT_MAX) (hP : P t)
    (side : SideAt m t i E dir)
    (run : G.splitNewVertexTo sqrt tol2D m t 3 ((i + 2) % 3) i rotation translation w [h0, h1] dir
      = ok (m', res)) :
    (res = none ∧ m' = m) ∨ ∃ vs x y o f g, m.row .vert2 t = ok vs ∧ vs[i]? = some x ∧
      vs[(i + 1) % 3]? = some y ∧ vs[(i + 2) % 3]? = some o ∧
      res = some (m.num .d1, [m.num .d2, m.num .d2 + 1]) ∧
      TriSplit m m' t w x y o (if dir then h0 else h1) (if dir then h1 else h0) f g ∧
      Pending m' E h0 h1 w a b (fun u => P u ∧ u ≠ t) := by
  obtain ⟨hta, -, -⟩ := h.pend t hP
  obtain ⟨-, ⟨vs, es, tri⟩, -⟩ := h.triangles t hta
  have hi := (side.at tri.vertices tri.edges).1
  obtain ⟨x, y, o, e, f, g, vx, vy, vo, ee, ef, eg⟩ := tri.at hi
  rcases splitNewVertexTo_spec G sqrt tol2D h.wf tri hi vx vy vo ee ef eg h.wlt
    (lt_of_active h.active0) (lt_of_active h.active1) (h.edge_lt hta tri ef (by omega))
    (h.edge_lt hta tri eg (by omega)) run with c | ⟨c1, c2⟩
  · exact Or.inl c
  · exact Or.inr ⟨vs, x, y, o, f, g, tri.vertices, vx, vy, vo, c1, c2,
      h.step small hP side tri vx vy vo ef eg c2⟩

/-- The run of `RefineTriangleCell_ByEdge` when it reports a split. -/
theorem bisectByEdge_spec (G : GeoCfg K) (sqrt : K → K) (tol2D : K) {m m1 : Mesh K} {t i e w E : Nat}
    {directions : List Bool} {area : K} {rotation : M3 K} {translation : V3 K} {lengths : List K}
    {dir : Bool} {hs cs : List Nat} (hc : Conforming m) (small : m.num .d2 + 2 ≤ UINT_MAX)
    (ht : m.active .d2 t = ok true) (side : SideAt m t i e dir) (hdir : directions[i]? = some dir)
    (run : G.bisectByEdge sqrt tol2D m t i ((i + 2) % 3) directions area rotation translation lengths
      = ok (m1, .successful w hs E cs)) :
    ∃ mE a b pa pb vs x y o f g, m.extremes e = ok (a, b) ∧ m.point a = ok pa ∧ m.point b = ok pb ∧
      w = m.num .d0 ∧ hs = [m.num .d1, m.num .d1 + 1] ∧ E = m.num .d1 + 2 ∧
      cs = [m.num .d2, m.num .d2 + 1] ∧ EdgeSplit m mE e a b ∧
      mE.point w = ok (V3.smul (1 / 2) (pa.add pb)) ∧
      m.row .vert2 t = ok vs ∧ vs[i]? = some x ∧
      vs[(i + 1) % 3]? = some y ∧ vs[(i + 2) % 3]? = some o ∧
      TriSplit mE m1 t w x y o (if dir then m.num .d1 else m.num .d1 + 1)
        (if dir then m.num .d1 + 1 else m.num .d1) f g ∧
      Pending m1 e (m.num .d1) (m.num .d1 + 1) w a b
        (fun u => (m.active .d2 u = ok true ∧ ∃ d, SlotIs m e d u) ∧ u ≠ t) ∧
      SlotIs m e dir t := by
  obtain ⟨hu, ⟨vs, es, tri⟩, hsd⟩ := hc.triangles t ht
  obtain ⟨hi, hee, x, y, vx, vy, hext⟩ := side.at tri.vertices tri.edges
  obtain ⟨e', d', s', ea, sl⟩ := hsd i hi
  have he' : e' = e := by
    obtain ⟨-, q, -⟩ := s'.at tri.vertices tri.edges
    rw [hee] at q; cases q; rfl
  subst he'
  obtain ⟨-, hd⟩ := SideAt.unique tri s' side
  subst hd
  have xy : x ≠ y := ne_of_nodup tri.nodup vx vy (by omega)
  obtain ⟨⟨a, b, hab, hal, hbl⟩, -⟩ := hc.edges e' ea
  have ab : a ≠ b := by
    have := Res.ok.inj (hab.symm.trans hext)
    intro q
    cases d' <;> simp only [Bool.false_eq_true, if_false, if_true, Prod.mk.injEq] at this
    · exact xy (by rw [← this.1, ← this.2, q])
    · exact xy (by rw [← this.1, ← this.2, q])
  unfold GeoCfg.bisectByEdge at run
  rw [hu, ok_bind] at run
  simp only [Option.isSome_none, Bool.false_eq_true, if_false] at run
  split at run
  · cases run
  · obtain ⟨len, -, run⟩ := bind_eq_ok.1 run
    split at run
    · cases run
    · rw [entry_of_row hc.wf tri.edges hee, ok_bind, vget_eq_ok.2 hdir, ok_bind] at run
      obtain ⟨⟨mE, w', hs'⟩, hmid, run⟩ := bind_eq_ok.1 run
      unfold Mesh.splitEdgeMiddle at hmid
      rw [hab, ok_bind] at hmid
      obtain ⟨pa, hpa, hmid⟩ := bind_eq_ok.1 hmid
      obtain ⟨pb, hpb, hmid⟩ := bind_eq_ok.1 hmid
      obtain ⟨mX, hrE, hES, hpt⟩ := splitEdgeAt_spec hc.wf hab hal hbl (V3.smul (1 / 2) (pa.add pb))
      rw [hrE] at hmid
      cases hmid
      have hpend := Pending.of_edgeSplit hc ea hab (by omega) ab hES
      have n2 := hES.num2
      have ht2 := lt_of_active ht
      have sideE : SideAt mE t i e' d' :=
        (SideAt.congr (hES.vertices t ht2) (hES.edges t ht2) (hES.extremes e' (lt_of_active ea))).2 side
      dsimp only at run
      obtain ⟨⟨m1', r⟩, hsp, run2⟩ := bind_eq_ok.1 run
      clear run
      rcases hpend.split G sqrt tol2D (by omega) ⟨ht, d', sl⟩ sideE hsp with
        ⟨rfl, rfl⟩ | ⟨vs', x', y', o, f, g, q1, q2, q3, q4, rfl, q5, q6⟩
      · obtain ⟨_, -, run2⟩ := bind_eq_ok.1 run2
        obtain ⟨_, -, run2⟩ := bind_eq_ok.1 run2
        obtain ⟨_, -, run2⟩ := bind_eq_ok.1 run2
        obtain ⟨_, -, run2⟩ := bind_eq_ok.1 run2
        obtain ⟨_, -, run2⟩ := bind_eq_ok.1 run2
        obtain ⟨_, -, run2⟩ := bind_eq_ok.1 run2
        cases run2
      · dsimp only at run2
        cases run2
        rw [hES.vertices t ht2] at q1
        refine ⟨mE, a, b, pa, pb, vs', x', y', o, f, g, hab, hpa, hpb, rfl, rfl, ?_, ?_, hES, hpt, q1,
          q2, q3, q4, q5, q6, sl⟩
        · exact hES.num1
        · rw [n2]

/-- The run of `RefineTriangleCell_UpdateNeighbours` with its two rounds. -/
theorem bisectNeighbours_spec (G : GeoCfg K) (sqrt : K → K) (tol2D : K) {m1 m2 : Mesh K}
    {t e h0 h1 w a b u : Nat} {dir : Bool} {rotations : List (M3 K)} {translations : List (V3 K)}
    {out : List (Nat × Nat)} {P : Nat → Prop} (h : Pending m1 e h0 h1 w a b P)
    (small : m1.num .d2 + 2 ≤ UINT_MAX) (ht : t < m1.num .d2)
    (sl : SlotIs m1 e dir t) (sl' : SlotIs m1 e (!dir) u) (hu : u ≠ UINT_MAX → u ≠ t → P u)
    (run : G.bisectNeighbours sqrt tol2D m1 t e w [h0, h1] dir rotations translations
      = ok (m2, out)) :
    (m2 = m1 ∧ out = []) ∨ (u ≠ UINT_MAX ∧ u ≠ t ∧ ∃ j vs x y o f g, SideAt m1 u j e (!dir) ∧
      m1.row .vert2 u = ok vs ∧ vs[j]? = some x ∧
      vs[(j + 1) % 3]? = some y ∧ vs[(j + 2) % 3]? = some o ∧
      out = [(u, m1.num .d2), (u, m1.num .d2 + 1)] ∧
      TriSplit m1 m2 u w x y o (if !dir then h0 else h1) (if !dir then h1 else h0) f g ∧
      Pending m2 e h0 h1 w a b (fun v => P v ∧ v ≠ u)) := by
  -- the round of the triangle itself
  have own : ∀ {m : Mesh K} {out : List (Nat × Nat)} {n : Nat} {r : List Nat}, m.WF → t < m.num .d2 →
      m.row .nb12 e = ok r → r[n]? = some t →
      G.bisectNeighbour sqrt tol2D t e w [h0, h1] dir rotations translations (m, out) n = ok (m, out) := by
    intro m out n r hwf ht hr hn
    unfold GeoCfg.bisectNeighbour
    dsimp only
    rw [hasEntry_of_row hwf hr hn, ok_bind]
    rw [show decide (t < m.num (Lst.target .nb12)) = true from decide_eq_true ht]
    simp only [Bool.not_true, Bool.false_eq_true, if_false]
    rw [entry_of_row hwf hr hn, ok_bind, if_pos rfl]
  -- the round of the neighbour
  have other : ∀ {n : Nat} {r : List Nat} {s}, m1.row .nb12 e = ok r → r[n]? = some u →
      G.bisectNeighbour sqrt tol2D t e w [h0, h1] dir rotations translations (m1, []) n = ok s →
      (s = (m1, [])) ∨ (u ≠ UINT_MAX ∧ u ≠ t ∧ ∃ j vs x y o f g, SideAt m1 u j e (!dir) ∧
        m1.row .vert2 u = ok vs ∧ vs[j]? = some x ∧
        vs[(j + 1) % 3]? = some y ∧ vs[(j + 2) % 3]? = some o ∧
        s.2 = [(u, m1.num .d2), (u, m1.num .d2 + 1)] ∧
        TriSplit m1 s.1 u w x y o (if !dir then h0 else h1) (if !dir then h1 else h0) f g ∧
        Pending s.1 e h0 h1 w a b (fun v => P v ∧ v ≠ u)) := by
    intro n r s hr hn run
    unfold GeoCfg.bisectNeighbour at run
    dsimp only at run
    rw [hasEntry_of_row h.wf hr hn, ok_bind] at run
    by_cases c1 : u < m1.num .d2
    · rw [show decide (u < m1.num (Lst.target .nb12)) = true from decide_eq_true c1] at run
      simp only [Bool.not_true, Bool.false_eq_true, if_false] at run
      rw [entry_of_row h.wf hr hn, ok_bind] at run
      by_cases c2 : u = t
      · rw [if_pos c2] at run
        cases run
        exact Or.inl rfl
      · rw [if_neg c2] at run
        have hum : u ≠ UINT_MAX := by have := h.small; omega
        have hP := hu hum c2
        obtain ⟨p1, -, j, d, p2, p3⟩ := h.pend u hP
        obtain ⟨p4, ⟨vs, es, tri⟩, p5⟩ := h.triangles u p1
        rw [p4, ok_bind] at run
        simp only [Option.isSome_none, Bool.false_eq_true, if_false] at run
        rw [findEntry_side tri (fun j hj => by
          obtain ⟨e, d, q, -⟩ := p5 j hj
          exact ⟨e, d, q⟩) p2, ok_bind] at run
        have hd : d = !dir := by
          by_contra hne
          have hdd : d = dir := by cases d <;> cases dir <;> simp_all
          subst hdd
          exact c2 (SlotIs.unique p3 sl)
        subst hd
        obtain ⟨rotation, -, run⟩ := bind_eq_ok.1 run
        obtain ⟨translation, -, run⟩ := bind_eq_ok.1 run
        obtain ⟨⟨m', res⟩, hsp, run2⟩ := bind_eq_ok.1 run
        clear run
        rcases h.split G sqrt tol2D small hP p2 hsp with
          ⟨rfl, rfl⟩ | ⟨vs', x, y, o, f, g, q1, q2, q3, q4, rfl, q5, q6⟩
        · cases run2
          exact Or.inl rfl
        · dsimp only at run2
          cases run2
          exact Or.inr ⟨hum, c2, j, vs', x, y, o, f, g, p2, q1, q2, q3, q4, rfl, q5, q6⟩
    · rw [show decide (u < m1.num (Lst.target .nb12)) = false from decide_eq_false c1] at run
      simp only [Bool.not_false, if_true] at run
      cases run
      exact Or.inl rfl
  obtain ⟨r, l, hrl, hsel⟩ := sl
  obtain ⟨r', l', hrl', hsel'⟩ := sl'
  rw [hrl] at hrl'
  cases hrl'
  unfold GeoCfg.bisectNeighbours at run
  rw [rowSize_of_row h.wf hrl, ok_bind] at run
  change foldRes _ (m1, []) [0, 1] = _ at run
  simp only [foldRes] at run
  obtain ⟨s0, r0, run⟩ := bind_eq_ok.1 run
  obtain ⟨s1, r1, run⟩ := bind_eq_ok.1 run
  cases run
  cases dir with
  | true =>
    simp only [Bool.not_true, Bool.false_eq_true, if_false, if_true] at hsel hsel'
    subst hsel
    subst hsel'
    rcases other hrl rfl r0 with rfl | ⟨c1, c2, j, vs, x, y, o, f, g, q1, q2, q3, q4, q5, q6, q7, q8⟩
    · rw [own h.wf ht hrl rfl] at r1
      cases r1
      exact Or.inl ⟨rfl, rfl⟩
    · obtain ⟨m', out'⟩ := s0
      dsimp only at q6 q7 q8
      have hrow := q7.neighbours e _ (lt_of_active h.inactive) hrl
      rw [own q7.wf (by rw [q7.num2]; omega) hrow (by
        simp only [List.map_cons, List.map_nil, List.getElem?_cons_succ, List.getElem?_cons_zero]
        rw [if_neg (Ne.symm c2)])] at r1
      cases r1
      exact Or.inr ⟨c1, c2, j, vs, x, y, o, f, g, q1, q2, q3, q4, q5, q6, q7, q8⟩
  | false =>
    simp only [Bool.not_false, Bool.false_eq_true, if_false, if_true] at hsel hsel'
    subst hsel
    subst hsel'
    rw [own h.wf ht hrl rfl] at r0
    cases r0
    rcases other hrl rfl r1 with c | c
    · cases c
      exact Or.inl ⟨rfl, rfl⟩
    · exact Or.inr c

end

end Verif
