import Verif.BisectStepLemmas

/-
Helper lemmas: between the split of an edge and the split of its triangles.
-/
namespace Verif

open Res

variable {α : Type}

/-- The edge `e` from `a` to `b` was split at the new vertex `m.num .d0`. -/
structure EdgeSplit (m m' : Mesh α) (e a b : Nat) : Prop where
  wf : m'.WF
  num0 : m'.num .d0 = m.num .d0 + 1
  num1 : m'.num .d1 = m.num .d1 + 2
  num2 : m'.num .d2 = m.num .d2
  coordinates : ∀ i, i < m.num .d0 → m'.coordinates i = m.coordinates i
  extremes : ∀ i, i < m.num .d1 → m'.extremes i = m.extremes i
  extremes0 : m'.extremes (m.num .d1) = ok (a, m.num .d0)
  extremes1 : m'.extremes (m.num .d1 + 1) = ok (m.num .d0, b)
  active0 : ∀ i, i < m.num .d0 → m'.active .d0 i = m.active .d0 i
  active0New : m'.active .d0 (m.num .d0) = ok true
  active1 : ∀ i, i < m.num .d1 → i ≠ e → m'.active .d1 i = m.active .d1 i
  inactive : m'.active .d1 e = ok false
  active1New : ∀ k, k < 2 → m'.active .d1 (m.num .d1 + k) = ok true
  marker : ∀ d i, i < m.num d → m'.marker d i = m.marker d i
  marker0New : m'.marker .d0 (m.num .d0) = m.marker .d1 e
  marker1New : ∀ k, k < 2 → m'.marker .d1 (m.num .d1 + k) = m.marker .d1 e
  originalNew : ∀ k, k < 2 → m'.original .d1 (m.num .d1 + k) = ok e
  active2 : ∀ i, i < m.num .d2 → m'.active .d2 i = m.active .d2 i
  updated : ∀ i, i < m.num .d2 → m'.updated .d2 i = m.updated .d2 i
  vertices : ∀ i, i < m.num .d2 → m'.row .vert2 i = m.row .vert2 i
  edges : ∀ i, i < m.num .d2 → m'.row .edge2 i = m.row .edge2 i
  neighbours : ∀ x, x < m.num .d1 → m'.row .nb12 x = m.row .nb12 x
  neighboursNew : ∀ k r, k < 2 → m.row .nb12 e = ok r →
    m'.row .nb12 (m.num .d1 + k) = ok (r.map fun y => if y < m.num .d2 then y else UINT_MAX)

section
variable {K : Type} [Field K] [LinearOrder K] [IsStrictOrderedRing K]

theorem splitEdgeAt_spec {m : Mesh K} (h : m.WF) {e a b : Nat} (he : m.extremes e = ok (a, b))
    (ha : a < m.num .d0) (hb : b < m.num .d0) (p : V3 K) :
    ∃ m', m.splitEdgeAt e p = ok (m', m.num .d0, [m.num .d1, m.num .d1 + 1]) ∧ EdgeSplit m m' e a b ∧
      m'.point (m.num .d0) = ok p := by
  have hlt := lt_of_extremes he
  obtain ⟨m1, hK, wf1, n0, nd, xN, aN, kN, hrun⟩ := newVertex_spec h p.x p.y p.z e hlt
  obtain ⟨⟨x1, k1⟩, s1, hrun⟩ := bind_eq_ok.1 hrun
  obtain ⟨x2, s2, hrun⟩ := bind_eq_ok.1 hrun
  obtain ⟨x3, s3, hrun⟩ := bind_eq_ok.1 hrun
  obtain ⟨x4, s4, hrun⟩ := bind_eq_ok.1 hrun
  obtain ⟨x5, s5, hrun⟩ := bind_eq_ok.1 hrun
  cases hrun
  have n1 : m1.num .d1 = m.num .d1 := nd _ (by simp)
  have n2 : m1.num .d2 = m.num .d2 := nd _ (by simp)
  obtain ⟨y, hy, wfy, others, parent, sub, -⟩ := c86_split_partial m1 wf1 e (by omega)
    [(a, m.num .d0), (m.num .d0, b)] (by
      intro s hs
      simp only [List.mem_cons, List.not_mem_nil, or_false] at hs
      rcases hs with rfl | rfl <;> constructor <;> (dsimp only; omega))
  have hl : ((List.range 2).map (m1.num .d1 + ·)) = [m.num .d1, m.num .d1 + 1] := by
    rw [n1]; rfl
  change m1.splitCell1D e _ = ok (y, (List.range 2).map (m1.num .d1 + ·)) at hy
  rw [hl] at hy
  have e0 := sub 0 _ rfl
  have e1 := sub 1 _ rfl
  rw [n1] at e0 e1
  have lt0 : ∀ {i}, i < m.num .d0 → i < m1.num .d0 := by intro i hi; omega
  have lt1 : ∀ {i}, i < m.num .d1 → i < m1.num .d1 := by intro i hi; omega
  have lt2 : ∀ {i}, i < m.num .d2 → i < m1.num .d2 := by intro i hi; omega
  refine ⟨y, ?_, ?_, ?_⟩
  · unfold Mesh.splitEdgeAt
    rw [he, ok_bind, s1, ok_bind]
    dsimp only at s2 s3 s4 s5 ⊢
    rw [s2, ok_bind, s3, ok_bind, s4, ok_bind, s5, ok_bind, hy, ok_bind]
  · constructor
    · exact wfy
    · rw [others.num _ (by simp), n0]
    · rw [others.num1, n1]; rfl
    · rw [others.num _ (by simp), n2]
    · intro i hi; rw [others.coordinates i (lt0 hi), hK.coordinates i hi]
    · intro i hi; rw [others.extremes i (lt1 hi), hK.extremes i hi]
    · exact e0.extremes
    · exact e1.extremes
    · intro i hi; rw [others.active .d0 i (lt0 hi) (by simp), hK.active .d0 i hi]
    · rw [others.active .d0 _ (by omega) (by simp), aN]
    · intro i hi hne; rw [others.active .d1 i (lt1 hi) (by simpa using hne), hK.active .d1 i hi]
    · exact parent.inactive
    · intro k hk
      interval_cases k
      · exact e0.active
      · exact e1.active
    · intro d i hi
      rw [others.marker d i (lt_of_lt_of_le hi (hK.num d)), hK.marker d i hi]
    · rw [others.marker .d0 _ (by omega), kN]
    · intro k hk
      interval_cases k
      · rw [← hK.marker .d1 e hlt]; exact e0.marker
      · rw [← hK.marker .d1 e hlt]; exact e1.marker
    · intro k hk
      interval_cases k
      · exact e0.original
      · exact e1.original
    · intro i hi; rw [others.active .d2 i (lt2 hi) (by simp), hK.active .d2 i hi]
    · intro i hi; rw [others.updated .d2 i (lt2 hi) (by simp), hK.updated .d2 i hi]
    · intro i hi; rw [others.rows .vert2 i (lt2 hi) (by simp), hK.rows .vert2 i hi]
    · intro i hi; rw [others.rows .edge2 i (lt2 hi) (by simp), hK.rows .edge2 i hi]
    · intro i hi; rw [others.rows .nb12 i (lt1 hi) (by simp), hK.rows .nb12 i hi]
    · intro k r hk hr
      rw [← hK.rows .nb12 e hlt] at hr
      rw [← n2]
      interval_cases k
      · exact e0.polygons r hr
      · exact e1.polygons r hr
  · unfold Mesh.point
    rw [others.coordinates _ (by omega), xN]
    rfl

end

/-- The edge `E` from `a` to `b` is split into the halves `h0` and `h1` at `w`; the triangles in `P`
are not split yet. Apart from this the mesh conforms. -/
structure Pending (m : Mesh α) (E h0 h1 w a b : Nat) (P : Nat → Prop) : Prop where
  wf : m.WF
  small : m.num .d2 ≤ UINT_MAX
  extE : m.extremes E = ok (a, b)
  inactive : m.active .d1 E = ok false
  ext0 : m.extremes h0 = ok (a, w)
  ext1 : m.extremes h1 = ok (w, b)
  active0 : m.active .d1 h0 = ok true
  active1 : m.active .d1 h1 = ok true
  ab : a ≠ b
  wa : w ≠ a
  wb : w ≠ b
  wlt : w < m.num .d0
  pend : ∀ t, P t → m.active .d2 t = ok true ∧ (∀ vs, m.row .vert2 t = ok vs → w ∉ vs) ∧
    ∃ i dir, SideAt m t i E dir ∧ SlotIs m E dir t
  triangles : ∀ t, m.active .d2 t = ok true → m.updated .d2 t = ok none ∧ (∃ vs es, IsTri m t vs es) ∧
    ∀ i, i < 3 → ∃ e dir, SideAt m t i e dir ∧
      ((m.active .d1 e = ok true ∧ SlotIs m e dir t) ∨
        (e = E ∧ P t ∧ SlotIs m h0 dir t ∧ SlotIs m h1 dir t))
  edges : ∀ e, m.active .d1 e = ok true →
    (∃ x y, m.extremes e = ok (x, y) ∧ x < m.num .d0 ∧ y < m.num .d0) ∧
    ∀ dir, ∃ t, SlotIs m e dir t ∧ (t = UINT_MAX ∨ m.active .d2 t = ok true ∧
      ∃ i, SideAt m t i e dir ∨ ((e = h0 ∨ e = h1) ∧ P t ∧ SideAt m t i E dir))

theorem Pending.conforming {m : Mesh α} {E h0 h1 w a b : Nat} {P : Nat → Prop}
    (h : Pending m E h0 h1 w a b P) (hP : ∀ t, ¬ P t) : Conforming m := by
  refine ⟨h.wf, ?_, ?_⟩
  · intro t ht
    obtain ⟨h1, h2, h3⟩ := h.triangles t ht
    refine ⟨h1, h2, fun i hi => ?_⟩
    obtain ⟨e, dir, s, c | c⟩ := h3 i hi
    · exact ⟨e, dir, s, c⟩
    · exact absurd c.2.1 (hP t)
  · intro e he
    obtain ⟨h1, h2⟩ := h.edges e he
    refine ⟨h1, fun dir => ?_⟩
    obtain ⟨t, s, c | ⟨c, i, c' | c'⟩⟩ := h2 dir
    · exact ⟨t, s, Or.inl c⟩
    · exact ⟨t, s, Or.inr ⟨c, i, c'⟩⟩
    · exact absurd c'.2.1 (hP t)

/-- A side of a triangle in the mesh after a change that keeps the triangle and the edge. -/
theorem SideAt.congr {m m' : Mesh α} {t i e : Nat} {dir : Bool}
    (h1 : m'.row .vert2 t = m.row .vert2 t) (h2 : m'.row .edge2 t = m.row .edge2 t)
    (h3 : m'.extremes e = m.extremes e) : SideAt m' t i e dir ↔ SideAt m t i e dir := by
  unfold SideAt
  rw [h1, h2, h3]

theorem SlotIs.unique {m : Mesh α} {e t t' : Nat} {dir : Bool} (h : SlotIs m e dir t)
    (h' : SlotIs m e dir t') : t = t' := by
  obtain ⟨r, l, h1, rfl⟩ := h
  obtain ⟨r', l', h1', rfl⟩ := h'
  rw [h1] at h1'
  cases h1'
  rfl

theorem Pending.of_edgeSplit {m m' : Mesh α} {E a b : Nat} (hc : Conforming m)
    (hE : m.active .d1 E = ok true) (hx : m.extremes E = ok (a, b)) (small : m.num .d2 ≤ UINT_MAX)
    (hab : a ≠ b) (hs : EdgeSplit m m' E a b) :
    Pending m' E (m.num .d1) (m.num .d1 + 1) (m.num .d0) a b
      (fun t => m.active .d2 t = ok true ∧ ∃ dir, SlotIs m E dir t) := by
  have hE1 := lt_of_active hE
  obtain ⟨⟨x, y, hxy, hxl, hyl⟩, hEs⟩ := hc.edges E hE
  rw [hx] at hxy
  cases hxy
  have hside : ∀ {t i e dir}, t < m.num .d2 → e < m.num .d1 →
      (SideAt m' t i e dir ↔ SideAt m t i e dir) := by
    intro t i e dir ht he
    exact SideAt.congr (hs.vertices t ht) (hs.edges t ht) (hs.extremes e he)
  have hslot : ∀ {e dir t}, e < m.num .d1 → (SlotIs m' e dir t ↔ SlotIs m e dir t) := by
    intro e dir t he
    unfold SlotIs
    rw [hs.neighbours e he]
  have hslotN : ∀ {k dir t}, k < 2 → SlotIs m E dir t → SlotIs m' (m.num .d1 + k) dir t := by
    intro k dir t hk ht
    obtain ⟨r, l, hrl, rfl⟩ := ht
    have hid : ∀ d : Bool, (fun y => if y < m.num .d2 then y else UINT_MAX) (if d then l else r) =
        if d then l else r := by
      intro d
      obtain ⟨t', h1, h2⟩ := hEs d
      have h3 := SlotIs.unique h1 ⟨r, l, hrl, rfl⟩
      subst h3
      rcases h2 with h2 | ⟨h2, -⟩
      · simp only [h2]; split <;> rfl
      · exact if_pos (lt_of_active h2)
    refine ⟨r, l, ?_, rfl⟩
    rw [hs.neighboursNew k _ hk hrl]
    have q0 := hid false
    have q1 := hid true
    simp only [Bool.false_eq_true, if_false, if_true] at q0 q1
    simp only [List.map_cons, List.map_nil, q0, q1]
  have hact2 : ∀ {t}, m'.active .d2 t = ok true → m.active .d2 t = ok true := by
    intro t ht
    have := lt_of_active ht
    rw [hs.num2] at this
    rw [← hs.active2 t this]
    exact ht
  constructor
  · exact hs.wf
  · rw [hs.num2]; exact small
  · rw [hs.extremes E hE1]; exact hx
  · exact hs.inactive
  · exact hs.extremes0
  · exact hs.extremes1
  · exact hs.active1New 0 (by omega)
  · exact hs.active1New 1 (by omega)
  · exact hab
  · omega
  · omega
  · rw [hs.num0]; omega
  · rintro t ⟨ht, dir, hd⟩
    have ht2 := lt_of_active ht
    refine ⟨by rw [hs.active2 t ht2]; exact ht, ?_, ?_⟩
    · intro vs hvs hmem
      obtain ⟨-, ⟨vs', es, tri⟩, -⟩ := hc.triangles t ht
      rw [hs.vertices t ht2, tri.vertices] at hvs
      cases hvs
      have := tri.lt _ hmem
      omega
    · obtain ⟨t', h1, h2⟩ := hEs dir
      have h3 := SlotIs.unique h1 hd
      subst h3
      rcases h2 with h2 | ⟨-, i, h2⟩
      · omega
      · exact ⟨i, dir, (hside ht2 hE1).2 h2, (hslot hE1).2 hd⟩
  · intro t ht
    have htm := hact2 ht
    have ht2 := lt_of_active htm
    obtain ⟨hu, ⟨vs, es, tri⟩, hsd⟩ := hc.triangles t htm
    refine ⟨by rw [hs.updated t ht2]; exact hu, ⟨vs, es, ?_⟩, ?_⟩
    · refine ⟨by rw [hs.vertices t ht2]; exact tri.vertices, by rw [hs.edges t ht2]; exact tri.edges,
        tri.vlen, tri.elen, tri.nodup, fun v hv => ?_⟩
      have := tri.lt v hv
      rw [hs.num0]; omega
    · intro i hi
      obtain ⟨e, dir, h1, h2, h3⟩ := hsd i hi
      have he := lt_of_active h2
      refine ⟨e, dir, (hside ht2 he).2 h1, ?_⟩
      by_cases hee : e = E
      · subst hee
        exact Or.inr ⟨rfl, ⟨htm, dir, h3⟩, hslotN (k := 0) (by omega) h3, hslotN (k := 1) (by omega) h3⟩
      · exact Or.inl ⟨by rw [hs.active1 e he hee]; exact h2, (hslot he).2 h3⟩
  · intro e he
    have hel := lt_of_active he
    rw [hs.num1] at hel
    have hnew : ∀ k, k < 2 → ∀ dir, ∃ t, SlotIs m' (m.num .d1 + k) dir t ∧ (t = UINT_MAX ∨
        m'.active .d2 t = ok true ∧ ∃ i, (m.active .d2 t = ok true ∧ ∃ dir, SlotIs m E dir t) ∧
          SideAt m' t i E dir) := by
      intro k hk dir
      obtain ⟨t, h1, h2⟩ := hEs dir
      refine ⟨t, hslotN hk h1, h2.imp_right ?_⟩
      rintro ⟨h2, i, h3⟩
      have ht2 := lt_of_active h2
      exact ⟨by rw [hs.active2 t ht2]; exact h2, i, ⟨h2, dir, h1⟩, (hside ht2 hE1).2 h3⟩
    by_cases h0 : e < m.num .d1
    · have hne : e ≠ E := by
        rintro rfl
        rw [hs.inactive] at he
        cases he
      rw [hs.active1 e h0 hne] at he
      obtain ⟨⟨x, y, h1, h2, h3⟩, h4⟩ := hc.edges e he
      refine ⟨⟨x, y, by rw [hs.extremes e h0]; exact h1, by rw [hs.num0]; omega,
        by rw [hs.num0]; omega⟩, fun dir => ?_⟩
      obtain ⟨t, h5, h6⟩ := h4 dir
      refine ⟨t, (hslot h0).2 h5, h6.imp_right ?_⟩
      rintro ⟨h6, i, h7⟩
      have ht2 := lt_of_active h6
      exact ⟨by rw [hs.active2 t ht2]; exact h6, i, Or.inl ((hside ht2 h0).2 h7)⟩
    · by_cases h1 : e = m.num .d1
      · subst h1
        refine ⟨⟨_, _, hs.extremes0, by rw [hs.num0]; omega, by rw [hs.num0]; omega⟩, fun dir => ?_⟩
        obtain ⟨t, h5, h6⟩ := hnew 0 (by omega) dir
        refine ⟨t, h5, h6.imp_right ?_⟩
        rintro ⟨h6, i, h7⟩
        exact ⟨h6, i, Or.inr ⟨Or.inl rfl, h7⟩⟩
      · have h2 : e = m.num .d1 + 1 := by omega
        subst h2
        refine ⟨⟨_, _, hs.extremes1, by rw [hs.num0]; omega, by rw [hs.num0]; omega⟩, fun dir => ?_⟩
        obtain ⟨t, h5, h6⟩ := hnew 1 (by omega) dir
        refine ⟨t, h5, h6.imp_right ?_⟩
        rintro ⟨h6, i, h7⟩
        exact ⟨h6, i, Or.inr ⟨Or.inr rfl, h7⟩⟩

theorem ne_of_nodup {vs : List Nat} (hn : vs.Nodup) {i j x y : Nat} (hx : vs[i]? = some x)
    (hy : vs[j]? = some y) (hij : i ≠ j) : x ≠ y := by
  rintro rfl
  obtain ⟨h1, h2⟩ := List.getElem?_eq_some_iff.1 hx
  obtain ⟨h3, h4⟩ := List.getElem?_eq_some_iff.1 hy
  exact hij ((List.Nodup.getElem_inj_iff hn).1 (h2.trans h4.symm))

/-- What a side says about a triangle with known rows. -/
theorem SideAt.at {m : Mesh α} {t i e : Nat} {dir : Bool} {vs es : List Nat} (h : SideAt m t i e dir)
    (hv : m.row .vert2 t = ok vs) (he : m.row .edge2 t = ok es) :
    i < 3 ∧ es[i]? = some e ∧ ∃ x y, vs[i]? = some x ∧ vs[(i + 1) % 3]? = some y ∧
      m.extremes e = ok (if dir then (x, y) else (y, x)) := by
  obtain ⟨vs', es', x, y, h1, h2, h3, h4, h5, h6, h7⟩ := h
  rw [hv] at h1
  rw [he] at h2
  cases h1
  cases h2
  exact ⟨h3, h4, x, y, h5, h6, h7⟩

theorem Pending.step {m m' : Mesh α} {E h0 h1 w a b t i x y o f g : Nat} {P : Nat → Prop}
    {dir : Bool} {vs es : List Nat} (h : Pending m E h0 h1 w a b P) (small : m.num .d2 + 2 ≤ UINT_MAX)
    (hP : P t) (side : SideAt m t i E dir) (tri : IsTri m t vs es)
    (va : vs[i]? = some x) (vb : vs[(i + 1) % 3]? = some y) (vo : vs[(i + 2) % 3]? = some o)
    (ef : es[(i + 1) % 3]? = some f) (eg : es[(i + 2) % 3]? = some g)
    (hs : TriSplit m m' t w x y o (if dir then h0 else h1) (if dir then h1 else h0) f g) :
    Pending m' E h0 h1 w a b (fun u => P u ∧ u ≠ t) := by
  obtain ⟨hta, hwv, -⟩ := h.pend t hP
  have ht2 := lt_of_active hta
  have hi : i < 3 := side.choose_spec.choose_spec.choose_spec.choose_spec.2.2.1
  have hE1 := lt_of_active h.inactive
  have hl0 := lt_of_active h.active0
  have hl1 := lt_of_active h.active1
  -- the vertices of the triangle
  have xy : x ≠ y := ne_of_nodup tri.nodup va vb (by omega)
  have yo : y ≠ o := ne_of_nodup tri.nodup vb vo (by omega)
  have xo : x ≠ o := ne_of_nodup tri.nodup va vo (by omega)
  have hw := hwv vs tri.vertices
  have wx : w ≠ x := by rintro rfl; exact hw (List.mem_of_getElem? va)
  have wy : w ≠ y := by rintro rfl; exact hw (List.mem_of_getElem? vb)
  have wo : w ≠ o := by rintro rfl; exact hw (List.mem_of_getElem? vo)
  -- the sides of the triangle
  have extE : m.extremes E = ok (if dir then (x, y) else (y, x)) := by
    obtain ⟨-, -, x', y', q1, q2, q3⟩ := side.at tri.vertices tri.edges
    rw [va] at q1; rw [vb] at q2; cases q1; cases q2
    exact q3
  have hab : (a, b) = if dir then (x, y) else (y, x) := by
    exact Res.ok.inj (h.extE.symm.trans extE)
  obtain ⟨-, -, hsd⟩ := h.triangles t hta
  have p1 : ((i + 1) % 3 + 1) % 3 = (i + 2) % 3 := by omega
  have p2 : ((i + 2) % 3 + 1) % 3 = i := by omega
  obtain ⟨f', df, sf, cf⟩ := hsd ((i + 1) % 3) (by omega)
  obtain ⟨g', dg, sg, cg⟩ := hsd ((i + 2) % 3) (by omega)
  obtain ⟨extf, ff⟩ : m.extremes f = ok (if df then (y, o) else (o, y)) ∧ f' = f := by
    obtain ⟨-, q0, x', y', q1, q2, q3⟩ := sf.at tri.vertices tri.edges
    rw [p1] at q2
    rw [ef] at q0; rw [vb] at q1; rw [vo] at q2; cases q0; cases q1; cases q2
    exact ⟨q3, rfl⟩
  obtain ⟨extg, gg⟩ : m.extremes g = ok (if dg then (o, x) else (x, o)) ∧ g' = g := by
    obtain ⟨-, q0, x', y', q1, q2, q3⟩ := sg.at tri.vertices tri.edges
    rw [p2] at q2
    rw [eg] at q0; rw [vo] at q1; rw [va] at q2; cases q0; cases q1; cases q2
    exact ⟨q3, rfl⟩
  subst f' g'
  have ene : ∀ {e e' : Nat} {p p' : Nat × Nat}, m.extremes e = ok p → m.extremes e' = ok p' →
      p ≠ p' → e ≠ e' := by
    rintro e e' p p' q1 q2 q3 rfl
    rw [q1] at q2
    exact q3 (Res.ok.inj q2)
  have fE : f ≠ E := ene extf extE (by
    cases df <;> cases dir <;> simp [xy, yo, xo, xy.symm, yo.symm, xo.symm])
  have gE : g ≠ E := ene extg extE (by
    cases dg <;> cases dir <;> simp [xy, yo, xo, xy.symm, yo.symm, xo.symm])
  obtain ⟨af, slf⟩ := cf.resolve_right (fun c => fE c.1)
  obtain ⟨ag, slg⟩ := cg.resolve_right (fun c => gE c.1)
  have hfl := lt_of_active af
  have hgl := lt_of_active ag
  set ha := if dir then h0 else h1 with hha
  set hb := if dir then h1 else h0 with hhb
  have exta : m.extremes ha = ok (if dir then (x, w) else (w, x)) := by
    rw [hha]
    cases dir
    · simp only [Bool.false_eq_true, if_false, Prod.mk.injEq] at hab ⊢
      rw [← hab.2]; exact h.ext1
    · simp only [if_true, Prod.mk.injEq] at hab ⊢
      rw [← hab.1]; exact h.ext0
  have extb : m.extremes hb = ok (if dir then (w, y) else (y, w)) := by
    rw [hhb]
    cases dir
    · simp only [Bool.false_eq_true, if_false, Prod.mk.injEq] at hab ⊢
      rw [← hab.1]; exact h.ext0
    · simp only [if_true, Prod.mk.injEq] at hab ⊢
      rw [← hab.2]; exact h.ext1
  have aha : m.active .d1 ha = ok true := by
    rw [hha]; cases dir
    · exact h.active1
    · exact h.active0
  have ahb : m.active .d1 hb = ok true := by
    rw [hhb]; cases dir
    · exact h.active0
    · exact h.active1
  have hal := lt_of_active aha
  have hbl := lt_of_active ahb
  have fg : f ≠ g := ene extf extg (by
    cases df <;> cases dg <;> simp [xy, yo, xo, xy.symm, yo.symm, xo.symm])
  have fa : f ≠ ha := ene extf exta (by
    cases df <;> cases dir <;> simp [xy, yo, xo, xy.symm, yo.symm, xo.symm, wx, wy, wo, wo.symm,
      wx.symm, wy.symm])
  have bg : hb ≠ g := ene extb extg (by
    cases dg <;> cases dir <;> simp [xy, yo, xo, xy.symm, yo.symm, xo.symm, wx, wy, wo, wo.symm,
      wx.symm, wy.symm])
  have ba : hb ≠ ha := ene extb exta (by
    cases dir <;> simp [xy, yo, xo, xy.symm, yo.symm, xo.symm, wx, wy, wo, wo.symm,
      wx.symm, wy.symm])
  have Ea : E ≠ ha := by
    intro q; have := h.inactive; rw [q, aha] at this; cases this
  have Eb : E ≠ hb := by
    intro q; have := h.inactive; rw [q, ahb] at this; cases this
  -- the slots
  have hslot : ∀ {e d u}, e < m.num .d1 → SlotIs m e d u → SlotIs m' e d (if u = t then
      (if e = g ∨ e = ha then m.num .d2 else if e = hb ∨ e = f then m.num .d2 + 1 else t) else u) := by
    rintro e d u he ⟨r, l, q1, rfl⟩
    refine ⟨_, _, hs.neighbours e _ he q1, ?_⟩
    cases d <;> rfl
  have hslotne : ∀ {e d u}, e < m.num .d1 → u ≠ t → SlotIs m e d u → SlotIs m' e d u := by
    intro e d u he hu q
    have := hslot he q
    rwa [if_neg hu] at this
  have hslotE : ∀ {d u}, SlotIs m E d u → SlotIs m' E d u := by
    intro d u q
    have := hslot hE1 q
    rw [if_neg (show ¬ (E = g ∨ E = ha) from fun c => c.elim gE.symm Ea),
      if_neg (show ¬ (E = hb ∨ E = f) from fun c => c.elim Eb fE.symm)] at this
    split at this
    · rename_i hu; rw [hu]; exact this
    · exact this
  have slf' : SlotIs m' f df (m.num .d2 + 1) := by
    have := hslot hfl slf
    rwa [if_pos rfl, if_neg (by simp [fg, fa]), if_pos (Or.inr rfl)] at this
  have slg' : SlotIs m' g dg (m.num .d2) := by
    have := hslot hgl slg
    rwa [if_pos rfl, if_pos (Or.inl rfl)] at this
  -- the slots of the halves
  have hhalf : SlotIs m h0 dir t ∧ SlotIs m h1 dir t := by
    obtain ⟨e', d', s', c'⟩ := hsd i hi
    obtain ⟨-, q0, x', y', q1, q2, q3⟩ := s'.at tri.vertices tri.edges
    obtain ⟨-, r0, -⟩ := side.at tri.vertices tri.edges
    rw [va] at q1; rw [vb] at q2; cases q1; cases q2
    rw [q0] at r0; cases r0
    have hd : d' = dir := by
      rw [extE] at q3
      replace q3 := Res.ok.inj q3
      cases d' <;> cases dir <;> simp [xy, xy.symm] at q3 ⊢
    subst hd
    rcases c' with c' | c'
    · rw [h.inactive] at c'; cases c'.1
    · exact c'.2.2
  have sla : SlotIs m ha dir t := by rw [hha]; cases dir; exacts [hhalf.2, hhalf.1]
  have slb : SlotIs m hb dir t := by rw [hhb]; cases dir; exacts [hhalf.1, hhalf.2]
  have sla' : SlotIs m' ha dir (m.num .d2) := by
    have := hslot hal sla
    rwa [if_pos rfl, if_pos (Or.inr rfl)] at this
  have slb' : SlotIs m' hb dir (m.num .d2 + 1) := by
    have := hslot hbl slb
    rwa [if_pos rfl, if_neg (by simp [bg, ba]), if_pos (Or.inl rfl)] at this
  -- the sides
  have hside : ∀ {u j e d}, u < m.num .d2 → e < m.num .d1 →
      (SideAt m' u j e d ↔ SideAt m u j e d) := by
    intro u j e d hu he
    exact SideAt.congr (hs.vertices u hu) (hs.edges u hu) (hs.extremes e he)
  have s00 : SideAt m' (m.num .d2) 0 g dg :=
    ⟨_, _, o, x, hs.vertices0, hs.edges0, by omega, rfl, rfl, rfl, by
      rw [hs.extremes g hgl]; exact extg⟩
  have s01 : SideAt m' (m.num .d2) 1 ha dir :=
    ⟨_, _, x, w, hs.vertices0, hs.edges0, by omega, rfl, rfl, rfl, by
      rw [hs.extremes ha hal]; exact exta⟩
  have s02 : SideAt m' (m.num .d2) 2 (m.num .d1) true :=
    ⟨_, _, w, o, hs.vertices0, hs.edges0, by omega, rfl, rfl, rfl, hs.extremesNew⟩
  have s10 : SideAt m' (m.num .d2 + 1) 0 hb dir :=
    ⟨_, _, w, y, hs.vertices1, hs.edges1, by omega, rfl, rfl, rfl, by
      rw [hs.extremes hb hbl]; exact extb⟩
  have s11 : SideAt m' (m.num .d2 + 1) 1 f df :=
    ⟨_, _, y, o, hs.vertices1, hs.edges1, by omega, rfl, rfl, rfl, by
      rw [hs.extremes f hfl]; exact extf⟩
  have s12 : SideAt m' (m.num .d2 + 1) 2 (m.num .d1) false :=
    ⟨_, _, o, w, hs.vertices1, hs.edges1, by omega, rfl, rfl, rfl, hs.extremesNew⟩
  have slN0 : SlotIs m' (m.num .d1) true (m.num .d2) := ⟨_, _, hs.neighboursNew, rfl⟩
  have slN1 : SlotIs m' (m.num .d1) false (m.num .d2 + 1) := ⟨_, _, hs.neighboursNew, rfl⟩
  have act1 : ∀ {e}, m.active .d1 e = ok true → m'.active .d1 e = ok true := by
    intro e he
    rw [hs.active1 e (lt_of_active he)]; exact he
  have act2 : ∀ {u}, u ≠ t → m.active .d2 u = ok true → m'.active .d2 u = ok true := by
    intro u hu he
    rw [hs.active2 u (lt_of_active he) hu]; exact he
  have act2' : ∀ {u}, u < m.num .d2 → m'.active .d2 u = ok true → u ≠ t ∧ m.active .d2 u = ok true := by
    intro u hu he
    have hut : u ≠ t := by
      rintro rfl
      rw [hs.inactive] at he; cases he
    rw [hs.active2 u hu hut] at he
    exact ⟨hut, he⟩
  have xlt := tri.lt x (List.mem_of_getElem? va)
  have ylt := tri.lt y (List.mem_of_getElem? vb)
  have olt := tri.lt o (List.mem_of_getElem? vo)
  have wlt := h.wlt
  have n0 := hs.num0
  constructor
  · exact hs.wf
  · rw [hs.num2]; exact small
  · rw [hs.extremes E hE1]; exact h.extE
  · rw [hs.active1 E hE1]; exact h.inactive
  · rw [hs.extremes h0 hl0]; exact h.ext0
  · rw [hs.extremes h1 hl1]; exact h.ext1
  · exact act1 h.active0
  · exact act1 h.active1
  · exact h.ab
  · exact h.wa
  · exact h.wb
  · omega
  · rintro u ⟨hu, hut⟩
    obtain ⟨q1, q2, j, d, q3, q4⟩ := h.pend u hu
    have hul := lt_of_active q1
    refine ⟨act2 hut q1, fun vs' hv => ?_, j, d, (hside hul hE1).2 q3, hslotE q4⟩
    rw [hs.vertices u hul] at hv
    exact q2 vs' hv
  · intro u hu
    have hul := lt_of_active hu
    rw [hs.num2] at hul
    by_cases c : u < m.num .d2
    · obtain ⟨hut, hum⟩ := act2' c hu
      obtain ⟨q1, ⟨vs', es', tri'⟩, q2⟩ := h.triangles u hum
      refine ⟨by rw [hs.updated u c hut]; exact q1, ⟨vs', es', ?_⟩, fun j hj => ?_⟩
      · exact ⟨by rw [hs.vertices u c]; exact tri'.vertices, by rw [hs.edges u c]; exact tri'.edges,
          tri'.vlen, tri'.elen, tri'.nodup, fun v hv => by rw [n0]; exact tri'.lt v hv⟩
      · obtain ⟨e, d, q3, q4⟩ := q2 j hj
        rcases q4 with ⟨q4, q5⟩ | ⟨rfl, q4, q5, q6⟩
        · have hel := lt_of_active q4
          exact ⟨e, d, (hside c hel).2 q3, Or.inl ⟨act1 q4, hslotne hel hut q5⟩⟩
        · exact ⟨e, d, (hside c hE1).2 q3, Or.inr ⟨rfl, ⟨q4, hut⟩, hslotne hl0 hut q5,
            hslotne hl1 hut q6⟩⟩
    · by_cases c0 : u = m.num .d2
      · subst c0
        refine ⟨hs.updatedNew 0 (by omega), ⟨_, _, hs.vertices0, hs.edges0, rfl, rfl, ?_, ?_⟩, ?_⟩
        · simp [xo.symm, wo.symm, wx.symm]
        · intro v hv
          simp only [List.mem_cons, List.not_mem_nil, or_false] at hv
          omega
        · intro j hj
          interval_cases j
          · exact ⟨g, dg, s00, Or.inl ⟨act1 ag, slg'⟩⟩
          · exact ⟨ha, dir, s01, Or.inl ⟨act1 aha, sla'⟩⟩
          · exact ⟨_, true, s02, Or.inl ⟨hs.active1New, slN0⟩⟩
      · have c1 : u = m.num .d2 + 1 := by omega
        subst c1
        refine ⟨hs.updatedNew 1 (by omega), ⟨_, _, hs.vertices1, hs.edges1, rfl, rfl, ?_, ?_⟩, ?_⟩
        · simp [wo, wy, yo]
        · intro v hv
          simp only [List.mem_cons, List.not_mem_nil, or_false] at hv
          omega
        · intro j hj
          interval_cases j
          · exact ⟨hb, dir, s10, Or.inl ⟨act1 ahb, slb'⟩⟩
          · exact ⟨f, df, s11, Or.inl ⟨act1 af, slf'⟩⟩
          · exact ⟨_, false, s12, Or.inl ⟨hs.active1New, slN1⟩⟩
  · intro e he
    have hel := lt_of_active he
    rw [hs.num1] at hel
    by_cases c : e < m.num .d1
    · rw [hs.active1 e c] at he
      obtain ⟨⟨x', y', q1, q2, q3⟩, q4⟩ := h.edges e he
      refine ⟨⟨x', y', by rw [hs.extremes e c]; exact q1, by omega, by omega⟩, fun d => ?_⟩
      obtain ⟨u, q5, q6⟩ := q4 d
      by_cases hut : u = t
      · subst hut
        rcases q6 with q6 | ⟨-, j, q6⟩
        · omega
        · rcases q6 with q6 | ⟨q7, -, q6⟩
          · obtain ⟨hj, r0, x'', y'', r1, r2, r3⟩ := q6.at tri.vertices tri.edges
            have hj' : j = i ∨ j = (i + 1) % 3 ∨ j = (i + 2) % 3 := by omega
            rcases hj' with rfl | rfl | rfl
            · obtain ⟨-, r0', -⟩ := side.at tri.vertices tri.edges
              rw [r0] at r0'
              cases r0'
              rw [h.inactive] at he; cases he
            · rw [p1, vo] at r2
              rw [vb] at r1
              rw [ef] at r0
              cases r0; cases r1; cases r2
              have hd : d = df := by
                rw [extf] at r3
                replace r3 := Res.ok.inj r3
                cases d <;> cases df <;> simp [yo, yo.symm] at r3 ⊢
              subst hd
              exact ⟨_, slf', Or.inr ⟨hs.active2New 1 (by omega), 1, Or.inl s11⟩⟩
            · rw [p2, va] at r2
              rw [vo] at r1
              rw [eg] at r0
              cases r0; cases r1; cases r2
              have hd : d = dg := by
                rw [extg] at r3
                replace r3 := Res.ok.inj r3
                cases d <;> cases dg <;> simp [xo, xo.symm] at r3 ⊢
              subst hd
              exact ⟨_, slg', Or.inr ⟨hs.active2New 0 (by omega), 0, Or.inl s00⟩⟩
          · obtain ⟨hj, r0, x'', y'', r1, r2, r3⟩ := q6.at tri.vertices tri.edges
            have hj' : j = i ∨ j = (i + 1) % 3 ∨ j = (i + 2) % 3 := by omega
            rcases hj' with rfl | rfl | rfl
            · rw [va] at r1
              rw [vb] at r2
              cases r1; cases r2
              have hd : d = dir := by
                rw [extE] at r3
                replace r3 := Res.ok.inj r3
                cases d <;> cases dir <;> simp [xy, xy.symm] at r3 ⊢
              subst hd
              have hab' : e = ha ∨ e = hb := by
                rw [hha, hhb]
                cases d
                · simpa [or_comm] using q7
                · simpa using q7
              rcases hab' with q8 | q8
              · rw [q8]
                exact ⟨_, sla', Or.inr ⟨hs.active2New 0 (by omega), 1, Or.inl s01⟩⟩
              · rw [q8]
                exact ⟨_, slb', Or.inr ⟨hs.active2New 1 (by omega), 0, Or.inl s10⟩⟩
            · rw [ef] at r0
              cases r0
              exact absurd rfl fE
            · rw [eg] at r0
              cases r0
              exact absurd rfl gE
      · refine ⟨u, hslotne c hut q5, q6.imp_right ?_⟩
        rintro ⟨q6, j, q7⟩
        have hul := lt_of_active q6
        refine ⟨act2 hut q6, j, ?_⟩
        rcases q7 with q7 | ⟨q7, q8, q9⟩
        · exact Or.inl ((hside hul c).2 q7)
        · exact Or.inr ⟨q7, ⟨q8, hut⟩, (hside hul hE1).2 q9⟩
    · have c1 : e = m.num .d1 := by omega
      subst c1
      refine ⟨⟨w, o, hs.extremesNew, by omega, by omega⟩, fun d => ?_⟩
      cases d
      · exact ⟨_, slN1, Or.inr ⟨hs.active2New 1 (by omega), 2, Or.inl s12⟩⟩
      · exact ⟨_, slN0, Or.inr ⟨hs.active2New 0 (by omega), 2, Or.inl s02⟩⟩

end Verif
