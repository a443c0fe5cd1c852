import Verif.CheckLemmas

/-
Helper lemmas: what each part of the check of a mesh accepts.
-/
namespace Verif

open Res

variable {K : Type} [Field K] [LinearOrder K] [IsStrictOrderedRing K]
variable {g : GeoCfg K} {sqrt : K → K} {m : Mesh K}

theorem point_lt {i : Nat} {p : V3 K} (h : m.point i = ok p) : i < m.num .d0 := by
  unfold Mesh.point Mesh.coordinates at h
  by_contra hc
  rw [assert_false hc] at h
  cases h

theorem point_of_lt (h : m.WF) {i : Nat} (hi : i < m.num .d0) : ∃ p, m.point i = ok p := by
  obtain ⟨c, hc⟩ := Mesh.coordinates_exists h hi
  exact ⟨_, by unfold Mesh.point; rw [hc, ok_bind]⟩

theorem sub_norm (a b : V3 K) : (b.sub a).norm sqrt = sqrt (dist2 a b) := by
  unfold V3.norm
  congr 1
  simp only [V3.dot, V3.sub, dist2]
  ring

theorem dist2_swap (a b : V3 K) : dist2 a b = dist2 b a := by
  unfold dist2; ring

theorem sqrt_dist2_nonneg (hs : IsSqrt sqrt) (a b : V3 K) : 0 ≤ sqrt (dist2 a b) := by
  rw [← sub_norm (sqrt := sqrt)]
  exact norm_nonneg' hs _

theorem pointsAre2D_ok {ps : List (V3 K)} :
    (do let flat ← g.pointsAre2D ps; assert (flat = true)) = ok ⟨⟩ ↔
      0 < ps.length ∧ ∀ p ∈ ps, |p.z| ≤ g.tolerance1D := by
  unfold GeoCfg.pointsAre2D
  by_cases h : 0 < ps.length
  · rw [assert_true h, ok_bind, ok_bind, assert_eq_ok, List.all_eq_true]
    simp only [decide_eq_true_eq]
    exact ⟨fun hc => ⟨h, hc⟩, fun hc => hc.2⟩
  · rw [assert_false h, abort_bind, abort_bind]
    constructor
    · intro hc; cases hc
    · intro hc; exact absurd hc.1 h

theorem checkPlanar_ok (h : m.WF) : g.checkPlanar m = ok () ↔ Planar g m := by
  have hex : ∃ ps, mapRes m.point (List.range (m.num .d0)) = ok ps := by
    obtain ⟨cs, h1, -⟩ := mapRes_forall₂ (f := m.point) (R := fun _ _ => True) (l := List.range (m.num .d0))
      (fun i hi => by obtain ⟨p, hp⟩ := point_of_lt h (List.mem_range.1 hi); exact ⟨p, hp, trivial⟩)
    exact ⟨cs, h1⟩
  obtain ⟨ps, hps⟩ := hex
  have hf := mapRes_eq_ok.1 hps
  have hlen : ps.length = m.num .d0 := by rw [← hf.length_eq, List.length_range]
  unfold GeoCfg.checkPlanar
  rw [hps, ok_bind, pointsAre2D_ok, hlen]
  constructor
  · rintro ⟨h1, h2⟩
    refine ⟨h1, fun i p hp => ?_⟩
    obtain ⟨q, hq, hq'⟩ := forall₂_getElem? hf (i := i) (b := i) (List.getElem?_range (point_lt hp))
    rw [hp] at hq'
    obtain rfl := ok.inj hq'
    exact h2 _ (List.mem_of_getElem? hq)
  · rintro ⟨h1, h2⟩
    refine ⟨h1, fun p hp => ?_⟩
    obtain ⟨i, hi, rfl⟩ := List.getElem_of_mem hp
    have := (List.forall₂_iff_get.1 hf).2 i (by rw [List.length_range]; omega) hi
    exact h2 _ _ this

theorem notZero_ok (h0 : 0 ≤ g.minTolerance) (hs : IsSqrt sqrt) (a b : V3 K) :
    g.isValueZero ((b.sub a).norm sqrt) g.tol1D = false ↔ g.tol1D < sqrt (dist2 a b) := by
  rw [← Bool.not_eq_true, g.zero_1D h0, sub_norm, abs_of_nonneg (sqrt_dist2_nonneg hs a b), not_le]

theorem checkVertices_ok (h : m.WF) (h0 : 0 ≤ g.minTolerance) (hs : IsSqrt sqrt) :
    g.checkVertices sqrt m = ok () ↔ VerticesApart g sqrt m := by
  unfold GeoCfg.checkVertices
  rw [forEach0_ok]
  simp only [forEach_ok]
  constructor
  · intro H
    have key : ∀ i j p q, i < j → m.point i = ok p → m.point j = ok q → g.tol1D < sqrt (dist2 p q) := by
      intro i j p q hij hp hq
      have := H i (point_lt hp) j (by omega) (point_lt hq)
      rw [hp, ok_bind, hq, ok_bind, assert_eq_ok, notZero_ok h0 hs] at this
      exact this
    intro i j p q hij hp hq
    rcases Nat.lt_or_ge i j with hlt | hge
    · exact key i j p q hlt hp hq
    · rw [dist2_swap]
      exact key j i q p (by omega) hq hp
  · intro H i hi j hij hj
    obtain ⟨p, hp⟩ := point_of_lt h hi
    obtain ⟨q, hq⟩ := point_of_lt h hj
    rw [hp, ok_bind, hq, ok_bind, assert_eq_ok, notZero_ok h0 hs]
    exact H i j p q (by omega) hp hq

theorem checkEdgeCopies_ok (h : m.WF) : m.checkEdgeCopies = ok () ↔ EdgesUnique m := by
  unfold Mesh.checkEdgeCopies
  rw [forEach0_ok]
  constructor
  · intro H
    -- what one round gives
    have key : ∀ e x y, m.extremes e = ok (x, y) → x < m.num .d0 ∧ y < m.num .d0 ∧ x ≠ y ∧
        ∀ f, e < f → ¬ Joins m f x y := by
      intro e x y he
      have hR := H e (extremes_lt he)
      rw [he, ok_bind, bind_eq_ok] at hR
      obtain ⟨f, hf, hR⟩ := hR
      rw [bind_eq_ok] at hR
      obtain ⟨⟨⟩, h1, hR⟩ := hR
      rw [bind_eq_ok] at hR
      obtain ⟨b, hb, hR⟩ := hR
      rw [bind_eq_ok] at hR
      obtain ⟨⟨⟩, h2, hR⟩ := hR
      obtain rfl := assert_eq_ok.1 h1
      have h2 := assert_eq_ok.1 h2
      obtain ⟨hx, hy, -, -, -⟩ := byExt_found h hf
      obtain ⟨-, -, -, hn, -⟩ := byExt_found h hb
      refine ⟨hx, hy, ?_, ?_⟩
      · intro hxy
        refine hn f (by rw [h2]; exact extremes_lt he) ?_
        rw [he, hxy]
      · intro f' hf' hj
        rw [forEach_ok] at hR
        have hlt : f' < m.num .d1 := by
          rcases hj with hj | hj <;> exact extremes_lt hj
        have := hR f' (by omega) hlt
        rcases hj with hj | hj <;> rw [hj, ok_bind, bind_eq_ok] at this <;> obtain ⟨⟨⟩, h3, h4⟩ := this
        · exact assert_eq_ok.1 h3 ⟨rfl, rfl⟩
        · exact assert_eq_ok.1 h4 ⟨rfl, rfl⟩
    intro e x y he
    obtain ⟨h1, h2, h3, h4⟩ := key e x y he
    refine ⟨h1, h2, h3, fun f hf => ?_⟩
    rcases Nat.lt_trichotomy e f with hlt | heq | hgt
    · exact absurd hf (h4 f hlt)
    · exact heq.symm
    · exfalso
      rcases hf with hf | hf
      · exact (key f x y hf).2.2.2 e hgt (Or.inl he)
      · exact (key f y x hf).2.2.2 e hgt (Or.inr he)
  · intro H e he
    obtain ⟨⟨x, y⟩, hx⟩ := Mesh.extremes_exists h he
    obtain ⟨h1, h2, h3, h4⟩ := H e x y hx
    obtain ⟨a, ha⟩ := byExt_exists h h1 h2
    obtain ⟨b, hb⟩ := byExt_exists h h2 h1
    rw [hx, ok_bind, ha, ok_bind]
    have hae : a = e := by
      obtain ⟨-, -, i1, i2, i3⟩ := byExt_found h ha
      rcases Nat.lt_or_ge a (m.num .d1) with hlt | hge
      · exact h4 a (Or.inl (i3 hlt))
      · exact absurd hx (i2 e (by omega))
    have hbn : b = m.num .d1 := by
      obtain ⟨-, -, i1, i2, i3⟩ := byExt_found h hb
      rcases Nat.lt_or_ge b (m.num .d1) with hlt | hge
      · have i3 := i3 hlt
        obtain rfl := h4 b (Or.inr i3)
        rw [hx] at i3
        exact absurd (Prod.mk.inj (ok.inj i3)).1 h3
      · omega
    rw [assert_true hae, ok_bind, hb, ok_bind, assert_true hbn, ok_bind, forEach_ok]
    intro f hf hfl
    obtain ⟨⟨x', y'⟩, hx'⟩ := Mesh.extremes_exists h hfl
    rw [hx', ok_bind, assert_true, ok_bind, assert_true]
    · rintro ⟨i1, i2⟩
      simp only at i1 i2
      subst i1 i2
      have := h4 f (Or.inr hx')
      omega
    · rintro ⟨i1, i2⟩
      simp only at i1 i2
      subst i1 i2
      have := h4 f (Or.inl hx')
      omega

theorem checkLengths_ok (h : m.WF) (h0 : 0 ≤ g.minTolerance) (hs : IsSqrt sqrt) :
    g.checkLengths sqrt m = ok () ↔ EdgesLong g sqrt m := by
  have key : ∀ a b : V3 K, g.isValuePositive ((b.sub a).norm sqrt) g.tol1D = true ↔
      g.tol1D < sqrt (dist2 a b) := by
    intro a b
    rw [(c27_sign g _ _).1, g.max_tol1D h0, sub_norm]
  unfold GeoCfg.checkLengths
  rw [forEach0_ok]
  constructor
  · intro H e x y he
    have := H e (extremes_lt he)
    rw [he, ok_bind, bind_eq_ok] at this
    obtain ⟨p, hp, this⟩ := this
    rw [bind_eq_ok] at this
    obtain ⟨q, hq, this⟩ := this
    rw [assert_eq_ok, key] at this
    exact ⟨p, q, hp, hq, this⟩
  · intro H e he
    obtain ⟨⟨x, y⟩, hx⟩ := Mesh.extremes_exists h he
    obtain ⟨p, q, hp, hq, hpq⟩ := H e x y hx
    rw [hx, ok_bind, hp, ok_bind, hq, ok_bind, assert_eq_ok, key]
    exact hpq

theorem mod_next_lt {n k : Nat} (h : k < n) : (k + 1) % n < n := Nat.mod_lt _ (by omega)

theorem checkSides_sound (h : m.WF) (H : m.checkSides = ok ()) : PolygonsClosed m := by
  intro p hp
  unfold Mesh.checkSides at H
  rw [forEach0_ok] at H
  have H := H p hp
  obtain ⟨vs, hvs⟩ := Mesh.row_exists h .vert2 hp
  obtain ⟨es, hes⟩ := Mesh.row_exists h .edge2 hp
  rw [rowSize_of_row h hes, ok_bind, forEach0_ok] at H
  have key : ∀ k, k < es.length → ∃ x y e, vs[k]? = some x ∧ vs[(k + 1) % es.length]? = some y ∧
      es[k]? = some e ∧ ((m.extremes e = ok (x, y) ∧ ∀ j f, j < k → es[j]? = some f → m.extremes f ≠ ok (x, y)) ∨
        (m.extremes e = ok (y, x) ∧ ∀ j f, j < k → es[j]? = some f → m.extremes f ≠ ok (y, x))) := by
    intro k hk
    have := H k hk
    rw [bind_eq_ok] at this
    obtain ⟨x, hx, this⟩ := this
    rw [bind_eq_ok] at this
    obtain ⟨y, hy, this⟩ := this
    rw [bind_eq_ok] at this
    obtain ⟨a, ha, this⟩ := this
    rw [bind_eq_ok] at this
    obtain ⟨b, hb, this⟩ := this
    rw [assert_eq_ok] at this
    refine ⟨x, y, es[k], entry_eq_ok h hvs hx, entry_eq_ok h hvs hy, List.getElem?_eq_getElem hk, ?_⟩
    rcases this with ⟨-, rfl⟩ | ⟨-, rfl⟩
    · left
      obtain ⟨-, h2, h3⟩ := findEdge_found h hes ha
      obtain ⟨e, he, hx'⟩ := h3 hk
      rw [List.getElem?_eq_getElem hk] at he
      obtain rfl := Option.some.inj he
      exact ⟨hx', h2⟩
    · right
      obtain ⟨-, h2, h3⟩ := findEdge_found h hes hb
      obtain ⟨e, he, hx'⟩ := h3 hk
      rw [List.getElem?_eq_getElem hk] at he
      obtain rfl := Option.some.inj he
      exact ⟨hx', h2⟩
  refine ⟨vs, es, hvs, hes, ?_, ?_, ?_⟩
  · rw [List.nodup_iff_getElem?_ne_getElem?]
    intro i j hij hj heq
    obtain ⟨x, y, e, -, -, he, hk⟩ := key j hj
    rcases hk with ⟨hx, hn⟩ | ⟨hx, hn⟩
    · exact hn i e hij (heq.trans he) hx
    · exact hn i e hij (heq.trans he) hx
  · rcases Nat.eq_zero_or_pos es.length with h0 | h0
    · omega
    · obtain ⟨x, y, e, hx, -⟩ := key (es.length - 1) (by omega)
      have := (List.getElem?_eq_some_iff.1 hx).1
      omega
  · intro k e he
    obtain ⟨x, y, e', hx, hy, he', hk⟩ := key k (List.getElem?_eq_some_iff.1 he).1
    rw [he] at he'
    obtain rfl := Option.some.inj he'
    exact ⟨x, y, hx, hy, hk.imp And.left And.left⟩

theorem SidesJoin.lt {p : Nat} {vs es : List Nat} (H : SidesJoin m p vs es) : ∀ e ∈ es, e < m.num .d1 := by
  intro e he
  obtain ⟨k, hk, rfl⟩ := List.getElem_of_mem he
  obtain ⟨x, y, -, -, hj⟩ := H.sides k _ (List.getElem?_eq_getElem hk)
  rcases hj with hj | hj <;> exact extremes_lt hj

theorem checkSides_complete (h : m.WF) (hu : EdgesUnique m) (H : PolygonsClosed m) : m.checkSides = ok () := by
  unfold Mesh.checkSides
  rw [forEach0_ok]
  intro p hp
  obtain ⟨vs, es, S⟩ := H p hp
  have hes := S.edges
  have hv := S.lt
  rw [rowSize_of_row h hes, ok_bind, forEach0_ok]
  intro k hk
  obtain ⟨x, y, hx, hy, hj⟩ := S.sides k es[k] (List.getElem?_eq_getElem hk)
  obtain ⟨a, ha⟩ := findEdge_exists (a := x) (b := y) h hes hv
  obtain ⟨b, hb⟩ := findEdge_exists (a := y) (b := x) h hes hv
  rw [entry_of_row h S.vertices hx, ok_bind, entry_of_row h S.vertices hy, ok_bind, ha, ok_bind, hb, ok_bind,
    assert_eq_ok]
  rcases hj with hj | hj
  · left
    have := findEdge_at h hes hv S.nodup (List.getElem?_eq_getElem hk) hj
      (fun f hf => (hu _ _ _ hj).2.2.2 f (Or.inl hf))
    rw [ha] at this
    have := ok.inj this
    omega
  · right
    have := findEdge_at h hes hv S.nodup (List.getElem?_eq_getElem hk) hj
      (fun f hf => (hu _ _ _ hj).2.2.2 f (Or.inl hf))
    rw [hb] at this
    have := ok.inj this
    omega

theorem checkNeighbours_sound (h : m.WF) (hc : CountsAgree m) (H : m.checkNeighbours = ok ()) :
    NeighboursHaveEdge m := by
  intro e r hr
  unfold Mesh.checkNeighbours at H
  rw [forEach0_ok] at H
  have H := H e (row_lt hr)
  rw [rowSize_of_row h hr, ok_bind, bind_eq_ok] at H
  obtain ⟨⟨⟩, h1, H⟩ := H
  have h1 := assert_eq_ok.1 h1
  rw [forEach0_ok] at H
  refine ⟨by rintro rfl; simp at h1, fun t ht hlt => ?_⟩
  obtain ⟨n, hn, rfl⟩ := List.getElem_of_mem ht
  have H := H n hn
  have hn' : r[n]? = some r[n] := List.getElem?_eq_getElem hn
  have hlt' : r[n] < m.num (Lst.owner .edge2) := hlt
  obtain ⟨es, hes⟩ := Mesh.row_exists h .edge2 hlt'
  obtain ⟨vs, hvs⟩ := Mesh.row_exists h .vert2 hlt
  refine ⟨es, hes, ?_⟩
  unfold Mesh.checkNeighbour at H
  rw [hasEntry_of_row h hr hn', ok_bind, if_pos (show decide (_ < m.num (Lst.target .nb12)) = true from decide_eq_true hlt), entry_of_row h hr hn', ok_bind,
    rowSize_of_row h hes, ok_bind] at H
  unfold Mesh.findEntry at H
  rw [hes, ok_bind, ok_bind] at H
  split at H
  · cases H
  · rw [bind_eq_ok] at H
    obtain ⟨o, -, H⟩ := H
    rw [bind_eq_ok] at H
    obtain ⟨d, hd, -⟩ := H
    have := (List.getElem?_eq_some_iff.1 (entry_eq_ok h hvs hd)).1
    rw [hc _ vs es hvs hes] at this
    exact List.mem_of_getElem? ((findIn_spec es e).2.1 this)

theorem checkNeighbours_complete (h : m.WF) (hu : EdgesUnique m) (hp : PolygonsClosed m)
    (H : NeighboursHaveEdge m) : m.checkNeighbours = ok () := by
  unfold Mesh.checkNeighbours
  rw [forEach0_ok]
  intro e he
  obtain ⟨r, hr⟩ := Mesh.row_exists h .nb12 he
  obtain ⟨h1, h2⟩ := H e r hr
  rw [rowSize_of_row h hr, ok_bind, assert_true (List.length_pos_iff.2 h1), ok_bind, forEach0_ok]
  intro n hn
  have hn' : r[n]? = some r[n] := List.getElem?_eq_getElem hn
  unfold Mesh.checkNeighbour
  rw [hasEntry_of_row h hr hn', ok_bind]
  by_cases hlt : r[n] < m.num .d2
  · obtain ⟨vs, es, S⟩ := hp _ hlt
    obtain ⟨es', hes', hmem⟩ := h2 _ (List.getElem_mem hn) hlt
    have hes := S.edges
    rw [hes] at hes'
    obtain rfl := ok.inj hes'
    have hv := S.lt
    have hk := (findIn_spec es e).2.2 hmem
    have hke := (findIn_spec es e).2.1 hk
    obtain ⟨x, y, hx, hy, hj⟩ := S.sides _ _ hke
    rw [if_pos (show decide (_ < m.num (Lst.target .nb12)) = true from decide_eq_true hlt), entry_of_row h hr hn', ok_bind, rowSize_of_row h hes, ok_bind]
    unfold Mesh.findEntry
    rw [hes, ok_bind, ok_bind, if_neg (by omega), entry_of_row h S.vertices hy, ok_bind,
      entry_of_row h S.vertices hx, ok_bind]
    rcases hj with hj | hj
    · obtain ⟨-, -, hne, huniq⟩ := hu _ _ _ hj
      have ha : m.findEdgeByExt .edge2 r[n] y x = ok es.length := findEdge_none h hes hv (fun f hf => by
        obtain rfl := huniq f (Or.inr hf)
        rw [hj] at hf
        exact hne (Prod.mk.inj (ok.inj hf)).1)
      have hb := findEdge_at h hes hv S.nodup hke hj (fun f hf => huniq f (Or.inl hf))
      rw [ha, ok_bind, if_pos (Or.inr rfl), hb, ok_bind, assert_true (Or.inr ⟨rfl, rfl⟩)]
    · obtain ⟨-, -, hne, huniq⟩ := hu _ _ _ hj
      have hb : m.findEdgeByExt .edge2 r[n] x y = ok es.length := findEdge_none h hes hv (fun f hf => by
        obtain rfl := huniq f (Or.inr hf)
        rw [hj] at hf
        exact hne (Prod.mk.inj (ok.inj hf)).1)
      have ha := findEdge_at h hes hv S.nodup hke hj (fun f hf => huniq f (Or.inl hf))
      rw [ha, ok_bind, if_pos (Or.inl rfl), hb, ok_bind, assert_true (Or.inl ⟨rfl, rfl⟩)]
  · rw [if_neg (show ¬ decide (_ < m.num (Lst.target .nb12)) = true from fun hc => hlt (of_decide_eq_true hc))]

theorem copies_iff (a b : List Nat) :
    (a.mergeSort.length ≠ b.mergeSort.length ∨ ¬ a.mergeSort = b.mergeSort) ↔ ¬ a.Perm b := by
  constructor
  · rintro (h | h) hp
    · exact h (by rw [(mergeSort_eq_iff a b).2 hp])
    · exact h ((mergeSort_eq_iff a b).2 hp)
  · intro h
    exact Or.inr fun hc => h ((mergeSort_eq_iff a b).1 hc)

theorem checkPolygonCopies_ok (h : m.WF) : m.checkPolygonCopies = ok () ↔ PolygonsDiffer m := by
  unfold Mesh.checkPolygonCopies
  rw [forEach0_ok]
  constructor
  · intro H
    have key : ∀ p q vs vs' es es', p < q → m.row .vert2 p = ok vs → m.row .vert2 q = ok vs' →
        m.row .edge2 p = ok es → m.row .edge2 q = ok es' → ¬ vs.Perm vs' ∧ ¬ es.Perm es' := by
      intro p q vs vs' es es' hpq h1 h2 h3 h4
      have := H p (row_lt h1)
      rw [h1, ok_bind, h3, ok_bind, forEach_ok] at this
      have := this q (by omega) (row_lt h2)
      rw [h2, ok_bind, h4, ok_bind, bind_eq_ok] at this
      obtain ⟨⟨⟩, i1, i2⟩ := this
      exact ⟨(copies_iff _ _).1 (assert_eq_ok.1 i1), (copies_iff _ _).1 (assert_eq_ok.1 i2)⟩
    intro p q vs vs' es es' hpq h1 h2 h3 h4
    rcases Nat.lt_or_ge p q with hlt | hge
    · exact key p q vs vs' es es' hlt h1 h2 h3 h4
    · obtain ⟨i1, i2⟩ := key q p vs' vs es' es (by omega) h2 h1 h4 h3
      exact ⟨fun hc => i1 hc.symm, fun hc => i2 hc.symm⟩
  · intro H p hp
    obtain ⟨vs, h1⟩ := Mesh.row_exists h .vert2 hp
    obtain ⟨es, h3⟩ := Mesh.row_exists h .edge2 hp
    rw [h1, ok_bind, h3, ok_bind, forEach_ok]
    intro q hpq hq
    obtain ⟨vs', h2⟩ := Mesh.row_exists h .vert2 hq
    obtain ⟨es', h4⟩ := Mesh.row_exists h .edge2 hq
    obtain ⟨i1, i2⟩ := H p q vs vs' es es' (by omega) h1 h2 h3 h4
    rw [h2, ok_bind, h4, ok_bind, assert_true ((copies_iff _ _).2 i1), ok_bind, assert_true ((copies_iff _ _).2 i2)]

theorem cellPoints_ok {p : Nat} {ps : List (V3 K)} : m.cellPoints p = ok ps ↔ CornersAre m p ps := by
  unfold Mesh.cellPoints CornersAre
  rw [bind_eq_ok]
  simp only [mapRes_eq_ok]

theorem area_shoelace {ps : List (V3 K)} (h2 : 2 < ps.length) (hf : ∀ q ∈ ps, |q.z| ≤ g.tolerance1D) :
    g.polygonArea ps = ok (shoelace ps / 2) := by
  rw [g.polygonArea_eq ps h2 hf]
  congr 1
  have : closedSum crossZ ps = shoelace ps := rfl
  rw [this]
  ring

theorem checkAreas_ok {tol2D : K} : g.checkAreas tol2D m = ok () ↔ AreasPositive g tol2D m := by
  unfold GeoCfg.checkAreas
  rw [forEach0_ok]
  constructor
  · intro H p hp
    have := H p hp
    rw [bind_eq_ok] at this
    obtain ⟨ps, hps, this⟩ := this
    rw [bind_eq_ok] at this
    obtain ⟨a, ha, this⟩ := this
    by_cases hc : 2 < ps.length ∧ g.Flat ps
    · rw [area_shoelace hc.1 hc.2] at ha
      obtain rfl := ok.inj ha
      rw [assert_eq_ok, (c27_sign g _ _).1] at this
      exact ⟨ps, cellPoints_ok.1 hps, hc.1, hc.2, this⟩
    · rw [g.polygonArea_abort ps hc] at ha
      cases ha
  · intro H p hp
    obtain ⟨ps, hps, h2, hf, ha⟩ := H p hp
    rw [cellPoints_ok.2 hps, ok_bind, area_shoelace h2 hf, ok_bind, assert_eq_ok, (c27_sign g _ _).1]
    exact ha

theorem unaligned_ok {ps us : List (V3 K)} (h2 : 2 < ps.length) (hu : IsUnaligned g sqrt ps us) :
    ∃ ids, g.unalignedPoints sqrt ps 0 = ok ids ∧ extractPoints ps ids = ok us := by
  obtain ⟨ids, h1, hsel, hi⟩ := hu
  obtain ⟨r, all, e1, e2, e3, e4⟩ := (c72_unaligned g sqrt ps 0).2.2 h2
  rw [if_pos rfl] at e2
  subst e2
  have : r = ids := List.Perm.eq_of_pairwise (le := (· < ·)) (fun a b _ _ h1 h2 => by omega) e3 h1
    ((List.perm_ext_iff_of_nodup (e3.imp (fun h => Nat.ne_of_lt h)) (h1.imp (fun h => Nat.ne_of_lt h))).2
      (fun i => (e4 i).trans (hi i).symm))
  subst this
  exact ⟨r, e1, extractPoints_eq _ _ _ hsel⟩

end Verif
