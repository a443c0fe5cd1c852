import Verif.FanModel
import Verif.FanSpec
import Verif.CommonLemmas
import Verif.PassLemmas
import Verif.MetisLemmas
import Verif.ChordPathLemmas

/-
Lemmas for triangles around a common vertex.
-/
namespace Verif

open Res

variable {α : Type}

theorem insertNat_perm (a : Nat) (l : List Nat) : (insertNat a l).Perm (a :: l) := by
  induction l with
  | nil => exact List.Perm.refl _
  | cons b l ih =>
    unfold insertNat
    split
    · exact List.Perm.refl _
    · exact (List.Perm.cons b ih).trans (List.Perm.swap a b l)

theorem sortNat_perm (l : List Nat) : (sortNat l).Perm l := by
  induction l with
  | nil => exact List.Perm.refl _
  | cons a l ih => exact (insertNat_perm a _).trans (List.Perm.cons a ih)

theorem eq_single {l : List Nat} {a : Nat} (h : l.Nodup) (hm : ∀ x, x ∈ l ↔ x = a) : l = [a] := by
  cases l with
  | nil => exact absurd ((hm a).2 rfl) (by simp)
  | cons b l =>
    have hb := (hm b).1 List.mem_cons_self
    subst hb
    cases l with
    | nil => rfl
    | cons c l =>
      have hc := (hm c).1 (by simp)
      subst hc
      simp at h

theorem setIntersection_nodup {l r : List Nat} (h : l.Nodup) : (setIntersection l r).Nodup :=
  h.sublist (setIntersectionLoop_sublist _ l r)

section
variable {m : Mesh α} {t a b c e f g : Nat}

theorem IsTriangle.vertexRow (h : IsTriangle m t a b c e f g) :
    ∃ r, m.row .vert2 t = ok r ∧ r.Perm [a, b, c] := by
  rcases h with ⟨h, -⟩ | ⟨h, -⟩ | ⟨h, -⟩
  · exact ⟨_, h, List.Perm.refl _⟩
  · exact ⟨_, h, List.perm_append_comm (l₁ := [b, c]) (l₂ := [a])⟩
  · exact ⟨_, h, List.perm_append_comm (l₁ := [c]) (l₂ := [a, b])⟩

theorem IsTriangle.edgeRow (h : IsTriangle m t a b c e f g) :
    ∃ r, m.row .edge2 t = ok r ∧ r.Perm [e, f, g] := by
  rcases h with ⟨-, h⟩ | ⟨-, h⟩ | ⟨-, h⟩
  · exact ⟨_, h, List.Perm.refl _⟩
  · exact ⟨_, h, List.perm_append_comm (l₁ := [f, g]) (l₂ := [e])⟩
  · exact ⟨_, h, List.perm_append_comm (l₁ := [g]) (l₂ := [e, f])⟩

theorem entry_at (hw : m.WF) {l : Lst} {r : List Nat} {i k x : Nat} (h : m.row l i = ok r) (hx : r[k]? = some x) :
    m.entry l i k = ok x := by
  rw [entry_getD hw h (List.getElem?_eq_some_iff.1 hx).1, List.getD_eq_getElem?_getD, hx]; rfl

/-- The next vertex and edge after the common vertex. -/
theorem IsTriangle.atCenter (hw : m.WF) (h : IsTriangle m t a b c e f g) (hv : [a, b, c].Nodup) :
    ∃ k, m.findEntry .vert2 t a = ok k ∧ m.entry .edge2 t k = ok e ∧ m.entry .vert2 t ((k + 1) % 3) = ok b ∧
      m.entry .edge2 t ((k + 1) % 3) = ok f := by
  have hv : a ≠ b ∧ a ≠ c ∧ b ≠ c := by simpa [and_assoc] using hv
  obtain ⟨h1, h2, h3⟩ := hv
  rcases h with ⟨hr, hs⟩ | ⟨hr, hs⟩ | ⟨hr, hs⟩
  · refine ⟨0, ?_, entry_at hw hs rfl, entry_at hw hr rfl, entry_at hw hs rfl⟩
    simp [Mesh.findEntry, hr, Mesh.findIn, List.findIdx_cons]
  · refine ⟨2, ?_, entry_at hw hs rfl, entry_at hw hr rfl, entry_at hw hs rfl⟩
    simp [Mesh.findEntry, hr, Mesh.findIn, List.findIdx_cons, beq_false_of_ne h1.symm, beq_false_of_ne h2.symm]
  · refine ⟨1, ?_, entry_at hw hs rfl, entry_at hw hr rfl, entry_at hw hs rfl⟩
    simp [Mesh.findEntry, hr, Mesh.findIn, List.findIdx_cons, beq_false_of_ne h2.symm]

theorem IsTriangle.atLast (hw : m.WF) (h : IsTriangle m t a b c e f g) (he : [e, f, g].Nodup) :
    ∃ k, m.findEntry .edge2 t g = ok k ∧ m.entry .vert2 t ((k + 2) % 3) = ok b ∧ m.entry .edge2 t ((k + 2) % 3) = ok f := by
  have he : e ≠ f ∧ e ≠ g ∧ f ≠ g := by simpa [and_assoc] using he
  obtain ⟨h1, h2, h3⟩ := he
  rcases h with ⟨hr, hs⟩ | ⟨hr, hs⟩ | ⟨hr, hs⟩
  · refine ⟨2, ?_, entry_at hw hr rfl, entry_at hw hs rfl⟩
    simp [Mesh.findEntry, hs, Mesh.findIn, List.findIdx_cons, beq_false_of_ne h2, beq_false_of_ne h3]
  · refine ⟨1, ?_, entry_at hw hr rfl, entry_at hw hs rfl⟩
    simp [Mesh.findEntry, hs, Mesh.findIn, List.findIdx_cons, beq_false_of_ne h3]
  · refine ⟨0, ?_, entry_at hw hr rfl, entry_at hw hs rfl⟩
    simp [Mesh.findEntry, hs, Mesh.findIn, List.findIdx_cons]

theorem IsTriangle.atFirst (hw : m.WF) (h : IsTriangle m t a b c e f g) (he : [e, f, g].Nodup) :
    ∃ k, m.findEntry .edge2 t e = ok k ∧ m.entry .vert2 t ((k + 2) % 3) = ok c ∧ m.entry .edge2 t ((k + 2) % 3) = ok g := by
  have he : e ≠ f ∧ e ≠ g ∧ f ≠ g := by simpa [and_assoc] using he
  obtain ⟨h1, h2, h3⟩ := he
  rcases h with ⟨hr, hs⟩ | ⟨hr, hs⟩ | ⟨hr, hs⟩
  · refine ⟨0, ?_, entry_at hw hr rfl, entry_at hw hs rfl⟩
    simp [Mesh.findEntry, hs, Mesh.findIn, List.findIdx_cons]
  · refine ⟨2, ?_, entry_at hw hr rfl, entry_at hw hs rfl⟩
    simp [Mesh.findEntry, hs, Mesh.findIn, List.findIdx_cons, beq_false_of_ne h1.symm, beq_false_of_ne h2.symm]
  · refine ⟨1, ?_, entry_at hw hr rfl, entry_at hw hs rfl⟩
    simp [Mesh.findEntry, hs, Mesh.findIn, List.findIdx_cons, beq_false_of_ne h2.symm]

theorem commonEdge {t' b' c' f' g' : Nat} (h : IsTriangle m t a b c e f g) (h' : IsTriangle m t' a b' c' g f' g')
    (hn : [e, f, g, f', g'].Nodup) : m.findCommonEdges [t, t'] = ok [g] := by
  obtain ⟨r, hr, hp⟩ := h.edgeRow
  obtain ⟨r', hr', hp'⟩ := h'.edgeRow
  have : m.findCommonEdges [t, t'] = ok (setIntersection (sortNat r) (sortNat r')) := by
    simp [Mesh.findCommonEdges, vget, hr, hr']
  rw [this]
  congr 1
  refine eq_single (setIntersection_nodup ?_) ?_
  · exact ((sortNat_perm r).trans hp).nodup_iff.2 (hn.sublist (List.sublist_append_left [e, f, g] [f', g']))
  · intro x
    rw [mem_setIntersection _ _ (sortNat_sorted _) (sortNat_sorted _), mem_sortNat, mem_sortNat, hp.mem_iff, hp'.mem_iff]
    simp only [List.nodup_cons, List.mem_cons, List.not_mem_nil, or_false, not_or, List.nodup_nil] at hn ⊢
    constructor
    · rintro ⟨h1, h2⟩
      obtain ⟨⟨n1, n2, n3, n4⟩, ⟨n5, n6, n7⟩, -⟩ := hn
      rcases h1 with h1 | h1 | h1
      · rcases h2 with h2 | h2 | h2
        · exact h2
        · exact absurd (h1.symm.trans h2) n3
        · exact absurd (h1.symm.trans h2) n4
      · rcases h2 with h2 | h2 | h2
        · exact h2
        · exact absurd (h1.symm.trans h2) n6
        · exact absurd (h1.symm.trans h2) n7
      · exact h1
    · rintro rfl
      exact ⟨Or.inr (Or.inr rfl), Or.inl rfl⟩

end

section
variable {m : Mesh α} {ts rim spokes outer : List Nat} {a : Nat}

theorem IsFan.at (h : IsFan m ts a rim spokes outer) {i : Nat} (hi : i < ts.length) :
    ∃ t b c e f g, ts[i]? = some t ∧ rim[i]? = some b ∧ rim[i + 1]? = some c ∧ spokes[i]? = some e ∧ outer[i]? = some f ∧
      spokes[i + 1]? = some g ∧ IsTriangle m t a b c e f g := by
  have h1 := h.rimLength
  have h2 := h.spokesLength
  have h3 := h.outerLength
  have e1 := List.getElem?_eq_getElem hi
  have e2 := List.getElem?_eq_getElem (l := rim) (i := i) (by omega)
  have e3 := List.getElem?_eq_getElem (l := rim) (i := i + 1) (by omega)
  have e4 := List.getElem?_eq_getElem (l := spokes) (i := i) (by omega)
  have e5 := List.getElem?_eq_getElem (l := outer) (i := i) (by omega)
  have e6 := List.getElem?_eq_getElem (l := spokes) (i := i + 1) (by omega)
  exact ⟨_, _, _, _, _, _, e1, e2, e3, e4, e5, e6, h.triangles _ _ _ _ _ _ _ e1 e2 e3 e4 e5 e6⟩

theorem nodup_at {l : List Nat} (h : l.Nodup) {i j x y : Nat} (hx : l[i]? = some x) (hy : l[j]? = some y) (hij : i ≠ j) :
    x ≠ y := by
  rintro rfl
  obtain ⟨h1, e1⟩ := List.getElem?_eq_some_iff.1 hx
  obtain ⟨h2, e2⟩ := List.getElem?_eq_some_iff.1 hy
  exact hij ((List.Nodup.getElem_inj_iff h).1 (e1.trans e2.symm))

theorem IsFan.rim_ne (h : IsFan m ts a rim spokes outer) {i j x y : Nat} (hx : rim[i]? = some x) (hy : rim[j]? = some y)
    (hij : i ≠ j) : x ≠ y := nodup_at h.vertices hx hy hij

theorem IsFan.spoke_ne (h : IsFan m ts a rim spokes outer) {i j x y : Nat} (hx : spokes[i]? = some x)
    (hy : spokes[j]? = some y) (hij : i ≠ j) : x ≠ y := nodup_at (List.nodup_append.1 h.edges).1 hx hy hij

theorem IsFan.outer_ne (h : IsFan m ts a rim spokes outer) {i j x y : Nat} (hx : outer[i]? = some x)
    (hy : outer[j]? = some y) (hij : i ≠ j) : x ≠ y := nodup_at (List.nodup_append.1 h.edges).2.1 hx hy hij

theorem IsFan.cross_ne (h : IsFan m ts a rim spokes outer) {i j x y : Nat} (hx : spokes[i]? = some x)
    (hy : outer[j]? = some y) : x ≠ y :=
  (List.nodup_append.1 h.edges).2.2 x (List.mem_of_getElem? hx) y (List.mem_of_getElem? hy)

theorem IsFan.center_ne (h : IsFan m ts a rim spokes outer) {i x : Nat} (hx : rim[i]? = some x) : a ≠ x := by
  rintro rfl
  exact h.center (List.mem_of_getElem? hx)

theorem nodup3 {a b c : Nat} (h1 : a ≠ b) (h2 : a ≠ c) (h3 : b ≠ c) : [a, b, c].Nodup := by
  simp [h1, h2, h3]

theorem IsFan.edges3 (h : IsFan m ts a rim spokes outer) {i e f g : Nat} (he : spokes[i]? = some e) (hf : outer[i]? = some f)
    (hg : spokes[i + 1]? = some g) : [e, f, g].Nodup :=
  nodup3 (h.cross_ne he hf) (h.spoke_ne he hg (by omega)) (h.cross_ne hg hf).symm

theorem fan_fold (hw : m.WF) (h : IsFan m ts a rim spokes outer) {e0 : Nat} (he0 : spokes[0]? = some e0) : ∀ k,
    k + 1 ≤ ts.length → foldRes (m.fanRound ts) ⟨[a], [e0], []⟩ (List.range k) =
      ok ⟨a :: rim.take k, e0 :: outer.take k, (spokes.drop 1).take k⟩
  | 0, _ => by simp
  | k + 1, hk => by
      rw [List.range_succ, foldRes_append, fan_fold hw h he0 k (by omega), ok_bind, foldRes_cons]
      obtain ⟨t, b, c, e, f, g, ht, hb, hc, he, hf, hg, hT⟩ := h.at (i := k) (by omega)
      obtain ⟨t', b', c', e', f', g', ht', -, -, he', hf', hg', hT'⟩ := h.at (i := k + 1) (by omega)
      rw [hg] at he'
      cases he'
      obtain ⟨j, hj, hv, hE⟩ := hT.atLast hw (h.edges3 he hf hg)
      have hcommon := commonEdge hT hT' (by
        simp only [List.nodup_cons, List.mem_cons, List.not_mem_nil, or_false, not_or, List.nodup_nil]
        exact ⟨⟨h.cross_ne he hf, h.spoke_ne he hg (by omega), h.cross_ne he hf', h.spoke_ne he hg' (by omega)⟩,
          ⟨(h.cross_ne hg hf).symm, h.outer_ne hf hf' (by omega), (h.cross_ne hg' hf).symm⟩,
          ⟨h.cross_ne hg hf', h.spoke_ne hg hg' (by omega)⟩, (h.cross_ne hg' hf').symm, not_false, trivial⟩)
      unfold Mesh.fanRound
      rw [vat_of_getElem? ht, ok_bind, vat_of_getElem? ht', ok_bind, hcommon, ok_bind]
      simp only [assert, List.length_singleton, if_true, decide_true, ok_bind, vget, List.getElem?_cons_zero, hj, hv, hE,
        foldRes_nil]
      rw [List.take_add_one, hb, List.take_add_one, hf, List.take_add_one, List.getElem?_drop, Nat.add_comm 1 k, hg]
      rfl

theorem fan_common (h : IsFan m ts a rim spokes outer) (hn : 3 ≤ ts.length) : m.findCommonVertices ts = ok [a] := by
  obtain ⟨t0, b0, c0, e0, f0, g0, h0, hb0, hc0, -, -, -, T0⟩ := h.at (i := 0) (by omega)
  obtain ⟨t1, b1, c1, e1, f1, g1, h1, hb1, hc1, -, -, -, T1⟩ := h.at (i := 1) (by omega)
  obtain ⟨t2, b2, c2, e2, f2, g2, h2, hb2, hc2, -, -, -, T2⟩ := h.at (i := 2) (by omega)
  obtain ⟨r0, hr0, p0⟩ := T0.vertexRow
  obtain ⟨r1, hr1, p1⟩ := T1.vertexRow
  obtain ⟨r2, hr2, p2⟩ := T2.vertexRow
  have hsingle : setIntersection (setIntersection (sortNat r0) (sortNat r1)) (sortNat r2) = [a] := by
    refine eq_single (setIntersection_nodup (setIntersection_nodup ?_)) ?_
    · exact ((sortNat_perm r0).trans p0).nodup_iff.2 (nodup3 (h.center_ne hb0) (h.center_ne hc0)
        (h.rim_ne hb0 hc0 (by omega)))
    · intro v
      rw [mem_setIntersection _ _ (setIntersection_sorted _ _ (sortNat_sorted _)) (sortNat_sorted _),
        mem_setIntersection _ _ (sortNat_sorted _) (sortNat_sorted _), mem_sortNat, mem_sortNat, mem_sortNat, p0.mem_iff,
        p1.mem_iff, p2.mem_iff]
      simp only [List.mem_cons, List.not_mem_nil, or_false]
      constructor
      · rintro ⟨⟨q0, q1⟩, q2⟩
        by_contra hva
        simp only [hva, false_or] at q0 q1 q2
        rcases q0 with rfl | rfl
        · rcases q1 with q | q
          · exact h.rim_ne hb0 hb1 (by omega) q
          · exact h.rim_ne hb0 hc1 (by omega) q
        · rcases q2 with q | q
          · exact h.rim_ne hc0 hb2 (by omega) q
          · exact h.rim_ne hc0 hc2 (by omega) q
      · rintro rfl
        exact ⟨⟨Or.inl rfl, Or.inl rfl⟩, Or.inl rfl⟩
  unfold Mesh.findCommonVertices
  rw [vget_eq_ok.2 h0, ok_bind, hr0, ok_bind, if_neg (by omega), vget_eq_ok.2 h1, ok_bind, hr1, ok_bind]
  simp only []
  rw [if_neg (by omega), vget_eq_ok.2 h2, ok_bind, hr2, ok_bind]
  simp only [hsingle]
  rw [if_neg (by simp)]
  have hok : ∃ r, mapRes (fun t => do
      let c ← vget ts t
      let vertices ← m.row .vert2 c
      let s ← vget [a] 0
      assert (s ∈ vertices)) (List.range' 3 (ts.length - 3)) = ok r := by
    rw [mapRes_unit_ok]
    intro t ht
    rw [List.mem_range'_1] at ht
    obtain ⟨t', b, c, e, f, g, h', -, -, -, -, -, T⟩ := h.at (i := t) (by omega)
    obtain ⟨r, hr, p⟩ := T.vertexRow
    rw [vget_eq_ok.2 h', ok_bind, hr, ok_bind]
    show assert (a ∈ r) = ok ⟨⟩
    rw [assert, if_pos (p.mem_iff.2 (by simp))]
  obtain ⟨r, hr⟩ := hok
  rw [hr, ok_bind]

theorem fan_last (hw : m.WF) (h : IsFan m ts a rim spokes outer) (hn : 2 ≤ ts.length) {e0 : Nat}
    (he0 : spokes[0]? = some e0) :
    m.fanLast ts a ⟨a :: rim.take (ts.length - 1), e0 :: outer.take (ts.length - 1),
      (spokes.drop 1).take (ts.length - 1)⟩ =
    ok ⟨a :: rim, spokes.take 1 ++ outer ++ spokes.drop ts.length, (spokes.drop 1).take (ts.length - 1)⟩ := by
  obtain ⟨n, hn'⟩ : ∃ n, ts.length = n + 2 := ⟨ts.length - 2, by omega⟩
  have h1 := h.rimLength
  have h2 := h.spokesLength
  have h3 := h.outerLength
  obtain ⟨t, b, c, e, f, g, ht, hb, hc, he, hf, hg, hT⟩ := h.at (i := n + 1) (by omega)
  obtain ⟨k, hk, kv, ke⟩ := hT.atFirst hw (h.edges3 he hf hg)
  obtain ⟨j, hj, -, jv, je⟩ := hT.atCenter hw (nodup3 (h.center_ne hb) (h.center_ne hc) (h.rim_ne hb hc (by omega)))
  have hl : ((spokes.drop 1).take (n + 1)).length = n + 1 := by
    rw [List.length_take, List.length_drop]; omega
  have hback : vget ((spokes.drop 1).take (n + 1)) n = ok e := by
    rw [vget_eq_ok, List.getElem?_take_of_lt (by omega), List.getElem?_drop, Nat.add_comm 1 n, he]
  have hr : rim.take (n + 1) ++ [b, c] = rim := by
    have h := List.take_of_length_le (l := rim) (i := n + 1 + 1 + 1) (by omega)
    rw [List.take_add_one (i := n + 1 + 1), List.take_add_one (i := n + 1), hb, hc, List.append_assoc] at h
    exact h
  have ho : outer.take (n + 1) ++ [f] = outer := by
    have h := List.take_of_length_le (l := outer) (i := n + 1 + 1) (by omega)
    rw [List.take_add_one (i := n + 1), hf] at h
    exact h
  have hs : spokes.drop (n + 2) = [g] := by
    rw [List.drop_eq_getElem_cons (by omega), List.drop_eq_nil_of_le (by omega)]
    rw [(List.getElem?_eq_some_iff.1 hg).2]
  have hs0 : spokes.take 1 = [e0] := by
    rw [List.take_add_one, he0]; rfl
  unfold Mesh.fanLast
  simp only [hn', Nat.add_sub_cancel, show n + 2 - 1 = n + 1 from rfl, hl]
  rw [vat_of_getElem? ht, ok_bind, hback, ok_bind, hk, ok_bind, hj, ok_bind, jv, ok_bind, kv, ok_bind, je, ok_bind, ke, ok_bind,
    hs, hs0]
  show ok (FanPolygon.mk (a :: (rim.take (n + 1) ++ [b, c])) (e0 :: (outer.take (n + 1) ++ ([f] ++ [g]))) _) = _
  rw [hr, ← List.append_assoc, ho]
  rfl

theorem fan_run (hw : m.WF) (h : IsFan m ts a rim spokes outer) (hn : 3 ≤ ts.length) : m.agglomerateTriangles ts =
    ok ⟨a :: rim, spokes.take 1 ++ outer ++ spokes.drop ts.length, (spokes.drop 1).take (ts.length - 1)⟩ := by
  obtain ⟨t, b, c, e, f, g, ht, hb, hc, he, hf, hg, hT⟩ := h.at (i := 0) (by omega)
  obtain ⟨k, hk, hke, -, -⟩ := hT.atCenter hw (nodup3 (h.center_ne hb) (h.center_ne hc) (h.rim_ne hb hc (by omega)))
  unfold Mesh.agglomerateTriangles
  rw [fan_common h hn, ok_bind, assert_true (by rfl), ok_bind]
  show (do
    let t0 ← vat ts 0
    let k ← m.findEntry .vert2 t0 a
    let e ← m.entry .edge2 t0 k
    let s ← foldRes (m.fanRound ts) ⟨[a], [e], []⟩ (List.range (ts.length - 1))
    m.fanLast ts a s) = _
  rw [vat_of_getElem? ht, ok_bind, hk, ok_bind, hke, ok_bind, fan_fold hw h he (ts.length - 1) (by omega), ok_bind,
    fan_last hw h (by omega) he]

theorem IsTriangle.around {J : Nat → Nat → Nat → Prop} {t b c e f g : Nat} (hT : IsTriangle m t a b c e f g)
    (hJ : ∀ vs es, m.row .vert2 t = ok vs → m.row .edge2 t = ok es → Around J vs es) : J e a b ∧ J f b c ∧ J g c a := by
  rcases hT with ⟨hr, hs⟩ | ⟨hr, hs⟩ | ⟨hr, hs⟩
  · have := (hJ _ _ hr hs).2
    exact ⟨this 0 _ _ _ (by simp) (by simp) (by simp), this 1 _ _ _ (by simp) (by simp) (by simp), this 2 _ _ _ (by simp) (by simp) (by simp)⟩
  · have := (hJ _ _ hr hs).2
    exact ⟨this 2 _ _ _ (by simp) (by simp) (by simp), this 0 _ _ _ (by simp) (by simp) (by simp), this 1 _ _ _ (by simp) (by simp) (by simp)⟩
  · have := (hJ _ _ hr hs).2
    exact ⟨this 1 _ _ _ (by simp) (by simp) (by simp), this 2 _ _ _ (by simp) (by simp) (by simp), this 0 _ _ _ (by simp) (by simp) (by simp)⟩

theorem fan_around (h : IsFan m ts a rim spokes outer) (hn : 1 ≤ ts.length) {J : Nat → Nat → Nat → Prop}
    (hJ : AllAround m J ts) : Around J (a :: rim) (spokes.take 1 ++ outer ++ spokes.drop ts.length) := by
  have h1 := h.rimLength
  have h2 := h.spokesLength
  have h3 := h.outerLength
  have key : ∀ i, i < ts.length → ∃ b c e f g, rim[i]? = some b ∧ rim[i + 1]? = some c ∧ spokes[i]? = some e ∧
      outer[i]? = some f ∧ spokes[i + 1]? = some g ∧ J e a b ∧ J f b c ∧ J g c a := by
    intro i hi
    obtain ⟨t, b, c, e, f, g, ht, hb, hc, he, hf, hg, hT⟩ := h.at hi
    exact ⟨b, c, e, f, g, hb, hc, he, hf, hg, hT.around (hJ t (List.mem_of_getElem? ht))⟩
  refine ⟨by simp only [List.length_append, List.length_take, List.length_drop, List.length_cons]; omega, ?_⟩
  intro k u v e hu hv he
  have hk : k < ts.length + 2 := by
    have := (List.getElem?_eq_some_iff.1 hu).1
    rw [List.length_cons] at this; omega
  have hl : (spokes.take 1).length = 1 := by rw [List.length_take]; omega
  rw [List.length_cons, h1] at hv
  match k, hk with
  | 0, _ =>
    obtain ⟨b, c, e', f, g, hb, -, he', -, -, hj, -⟩ := key 0 (by omega)
    rw [Nat.mod_eq_of_lt (by omega), List.getElem?_cons_succ, hb] at hv
    rw [List.getElem?_append_left (by rw [List.length_append]; omega), List.getElem?_append_left (by omega),
      List.getElem?_take_of_lt (by omega), he'] at he
    cases hu; cases hv; cases he
    exact hj
  | k + 1, hk =>
    rw [List.getElem?_cons_succ] at hu
    by_cases hlast : k = ts.length
    · subst hlast
      obtain ⟨b, c, e', f, g, -, hc, -, -, hg, -, -, hj⟩ := key (ts.length - 1) (by omega)
      rw [Nat.sub_add_cancel hn] at hc hg
      rw [Nat.mod_self] at hv
      rw [List.getElem?_append_right (by rw [List.length_append]; omega), List.getElem?_drop, List.length_append, hl, h3,
        show ts.length + (ts.length + 1 - (1 + ts.length)) = ts.length from by omega, hg] at he
      rw [hc] at hu
      cases hu; cases hv; cases he
      exact hj
    · obtain ⟨b, c, e', f, g, hb, hc, -, hf, -, -, hj, -⟩ := key k (by omega)
      rw [Nat.mod_eq_of_lt (by omega), List.getElem?_cons_succ, hc] at hv
      rw [List.getElem?_append_left (by rw [List.length_append]; omega), List.getElem?_append_right (by omega), hl,
        Nat.add_sub_cancel, hf] at he
      rw [hb] at hu
      cases hu; cases hv; cases he
      exact hj

theorem fan_edges (h : IsFan m ts a rim spokes outer) (hn : 1 ≤ ts.length) :
    (spokes.take 1 ++ outer ++ spokes.drop ts.length ++ (spokes.drop 1).take (ts.length - 1)).Perm (spokes ++ outer) := by
  have e : spokes = spokes.take 1 ++ ((spokes.drop 1).take (ts.length - 1) ++ spokes.drop ts.length) := by
    conv_lhs => rw [← List.take_append_drop 1 spokes, ← List.take_append_drop (ts.length - 1) (spokes.drop 1), List.drop_drop,
      show 1 + (ts.length - 1) = ts.length from by omega]
  conv_rhs => rw [e]
  generalize spokes.take 1 = A
  generalize (spokes.drop 1).take (ts.length - 1) = B
  generalize spokes.drop ts.length = C
  rw [List.append_assoc, List.append_assoc, List.append_assoc, List.append_assoc]
  refine List.Perm.append_left _ ?_
  refine List.perm_append_comm.trans ?_
  rw [List.append_assoc]
  rw [← List.append_assoc, ← List.append_assoc]
  exact List.Perm.append_right _ List.perm_append_comm

theorem fan_mem (h : IsFan m ts a rim spokes outer) (hn : 1 ≤ ts.length) (x : Nat) :
    x ∈ spokes ++ outer ↔ ∃ t ∈ ts, ∃ es, m.row .edge2 t = ok es ∧ x ∈ es := by
  have h2 := h.spokesLength
  have h3 := h.outerLength
  have at' : ∀ i, i < ts.length → ∀ e f g, spokes[i]? = some e → outer[i]? = some f → spokes[i + 1]? = some g →
      ∃ t ∈ ts, ∃ es, m.row .edge2 t = ok es ∧ es.Perm [e, f, g] := by
    intro i hi e f g he hf hg
    obtain ⟨t, b, c, e', f', g', ht, -, -, he', hf', hg', hT⟩ := h.at hi
    rw [he] at he'; rw [hf] at hf'; rw [hg] at hg'
    cases he'; cases hf'; cases hg'
    obtain ⟨r, hr, hp⟩ := hT.edgeRow
    exact ⟨t, List.mem_of_getElem? ht, r, hr, hp⟩
  constructor
  · intro hx
    rcases List.mem_append.1 hx with hx | hx
    · obtain ⟨i, hi⟩ := List.mem_iff_getElem?.1 hx
      have hlt := (List.getElem?_eq_some_iff.1 hi).1
      by_cases hl : i < ts.length
      · obtain ⟨t, ht, r, hr, hp⟩ := at' i hl _ _ _ hi (List.getElem?_eq_getElem (by omega))
          (List.getElem?_eq_getElem (by omega))
        exact ⟨t, ht, r, hr, hp.mem_iff.2 (by simp)⟩
      · obtain ⟨k, rfl⟩ : ∃ k, i = k + 1 := ⟨i - 1, by omega⟩
        obtain ⟨t, ht, r, hr, hp⟩ := at' k (by omega) _ _ _ (List.getElem?_eq_getElem (by omega))
          (List.getElem?_eq_getElem (by omega)) hi
        exact ⟨t, ht, r, hr, hp.mem_iff.2 (by simp)⟩
    · obtain ⟨i, hi⟩ := List.mem_iff_getElem?.1 hx
      have hlt := (List.getElem?_eq_some_iff.1 hi).1
      obtain ⟨t, ht, r, hr, hp⟩ := at' i (by omega) _ _ _ (List.getElem?_eq_getElem (by omega)) hi
        (List.getElem?_eq_getElem (by omega))
      exact ⟨t, ht, r, hr, hp.mem_iff.2 (by simp)⟩
  · rintro ⟨t, ht, es, hr, hx⟩
    obtain ⟨i, hi⟩ := List.mem_iff_getElem?.1 ht
    obtain ⟨t', b, c, e, f, g, ht', -, -, he, hf, hg, hT⟩ := h.at (List.getElem?_eq_some_iff.1 hi).1
    rw [hi] at ht'
    cases ht'
    obtain ⟨r, hr', hp⟩ := hT.edgeRow
    rw [hr] at hr'
    cases hr'
    have := hp.mem_iff.1 hx
    simp only [List.mem_cons, List.not_mem_nil, or_false] at this
    rcases this with rfl | rfl | rfl
    · exact List.mem_append_left _ (List.mem_of_getElem? he)
    · exact List.mem_append_right _ (List.mem_of_getElem? hf)
    · exact List.mem_append_left _ (List.mem_of_getElem? hg)

theorem fan_small (h : IsFan m ts a rim spokes outer) (hn : 1 ≤ ts.length) (hn' : ts.length ≤ 2) :
    m.agglomerateTriangles ts = abort := by
  obtain ⟨t0, b0, c0, e0, f0, g0, h0, hb0, hc0, -, -, -, T0⟩ := h.at (i := 0) (by omega)
  obtain ⟨r0, hr0, p0⟩ := T0.vertexRow
  have key : ∃ l, m.findCommonVertices ts = ok l ∧ l.length ≠ 1 := by
    by_cases h1 : ts.length = 1
    · refine ⟨r0, ?_, by rw [p0.length_eq]; simp⟩
      unfold Mesh.findCommonVertices
      rw [vget_eq_ok.2 h0, ok_bind, hr0, ok_bind, if_pos h1]
    · obtain ⟨t1, b1, c1, e1, f1, g1, h1', hb1, hc1, -, -, -, T1⟩ := h.at (i := 1) (by omega)
      obtain ⟨r1, hr1, p1⟩ := T1.vertexRow
      rw [hc0] at hb1
      cases hb1
      refine ⟨setIntersection (sortNat r0) (sortNat r1), ?_, ?_⟩
      · unfold Mesh.findCommonVertices
        rw [vget_eq_ok.2 h0, ok_bind, hr0, ok_bind, if_neg h1, vget_eq_ok.2 h1', ok_bind, hr1, ok_bind]
        simp only []
        rw [if_pos (by omega)]
      · intro hl
        obtain ⟨x, hx⟩ := List.length_eq_one_iff.1 hl
        have ha : ∀ v, v ∈ r0 → v ∈ r1 → v = x := by
          intro v q0 q1
          have : v ∈ setIntersection (sortNat r0) (sortNat r1) := by
            rw [mem_setIntersection _ _ (sortNat_sorted _) (sortNat_sorted _), mem_sortNat, mem_sortNat]
            exact ⟨q0, q1⟩
          rw [hx] at this
          simpa using this
        have q1 := ha a (p0.mem_iff.2 (by simp)) (p1.mem_iff.2 (by simp))
        have q2 := ha c0 (p0.mem_iff.2 (by simp)) (p1.mem_iff.2 (by simp))
        exact h.center_ne hc0 (q1.trans q2.symm)
  obtain ⟨l, hl, hne⟩ := key
  unfold Mesh.agglomerateTriangles
  rw [hl, ok_bind, assert, if_neg hne]
  rfl

end

section
variable {K : Type} [Field K] [LinearOrder K] [IsStrictOrderedRing K]

theorem shoelace_fan (a b : V3 K) (l : List (V3 K)) :
    shoelace (a :: b :: l) = (((b :: l).zip l).map fun p => shoelace [a, p.1, p.2]).sum := by
  induction l generalizing b with
  | nil => simp [shoelace_path, sweepTo]
  | cons c l ih =>
    have h := ih c
    rw [List.zip_cons_cons, List.map_cons, List.sum_cons, ← h, shoelace_path, shoelace_path, shoelace_path]
    simp only [sweepTo]
    ring

theorem triangles_area {m : Mesh α} {ts rim spokes outer : List Nat} {a : Nat} (h : IsFan m ts a rim spokes outer) (pt : Nat → V3 K)
    {rows : List (List Nat)} (hrows : List.Forall₂ (fun t r => m.row .vert2 t = ok r) ts rows) :
    shoelace ((a :: rim).map pt) = (rows.map fun r => shoelace (r.map pt)).sum := by
  have h1 := h.rimLength
  have hlen := hrows.length_eq
  cases hrim : rim with
  | nil => rw [hrim] at h1; simp at h1
  | cons b l =>
    rw [List.map_cons, List.map_cons, shoelace_fan]
    congr 1
    rw [hrim, List.length_cons] at h1
    refine List.ext_getElem (by simp; omega) ?_
    intro i hi hi'
    have hi : i < ts.length := by rw [List.length_map] at hi'; omega
    obtain ⟨t, b', c', e, f, g, ht, hb, hc, -, -, -, hT⟩ := h.at hi
    rw [hrim] at hb hc
    rw [List.getElem?_cons_succ] at hc
    have hrow : m.row .vert2 t = ok rows[i] := by
      have := List.Forall₂.get hrows hi (by omega)
      rw [← (List.getElem?_eq_some_iff.1 ht).2]
      exact this
    have hb' := (List.getElem?_eq_some_iff.1 hb).2
    have hc' := (List.getElem?_eq_some_iff.1 hc).2
    rw [List.getElem_map, List.getElem_map, List.getElem_zip, List.getElem_map]
    have e1 : (pt b :: l.map pt)[i]'(by simp; omega) = pt b' := by
      have : (pt b :: l.map pt) = (b :: l).map pt := rfl
      simp only [this, List.getElem_map, hb']
    rw [e1, hc']
    obtain ⟨r, hr⟩ : ∃ r, rows[i]'(by omega) = r := ⟨_, rfl⟩
    rw [hr] at hrow ⊢
    rcases hT with ⟨hr', -⟩ | ⟨hr', -⟩ | ⟨hr', -⟩
    · rw [hr'] at hrow
      injection hrow with hrow
      rw [← hrow]; rfl
    · rw [hr'] at hrow
      injection hrow with hrow
      rw [← hrow]
      exact shoelace_rotated ⟨1, rfl⟩
    · rw [hr'] at hrow
      injection hrow with hrow
      rw [← hrow]
      exact shoelace_rotated ⟨2, rfl⟩

end

end Verif
