import Verif.AlignLemmas5

/-!
# C104: the lines of the edges of a polyhedron
-/

namespace Verif
open Res

variable {K : Type} [Field K] [LinearOrder K] [IsStrictOrderedRing K]

variable {g : GeoCfg K} {sqrt : K → K} {points : List (V3 K)} {edges : List (Nat × Nat)} {tangents : List (V3 K)}
  {lengths : List K} {A : AdjacencyData}

theorem order_step (h : AlignInput g points edges tangents lengths) (hA : AdjOK points.length edges A) {b : Nat}
    {c : Nat → K} {vs : List Nat} (hv : Sorted points edges b c vs) {i : Nat} (hi : i < vs.length - 1) :
    ∃ u w, vs[i]? = some u ∧ vs[i + 1]? = some w ∧ u ∈ vs ∧ w ∈ vs ∧ c u < c w ∧ u < points.length ∧
      (do
        let a ← vget vs i
        let b ← vget vs (i + 1)
        edgeBetween A a b) = edgeBetween A u w ∧ ((∃ e, edgeBetween A u w = ok e) ∨ edgeBetween A u w = ub) := by
  obtain ⟨u, hu⟩ := getElem?_ex (l := vs) (i := i) (by omega)
  obtain ⟨w, hw⟩ := getElem?_ex (l := vs) (i := i + 1) (by omega)
  have hum := List.mem_of_getElem? hu
  have hlt := (h.onEdge ((hv.mem u).1 hum)).1
  refine ⟨u, w, hu, hw, hum, List.mem_of_getElem? hw, ?_, hlt, ?_, edgeBetween_cases h.graph hA hlt⟩
  · obtain ⟨l1, e1⟩ := List.getElem?_eq_some_iff.1 hu
    obtain ⟨l2, e2⟩ := List.getElem?_eq_some_iff.1 hw
    have := List.pairwise_iff_getElem.1 hv.order i (i + 1) l1 l2 (by omega)
    rwa [e1, e2] at this
  · rw [vget_some hu, ok_bind, vget_some hw, ok_bind]

/-- One line without gaps. -/
theorem order_ok (h : AlignInput g points edges tangents lengths) (hA : AdjOK points.length edges A)
    (hgap : ∀ p ∈ edges, ∀ u w, ¬ Gap points edges p u w) (hover : NoOverlap points edges) {b : Nat}
    (hb : b < edges.length) {c : Nat → K} {vs : List Nat} (hv : Sorted points edges b c vs) (h2 : 2 ≤ vs.length) :
    ∃ es, mapRes (fun i => do
        let a ← vget vs i
        let b ← vget vs (i + 1)
        edgeBetween A a b) (List.range (vs.length - 1)) = ok es ∧ EdgesJoin edges vs es ∧ es.Nodup ∧
      ∀ e, e ∈ es ↔ e < edges.length ∧ SameE points edges b e := by
  have hne := h.corner_ne (edgeAt_mem hb)
  have hex : ∀ i, ∃ e, i < vs.length - 1 → ∃ u w, vs[i]? = some u ∧ vs[i + 1]? = some w ∧
      (do
        let a ← vget vs i
        let b ← vget vs (i + 1)
        edgeBetween A a b) = ok e ∧ (edges[e]? = some (u, w) ∨ edges[e]? = some (w, u)) := by
    intro i
    by_cases hi : i < vs.length - 1
    · obtain ⟨u, w, hu, hw, hum, hwm, huw, hlt, e1, -⟩ := order_step h hA hv hi
      have hed : (u, w) ∈ edges ∨ (w, u) ∈ edges := by
        by_contra hcon
        rw [not_or] at hcon
        refine hgap _ (edgeAt_mem hb) u w ⟨(hv.mem u).1 hum, (hv.mem w).1 hwm, ?_, ?_, hcon.1, hcon.2⟩
        · rintro rfl
          exact lt_irrefl _ huw
        · intro v hv' hbt
          have hvm := (hv.mem v).2 hv'
          exact not_between hv.order hu hw v hvm (hv.of_between hne hum hvm hwm huw hbt)
      have : ∃ e : Nat, edges[e]? = some (u, w) ∨ edges[e]? = some (w, u) := by
        rcases hed with hed | hed <;> obtain ⟨e, he⟩ := List.mem_iff_getElem?.1 hed
        · exact ⟨e, Or.inl he⟩
        · exact ⟨e, Or.inr he⟩
      obtain ⟨e, he⟩ := this
      exact ⟨e, fun _ => ⟨u, w, hu, hw, e1.trans (edgeBetween_ok h.graph hA he), he⟩⟩
    · exact ⟨0, fun h => absurd h hi⟩
  choose f hf using hex
  have hes : ∀ (k : Nat) e, ((List.range (vs.length - 1)).map f)[k]? = some e → k < vs.length - 1 ∧ e = f k := by
    intro k e hk
    rw [List.getElem?_map, Option.map_eq_some_iff] at hk
    obtain ⟨x, hx, rfl⟩ := hk
    obtain ⟨hl, hx⟩ := List.getElem?_eq_some_iff.1 hx
    simp at hl hx
    exact ⟨hl, by rw [hx]⟩
  have hnd : vs.Nodup := hv.order.imp fun huw => by rintro rfl; exact lt_irrefl _ huw
  have hidx : ∀ {i j x : Nat}, vs[i]? = some x → vs[j]? = some x → i = j := by
    intro i j x h1 h2
    obtain ⟨l1, e1⟩ := List.getElem?_eq_some_iff.1 h1
    obtain ⟨l2, e2⟩ := List.getElem?_eq_some_iff.1 h2
    exact (List.Nodup.getElem_inj_iff hnd).1 (e1.trans e2.symm)
  have hinj : ∀ i j, i < vs.length - 1 → j < vs.length - 1 → f i = f j → i = j := by
    intro i j hi hj hij
    obtain ⟨u, w, hu, hw, -, e1⟩ := hf i hi
    obtain ⟨u', w', hu', hw', -, e2⟩ := hf j hj
    rw [hij] at e1
    have hcase : (u = u' ∧ w = w') ∨ (u = w' ∧ w = u') := by
      rcases e1 with e1 | e1 <;> rcases e2 with e2 | e2 <;> rw [e1] at e2 <;> simp at e2 <;> tauto
    rcases hcase with ⟨rfl, rfl⟩ | ⟨rfl, rfl⟩
    · exact hidx hu hu'
    · have := hidx hu hw'
      have := hidx hw hu'
      omega
  refine ⟨(List.range (vs.length - 1)).map f, mapRes_eq_map fun i hi => ?_, ⟨?_, ?_, ?_⟩, ?_, ?_⟩
  · obtain ⟨-, -, -, -, e1, -⟩ := hf i (List.mem_range.1 hi)
    exact e1
  · simp; omega
  · simp; omega
  · intro k e hk
    obtain ⟨hkl, rfl⟩ := hes k e hk
    obtain ⟨u, w, hu, hw, -, e1⟩ := hf k hkl
    exact ⟨u, w, hu, hw, e1⟩
  · refine List.Nodup.map_on ?_ List.nodup_range
    intro i hi j hj hij
    exact hinj i j (List.mem_range.1 hi) (List.mem_range.1 hj) hij
  · intro e
    constructor
    · intro he
      obtain ⟨k, hk⟩ := List.mem_iff_getElem?.1 he
      obtain ⟨hkl, rfl⟩ := hes k e hk
      obtain ⟨u, w, hu, hw, -, e1⟩ := hf k hkl
      have ou := (h.onEdge ((hv.mem u).1 (List.mem_of_getElem? hu))).2
      have ow := (h.onEdge ((hv.mem w).1 (List.mem_of_getElem? hw))).2
      rcases e1 with e1 | e1
      · exact ⟨(List.getElem?_eq_some_iff.1 e1).1, by unfold SameE SameLine; rw [edgeAt_of e1]; exact ⟨ou, ow⟩⟩
      · exact ⟨(List.getElem?_eq_some_iff.1 e1).1, by unfold SameE SameLine; rw [edgeAt_of e1]; exact ⟨ow, ou⟩⟩
    · rintro ⟨he, hsame⟩
      have hu := (hv.mem (edgeAt edges e).1).2 ⟨_, edgeAt_mem he, hsame, Or.inl rfl⟩
      have hw := (hv.mem (edgeAt edges e).2).2 ⟨_, edgeAt_mem he, hsame, Or.inr rfl⟩
      have hedge : edges[e]? = some (edgeAt edges e) := by simp [edgeAt, he]
      have hno : ∀ v ∈ vs, ¬ Between (corner points (edgeAt edges e).1) (corner points (edgeAt edges e).2)
          (corner points v) := by
        intro v hvm
        obtain ⟨q, hq, h1, h2⟩ := (hv.mem v).1 hvm
        exact hover _ (edgeAt_mem he) v
          ⟨q, hq, h.same_trans (edgeAt_mem hb) (h.same_symm (edgeAt_mem he) hsame) h1, h2⟩
      generalize edgeAt edges e = p at hu hw hedge hno
      obtain ⟨i, hi⟩ := List.mem_iff_getElem?.1 hu
      obtain ⟨j, hj⟩ := List.mem_iff_getElem?.1 hw
      have hpne := (h.graph.range p (List.mem_of_getElem? hedge)).2.2
      have hfin : ∀ {x y i j : Nat}, x ∈ vs → y ∈ vs → vs[i]? = some x → vs[j]? = some y → c x < c y →
          (∀ v ∈ vs, ¬ Between (corner points x) (corner points y) (corner points v)) → (p = (x, y) ∨ p = (y, x)) →
          e ∈ (List.range (vs.length - 1)).map f := by
        intro x y i j hx hy hi hj hxy hno hp
        obtain rfl := neighbours hv.order hi hj hxy fun v hvm hb' => hno v hvm (hv.between hx hvm hy hb'.1 hb'.2)
        have hl := (List.getElem?_eq_some_iff.1 hj).1
        have hil : i < vs.length - 1 := by omega
        obtain ⟨u', w', hu', hw', -, e1⟩ := hf i hil
        rw [hi] at hu'
        rw [hj] at hw'
        obtain rfl := Option.some.inj hu'
        obtain rfl := Option.some.inj hw'
        refine List.mem_map.2 ⟨i, List.mem_range.2 hil, ?_⟩
        rcases e1 with e1 | e1 <;> rcases hp with rfl | rfl <;> exact h.graph.simple _ _ _ _ e1 hedge (by simp)
      rcases lt_trichotomy (c p.1) (c p.2) with hlt | heq | hlt
      · exact hfin hu hw hi hj hlt hno (Or.inl rfl)
      · exfalso
        apply hpne
        have h1 := hv.on _ hu
        have h2 := hv.on _ hw
        rw [heq, ← h2] at h1
        exact corner_inj h.nodup (h.graph.range p (List.mem_of_getElem? hedge)).1
          (h.graph.range p (List.mem_of_getElem? hedge)).2.1 h1
      · exact hfin hw hu hj hi hlt (fun v hvm hb' => hno v hvm (between_swap hb')) (Or.inr rfl)

/-- C104: if no line of the polyhedron has a gap, the lines that `AlignedPolyhedronEdges` finds hold each edge once; two
edges are in the same line exactly if they are on one line in space; the vertices of a line are in order along it and
edge `k` joins the vertices `k` and `k + 1`.
Partial: with a gap the call is undefined, see `c104_gap_violated`. -/
theorem c104_lines_partial (hs : IsSqrt sqrt) (h0 : 0 ≤ g.minTolerance) {sort : (Nat → Nat → Bool) → List Nat → List Nat}
    (hsort : IsSort sort) (h : AlignInput g points edges tangents lengths)
    (hgap : ∀ p ∈ edges, ∀ u w, ¬ Gap points edges p u w) (hover : NoOverlap points edges) {fuel : Nat}
    (hf : edges.length + 2 ≤ fuel) :
    ∃ A r, connectivityToAdjacency points.length edges false = ok A ∧
      g.alignedPolyhedronEdges sqrt sort fuel points A tangents lengths = ok r ∧
      (∀ l ∈ r, EdgesJoin edges l.1 l.2 ∧ OrderedAlong points l.1) ∧
      (r.flatMap Prod.snd).Perm (List.range edges.length) ∧
      ∀ (i j : Nat) p q, edges[i]? = some p → edges[j]? = some q →
        ((∃ l ∈ r, i ∈ l.2 ∧ j ∈ l.2) ↔ SameLine points p q) := by
  obtain ⟨A, hA, hadj⟩ := h.graph.adj
  obtain ⟨st, e1, bases, b1, b2, b3, b4⟩ := align_all h hs h0 hadj hf
  have key : ∃ r, mapRes (orderLine sort points A) st.lines = ok r ∧
      List.Forall₂ (fun b (l : List Nat × List Nat) => EdgesJoin edges l.1 l.2 ∧ OrderedAlong points l.1 ∧
        l.2.Nodup ∧ ∀ e, e ∈ l.2 ↔ e < edges.length ∧ SameE points edges b e) bases r := by
    have hbl : ∀ b ∈ bases, b < edges.length := fun b hb => List.mem_range.1 (b1 b hb)
    clear b1 b2 b3 e1
    generalize st.lines = lines at b4
    induction b4 with
    | nil => exact ⟨[], rfl, .nil⟩
    | @cons b l bs ls hl _ ih =>
      obtain ⟨r, e2, hF⟩ := ih fun x hx => hbl x (by simp [hx])
      have hb := hbl b (by simp)
      obtain ⟨vs, c, hv, h2, e3⟩ := h.order (A := A) hsort hb hl
      obtain ⟨es, e4, hj, hn, hm⟩ := order_ok h hadj hgap hover hb hv h2
      refine ⟨(vs, es) :: r, ?_, .cons ⟨hj, ?_, hn, hm⟩ hF⟩
      · rw [mapRes, e3, e4, ok_bind, ok_bind, e2, ok_bind]
      · exact ⟨_, _, h.corner_ne (edgeAt_mem hb), c, hv.on, hv.order⟩
  obtain ⟨r, e2, hF⟩ := key
  refine ⟨A, r, hA, ?_, ?_, ?_, ?_⟩
  · unfold GeoCfg.alignedPolyhedronEdges
    rw [e1, ok_bind, e2]
  · intro l hl
    obtain ⟨i, hi, rfl⟩ := List.getElem_of_mem hl
    obtain ⟨hlen, hF'⟩ := List.forall₂_iff_get.1 hF
    have := hF' i (by omega) hi
    exact ⟨this.1, this.2.1⟩
  · have hnd : (r.flatMap Prod.snd).Nodup := by
      have hbm : ∀ b ∈ bases, b < edges.length := fun b hb => List.mem_range.1 (b1 b hb)
      clear e1 e2 b1 b3 b4
      rw [List.nodup_flatMap]
      induction hF with
      | nil => exact ⟨by simp, by simp⟩
      | @cons b l bs r hl hrest ih =>
        rw [List.pairwise_cons] at b2
        obtain ⟨i1, i2⟩ := ih b2.2 fun x hx => hbm x (by simp [hx])
        refine ⟨fun x hx => ?_, ?_⟩
        · rcases List.mem_cons.1 hx with rfl | hx
          · exact hl.2.2.1
          · exact i1 x hx
        · rw [List.pairwise_cons]
          refine ⟨fun l' hl' => ?_, i2⟩
          obtain ⟨i, hi, rfl⟩ := List.getElem_of_mem hl'
          obtain ⟨hlen, hF'⟩ := List.forall₂_iff_get.1 hrest
          have hib : i < bs.length := by omega
          have h2 := (hF' i hib hi).2.2.2
          intro e he he'
          have k1 := (hl.2.2.2 e).1 he
          have k2 := (h2 e).1 he'
          exact b2.1 _ (List.getElem_mem hib) (h.same_trans (edgeAt_mem k1.1) k1.2 (h.same_symm (edgeAt_mem k1.1) k2.2))
    refine (List.perm_ext_iff_of_nodup hnd List.nodup_range).2 fun e => ?_
    obtain ⟨hlen, hF'⟩ := List.forall₂_iff_get.1 hF
    rw [List.mem_range, List.mem_flatMap]
    constructor
    · rintro ⟨l, hl, he⟩
      obtain ⟨i, hi, rfl⟩ := List.getElem_of_mem hl
      exact (((hF' i (by omega) hi).2.2.2 e).1 he).1
    · intro he
      obtain ⟨b, hb, hsame⟩ := b3 e (List.mem_range.2 he)
      obtain ⟨i, hi, rfl⟩ := List.getElem_of_mem hb
      exact ⟨_, List.getElem_mem (by omega), ((hF' i hi (by omega)).2.2.2 e).2 ⟨he, hsame⟩⟩
  · intro i j p q hp hq
    obtain ⟨hlen, hF'⟩ := List.forall₂_iff_get.1 hF
    have hi := (List.getElem?_eq_some_iff.1 hp).1
    have hj := (List.getElem?_eq_some_iff.1 hq).1
    have ep := edgeAt_of hp
    have eq := edgeAt_of hq
    constructor
    · rintro ⟨l, hl, h1, h2⟩
      obtain ⟨k, hk, rfl⟩ := List.getElem_of_mem hl
      have k1 := (((hF' k (by omega) hk).2.2.2 i).1 h1).2
      have k2 := (((hF' k (by omega) hk).2.2.2 j).1 h2).2
      have hb := List.mem_range.1 (b1 _ (List.getElem_mem (show k < bases.length by omega)))
      have := h.same_trans (edgeAt_mem hb) (h.same_symm (edgeAt_mem hi) k1) k2
      rwa [ep, eq] at this
    · intro hsame
      obtain ⟨b, hb, hbi⟩ := b3 i (List.mem_range.2 hi)
      obtain ⟨k, hk, rfl⟩ := List.getElem_of_mem hb
      refine ⟨_, List.getElem_mem (show k < r.length by omega), ((hF' k hk (by omega)).2.2.2 i).2 ⟨hi, hbi⟩,
        ((hF' k hk (by omega)).2.2.2 j).2 ⟨hj, ?_⟩⟩
      have hij : SameLine points (edgeAt edges i) (edgeAt edges j) := by rw [ep, eq]; exact hsame
      exact h.same_trans (edgeAt_mem hi) hbi hij

/-- C104: two edges on one line with a gap between them make the call undefined: the edge between the two sides of the
gap is looked up without a test. -/
theorem c104_gap (hs : IsSqrt sqrt) (h0 : 0 ≤ g.minTolerance) {sort : (Nat → Nat → Bool) → List Nat → List Nat}
    (hsort : IsSort sort) (h : AlignInput g points edges tangents lengths)
    (hgap : ∃ p ∈ edges, ∃ u w, Gap points edges p u w) {fuel : Nat} (hf : edges.length + 2 ≤ fuel) :
    ∃ A, connectivityToAdjacency points.length edges false = ok A ∧
      g.alignedPolyhedronEdges sqrt sort fuel points A tangents lengths = ub := by
  obtain ⟨A, hA, hadj⟩ := h.graph.adj
  obtain ⟨st, e1, bases, b1, b2, b3, b4⟩ := align_all h hs h0 hadj hf
  refine ⟨A, hA, ?_⟩
  unfold GeoCfg.alignedPolyhedronEdges
  rw [e1, ok_bind]
  obtain ⟨hlen, hF⟩ := List.forall₂_iff_get.1 b4
  have hbl : ∀ (k : Nat) (hk : k < bases.length), bases[k] < edges.length := fun k hk =>
    List.mem_range.1 (b1 _ (List.getElem_mem hk))
  apply mapRes_ub
  · intro l hl
    obtain ⟨k, hk, rfl⟩ := List.getElem_of_mem hl
    have hk' : k < bases.length := by omega
    obtain ⟨vs, c, hv, h2, e3⟩ := h.order (A := A) hsort (hbl k hk') (hF k hk' hk)
    simp only [List.get_eq_getElem] at e3
    rw [e3]
    by_cases hall : ∀ i < vs.length - 1, ∃ e, (do
        let a ← vget vs i
        let b ← vget vs (i + 1)
        edgeBetween A a b) = ok e
    · have : ∀ i, ∃ e, i < vs.length - 1 → (do
        let a ← vget vs i
        let b ← vget vs (i + 1)
        edgeBetween A a b) = ok e := by
        intro i
        by_cases hi : i < vs.length - 1
        · obtain ⟨e, he⟩ := hall i hi
          exact ⟨e, fun _ => he⟩
        · exact ⟨0, fun h => absurd h hi⟩
      choose f hf' using this
      rw [mapRes_eq_map (g := f) fun i hi => hf' i (List.mem_range.1 hi), ok_bind]
      exact Or.inl ⟨_, rfl⟩
    · right
      rw [mapRes_ub]
      · rfl
      · intro i hi
        obtain ⟨u, w, -, -, -, -, -, -, e4, e5⟩ := order_step h hadj hv (List.mem_range.1 hi)
        rw [e4]
        exact e5
      · simp only [not_forall] at hall
        obtain ⟨i, hi, hno⟩ := hall
        obtain ⟨u, w, -, -, -, -, -, -, e4, e5⟩ := order_step h hadj hv hi
        refine ⟨i, List.mem_range.2 hi, ?_⟩
        rw [e4] at hno ⊢
        exact e5.resolve_left hno
  · obtain ⟨p, hp, u, w, hgap⟩ := hgap
    obtain ⟨x, hx⟩ := List.mem_iff_getElem?.1 hp
    have hxl := (List.getElem?_eq_some_iff.1 hx).1
    obtain ⟨b, hb, hbx⟩ := b3 x (List.mem_range.2 hxl)
    obtain ⟨k, hk, rfl⟩ := List.getElem_of_mem hb
    have hk' : k < st.lines.length := by omega
    refine ⟨_, List.getElem_mem hk', ?_⟩
    obtain ⟨vs, c, hv, h2, e3⟩ := h.order (A := A) hsort (hbl k hk) (hF k hk hk')
    simp only [List.get_eq_getElem] at e3
    have hsame : SameLine points (edgeAt edges bases[k]) p := by
      have := hbx
      unfold SameE at this
      rwa [edgeAt_of hx] at this
    have htr : ∀ v, OnEdgeLine points edges p v ↔ v ∈ vs := by
      intro v
      rw [hv.mem v]
      constructor
      · rintro ⟨q, hq, h1, h2⟩
        exact ⟨q, hq, h.same_trans hp hsame h1, h2⟩
      · rintro ⟨q, hq, h1, h2⟩
        exact ⟨q, hq, h.same_trans (edgeAt_mem (hbl k hk)) (h.same_symm hp hsame) h1, h2⟩
    obtain ⟨hu, hw, hne, hno, n1, n2⟩ := hgap
    have hne' := h.corner_ne (edgeAt_mem (hbl k hk))
    have hu' := (htr u).1 hu
    have hw' := (htr w).1 hw
    have hfin : ∀ {x y : Nat}, x ∈ vs → y ∈ vs → c x < c y →
        (∀ v ∈ vs, ¬ Between (corner points x) (corner points y) (corner points v)) → (x, y) ∉ edges →
        (y, x) ∉ edges → orderLine sort points A st.lines[k] = ub := by
      intro x y hx hy hxy hno m1 m2
      obtain ⟨i, hi⟩ := List.mem_iff_getElem?.1 hx
      obtain ⟨j, hj⟩ := List.mem_iff_getElem?.1 hy
      obtain rfl := neighbours hv.order hi hj hxy fun v hvm hb' => hno v hvm (hv.between hx hvm hy hb'.1 hb'.2)
      have hl := (List.getElem?_eq_some_iff.1 hj).1
      rw [e3, mapRes_ub]
      · rfl
      · intro i hi
        obtain ⟨u, w, -, -, -, -, -, -, e4, e5⟩ := order_step h hadj hv (List.mem_range.1 hi)
        rw [e4]
        exact e5
      · refine ⟨i, List.mem_range.2 (by omega), ?_⟩
        rw [vget_some hi, ok_bind, vget_some hj, ok_bind]
        exact edgeBetween_ub hadj (h.onEdge ((hv.mem x).1 hx)).1 m1 m2
    rcases lt_trichotomy (c u) (c w) with hlt | heq | hlt
    · exact hfin hu' hw' hlt (fun v hvm => hno v ((htr v).2 hvm)) n1 n2
    · exfalso
      apply hne
      have h1 := hv.on _ hu'
      have h2 := hv.on _ hw'
      rw [heq, ← h2] at h1
      exact corner_inj h.nodup (h.onEdge ((hv.mem u).1 hu')).1 (h.onEdge ((hv.mem w).1 hw')).1 h1
    · exact hfin hw' hu' hlt (fun v hvm hb' => hno v ((htr v).2 hvm) (between_swap hb')) n2 n1

/-! ### Examples -/

/-- A tetrahedron with a vertex on an edge. -/
def splitTet : List (V3 Int) := [⟨0, 0, 0⟩, ⟨1, 0, 0⟩, ⟨2, 0, 0⟩, ⟨0, 2, 0⟩, ⟨0, 0, 2⟩]

def splitTetEdges : List (Nat × Nat) := [(0, 1), (2, 1), (0, 3), (2, 3), (0, 4), (2, 4), (3, 4)]

theorem splitTet_input : IntInput splitTet splitTetEdges :=
  ⟨by decide +kernel, by decide +kernel, by decide +kernel, by decide +kernel, by decide +kernel, by decide +kernel⟩

/-- `c104_lines_partial` holds for the tetrahedron with a vertex on an edge: the two halves of the edge are in one line
and an edge at their end is not. -/
example {sort : (Nat → Nat → Bool) → List Nat → List Nat} (hsort : IsSort sort) :
    ∃ A r, connectivityToAdjacency 5 splitTetEdges false = ok A ∧
      defaultGeo.alignedPolyhedronEdges Real.sqrt sort 9 (splitTet.map intPt) A (intTangents splitTet splitTetEdges)
        (intLengths splitTet splitTetEdges) = ok r ∧
      (∃ l ∈ r, 0 ∈ l.2 ∧ 1 ∈ l.2) ∧ ¬ ∃ l ∈ r, 0 ∈ l.2 ∧ 2 ∈ l.2 := by
  obtain ⟨A, r, h1, h2, -, -, h5⟩ := c104_lines_partial isSqrt_real defaultGeo_min_nonneg hsort splitTet_input.input
    (splitTet_input.noGap (by decide +kernel)) (splitTet_input.noOverlap (by decide +kernel)) (fuel := 9) le_rfl
  refine ⟨A, r, h1, h2, ?_, ?_⟩
  · rw [h5 0 1 (0, 1) (2, 1) rfl rfl, splitTet_input.same_iff (by decide)]
    decide +kernel
  · rw [h5 0 2 (0, 1) (0, 3) rfl rfl, splitTet_input.same_iff (by decide)]
    decide +kernel

/-- A pyramid over a hexagon with a notch: the edges on both sides of the notch are on one line. -/
def notchPyramid : List (V3 Int) :=
  [⟨0, 2, 0⟩, ⟨1, 2, 0⟩, ⟨2, 1, 0⟩, ⟨3, 2, 0⟩, ⟨4, 2, 0⟩, ⟨2, 0, 0⟩, ⟨2, 0, 3⟩]

def notchEdges : List (Nat × Nat) :=
  [(0, 1), (1, 2), (2, 3), (3, 4), (4, 5), (5, 0), (0, 6), (1, 6), (2, 6), (3, 6), (4, 6), (5, 6)]

theorem notch_input : IntInput notchPyramid notchEdges :=
  ⟨by decide +kernel, by decide +kernel, by decide +kernel, by decide +kernel, by decide +kernel, by decide +kernel⟩

/-- C104 fails for the pyramid with the notch: it meets the hypotheses of `c104_gap`. -/
theorem c104_gap_violated {sort : (Nat → Nat → Bool) → List Nat → List Nat} (hsort : IsSort sort) :
    ∃ A, connectivityToAdjacency 7 notchEdges false = ok A ∧
      defaultGeo.alignedPolyhedronEdges Real.sqrt sort 14 (notchPyramid.map intPt) A
        (intTangents notchPyramid notchEdges) (intLengths notchPyramid notchEdges) = ub :=
  c104_gap isSqrt_real defaultGeo_min_nonneg hsort notch_input.input
    ⟨(0, 1), by decide, 1, 3, notch_input.gap (by decide) (by decide +kernel) (by decide +kernel) (by decide)
      (by decide) (by decide) (by decide +kernel)⟩ le_rfl

end Verif
