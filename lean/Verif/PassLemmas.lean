import Verif.PassModel
import Verif.PassSpec
import Verif.ChordLemmas
import Verif.MetisLemmas
import Verif.ForestLemmas

/-
Helper lemmas: a new vertex on an edge is passed on to the polygons of the edge.
-/
namespace Verif

open Res

variable {α : Type}

theorem flatMap_zipIdx_none (f : (Nat × Nat) × Nat → List (Nat × Nat)) :
    ∀ (l : List (Nat × Nat)) (a : Nat), (∀ p ∈ l.zipIdx a, f p = [p.1]) → (l.zipIdx a).flatMap f = l
  | [], _, _ => rfl
  | x :: l, a, h => by
      rw [List.zipIdx_cons, List.flatMap_cons, h _ (by rw [List.zipIdx_cons]; exact List.mem_cons_self),
        flatMap_zipIdx_none f l (a + 1) (fun p hp => h p (by rw [List.zipIdx_cons]; exact List.mem_cons_of_mem _ hp))]
      rfl

theorem withVertex_eq {vs es : List Nat} {k w h0 h1 : Nat} {dir : Bool} (hl : es.length = vs.length)
    (hk : k < vs.length) :
    withVertex vs es k w h0 h1 dir = (List.range k).map (fun i => (vs.getD i 0, es.getD i 0)) ++
      (vs.getD k 0, if dir then h0 else h1) :: (w, if dir then h1 else h0) ::
      (List.range' (k + 1) (vs.length - (k + 1))).map (fun i => (vs.getD i 0, es.getD i 0)) := by
  have hz : vs.zip es = (List.range k).map (fun i => (vs.getD i 0, es.getD i 0)) ++ ((vs.getD k 0, es.getD k 0) ::
      (List.range' (k + 1) (vs.length - (k + 1))).map (fun i => (vs.getD i 0, es.getD i 0))) := by
    apply List.ext_getElem?
    intro i
    by_cases hi : i < k
    · rw [List.getElem?_append_left (by simpa using hi)]
      simp [hi, List.getElem?_zip_eq_some, show i < vs.length by omega, show i < es.length by omega]
    · rw [List.getElem?_append_right (by simpa using Nat.le_of_not_lt hi)]
      simp only [List.length_map, List.length_range]
      rcases Nat.eq_or_lt_of_le (Nat.le_of_not_lt hi) with rfl | hlt
      · simp [List.getElem?_zip_eq_some, hk, hl ▸ hk]
      · obtain ⟨j, hj⟩ : ∃ j, i - k = j + 1 := ⟨i - k - 1, by omega⟩
        rw [hj, List.getElem?_cons_succ]
        by_cases hin : i < vs.length
        · rw [List.getElem?_map, List.getElem?_range' (by omega)]
          have : k + 1 + 1 * j = i := by omega
          rw [this]
          simp [List.getElem?_zip_eq_some, hin, show i < es.length by omega]
        · rw [List.getElem?_eq_none (by simp; omega), List.getElem?_eq_none (by simp; omega)]
  unfold withVertex boundary
  rw [hz, List.zipIdx_append, List.zipIdx_cons, List.flatMap_append, List.flatMap_cons]
  simp only [List.length_map, List.length_range]
  rw [flatMap_zipIdx_none _ _ _ (fun p hp => ?_), flatMap_zipIdx_none _ _ _ (fun p hp => ?_)]
  · cases dir <;> simp
  · have := List.le_snd_of_mem_zipIdx hp
    rw [if_neg (by omega)]
  · have := List.snd_lt_of_mem_zipIdx hp
    simp only [List.length_map, List.length_range] at this
    rw [if_neg (by omega)]

theorem mem_withVertex {vs es : List Nat} {k w h0 h1 : Nat} {dir : Bool} (hl : es.length = vs.length)
    (hk : k < vs.length) (x : Nat) :
    x ∈ (withVertex vs es k w h0 h1 dir).map Prod.snd ↔ (∃ i, i ≠ k ∧ es[i]? = some x) ∨ x = h0 ∨ x = h1 := by
  rw [withVertex_eq hl hk]
  simp only [List.map_append, List.map_map, List.map_cons, List.mem_append, List.mem_map, List.mem_cons, List.mem_range,
    Function.comp_apply, List.mem_range'_1]
  constructor
  · rintro (⟨i, hi, rfl⟩ | rfl | rfl | ⟨i, hi, rfl⟩)
    · exact .inl ⟨i, by omega, by simp [show i < es.length by omega]⟩
    · cases dir <;> simp
    · cases dir <;> simp
    · exact .inl ⟨i, by omega, by simp [show i < es.length by omega]⟩
  · rintro (⟨i, hi, hx⟩ | rfl | rfl)
    · obtain ⟨hlt, rfl⟩ := List.getElem?_eq_some_iff.1 hx
      rcases Nat.lt_or_gt_of_ne hi with h | h
      · exact .inl ⟨i, h, by simp [hlt]⟩
      · exact .inr (.inr (.inr ⟨i, by omega, by simp [hlt]⟩))
    · cases dir <;> simp
    · cases dir <;> simp

theorem withVertex_lt {m : Mesh α} {d k w h0 h1 : Nat} {dir : Bool} {vs es : List Nat} (h : BoundedBy m d vs es)
    (hw : w < m.num .d0) (hh0 : h0 < m.num .d1) (hh1 : h1 < m.num .d1) (hk : k < vs.length) :
    ∀ p ∈ withVertex vs es k w h0 h1 dir, p.1 < m.num .d0 ∧ p.2 < m.num .d1 := by
  have hl := h.count
  rw [withVertex_eq hl hk]
  have hv : ∀ i, i < vs.length → vs.getD i 0 < m.num .d0 := fun i hi => h.vertex_lt _ (by simp [hi])
  have he : ∀ i, i < vs.length → es.getD i 0 < m.num .d1 := fun i hi => h.edge_lt _ (by simp [hl ▸ hi])
  intro p hp
  simp only [List.mem_append, List.mem_map, List.mem_cons, List.mem_range, List.mem_range'_1] at hp
  rcases hp with ⟨i, hi, rfl⟩ | rfl | rfl | ⟨i, hi, rfl⟩
  · exact ⟨hv _ (by omega), he _ (by omega)⟩
  · refine ⟨hv _ hk, ?_⟩
    cases dir <;> assumption
  · refine ⟨hw, ?_⟩
    cases dir <;> assumption
  · exact ⟨hv _ (by omega), he _ (by omega)⟩

theorem SideOnce.lt {m : Mesh α} {d e k : Nat} {vs es : List Nat} (h : SideOnce m d e k vs es) : k < vs.length := by
  have := (List.getElem?_eq_some_iff.1 ((h.side k).2 rfl)).1
  rw [h.count] at this
  exact this

theorem SideOnce.find {m : Mesh α} {d e k : Nat} {vs es : List Nat} (h : SideOnce m d e k vs es) :
    Mesh.findIn es e = k := by
  have hm : e ∈ es := List.mem_of_getElem? ((h.side k).2 rfl)
  unfold Mesh.findIn
  have hlt : es.findIdx (fun y => y == e) < es.length := List.findIdx_lt_length_of_exists ⟨e, hm, by simp⟩
  have hp := List.findIdx_getElem (w := hlt)
  simp only [beq_iff_eq] at hp
  exact (h.side _).1 (by rw [List.getElem?_eq_getElem hlt, hp])

theorem ReplacedAll.refl {m : Mesh α} (h : m.WF) (R : Nat → List (Nat × Nat)) : ReplacedAll m m [] R where
  wf := h
  num2 := rfl
  num := fun _ _ => rfl
  coordinates := fun _ _ => rfl
  extremes := fun _ _ => rfl
  vertices := by simp
  edges := by simp
  activeNew := by simp
  markerNew := by simp
  originalNew := by simp
  updatedNew := by simp
  inactive := by simp
  updatedOld := by simp
  active := fun _ _ _ _ => rfl
  marker := fun _ _ _ => rfl
  original := fun _ _ _ => rfl
  updated := fun _ _ _ _ => rfl
  rows := fun _ _ _ _ _ => rfl
  polygonsOfEdges := fun x r h => by simpa using h
  polygonsOfVertices := fun x r h => by simpa using h

theorem heir_one (c first : Nat) (s : List Nat) (x : Nat) : heir c first [s] x = if x ∈ s then first else c := by
  unfold heir
  by_cases h : x ∈ s <;> simp [List.findIdx?_cons, h]

/-- One more polygon is replaced. -/
theorem ReplacedAll.step [Zero α] {m m' : Mesh α} {ns : List Nat} {R : Nat → List (Nat × Nat)}
    (h : ReplacedAll m m' ns R) {d : Nat} (hd : d < m.num .d2) (hn : d ∉ ns) (hns : ∀ x ∈ ns, x < m.num .d2)
    (hR : ∀ p ∈ R d, p.1 < m.num .d0 ∧ p.2 < m.num .d1) :
    ∃ m'', m'.splitCell2D d [R d] = ok (m'', [m.num .d2 + ns.length]) ∧ ReplacedAll m m'' (ns ++ [d]) R := by
  obtain ⟨y, hy, wfy, others, parent, sub, rep0, rep1⟩ := c39_split_partial m' h.wf d (by rw [h.num2]; omega) [R d] (by
    intro s hs p hp
    rw [List.mem_singleton] at hs
    subst hs
    rw [h.num _ (by simp), h.num _ (by simp)]
    exact hR p hp)
  have s0 := sub 0 _ rfl
  rw [h.num2] at s0
  refine ⟨y, ?_, ?_⟩
  · rw [hy, h.num2]
    rfl
  have lt : ∀ {d' i}, i < m.num d' → i < m'.num d' := by
    intro d' i hi
    by_cases hd' : d' = .d2
    · subst hd'; rw [h.num2]; omega
    · rw [h.num _ hd']; exact hi
  have old : ∀ {j}, j < ns.length → m.num .d2 + j < m'.num .d2 ∧ m.num .d2 + j ≠ d := by
    intro j hj
    rw [h.num2]
    omega
  have key : ∀ {j x}, (ns ++ [d])[j]? = some x → ns[j]? = some x ∧ j < ns.length ∨ j = ns.length ∧ x = d := by
    intro j x hj
    by_cases hlt : j < ns.length
    · rw [List.getElem?_append_left hlt] at hj
      exact .inl ⟨hj, hlt⟩
    · rw [List.getElem?_append_right (by omega)] at hj
      have : j - ns.length = 0 := by
        by_contra h0
        rw [List.getElem?_eq_none (by simp; omega)] at hj
        cases hj
      rw [this] at hj
      cases hj
      exact .inr ⟨by omega, rfl⟩
  have around : ∀ (g : Nat × Nat → Nat) (x : Nat) (r : List Nat),
      (r.map fun y => if y ∈ ns ∧ x ∈ (R y).map g then m.num .d2 + ns.idxOf y else y).map
        (fun y => if y = d then heir d (m'.num .d2) ([R d].map (List.map g)) x else y) =
      r.map fun y => if y ∈ ns ++ [d] ∧ x ∈ (R y).map g then m.num .d2 + (ns ++ [d]).idxOf y else y := by
    intro g x r
    rw [List.map_map]
    apply List.map_congr_left
    intro y _
    simp only [Function.comp_apply]
    by_cases hyn : y ∈ ns
    · have hyd : y ≠ d := fun e => hn (e ▸ hyn)
      have := hns y hyn
      rw [List.idxOf_append_of_mem hyn]
      by_cases hx : x ∈ (R y).map g
      · have e : (if y ∈ ns ∧ x ∈ (R y).map g then m.num .d2 + ns.idxOf y else y) = m.num .d2 + ns.idxOf y :=
          if_pos ⟨hyn, hx⟩
        rw [e, if_neg (by omega), if_pos ⟨by simp [hyn], hx⟩]
      · have e : (if y ∈ ns ∧ x ∈ (R y).map g then m.num .d2 + ns.idxOf y else y) = y := if_neg (fun c => hx c.2)
        rw [e, if_neg hyd, if_neg (fun c => hx c.2)]
    · have e : (if y ∈ ns ∧ x ∈ (R y).map g then m.num .d2 + ns.idxOf y else y) = y := if_neg (fun c => hyn c.1)
      rw [e]
      by_cases hyd : y = d
      · subst hyd
        rw [if_pos rfl, List.map_singleton, heir_one, h.num2, List.idxOf_append_of_notMem hyn, List.idxOf_cons_self,
          Nat.add_zero]
        by_cases hx : x ∈ (R y).map g
        · rw [if_pos hx, if_pos ⟨by simp, hx⟩]
        · rw [if_neg hx, if_neg (fun c => hx c.2)]
      · rw [if_neg hyd, if_neg (by simp [hyn, hyd])]
  exact {
    wf := wfy
    num2 := by rw [others.num2, h.num2]; simp; omega
    num := fun d' hd' => by rw [others.num _ hd', h.num _ hd']
    coordinates := fun i hi => by rw [others.coordinates i (lt hi), h.coordinates i hi]
    extremes := fun i hi => by rw [others.extremes i (lt hi), h.extremes i hi]
    vertices := by
      intro j x hj
      rcases key hj with ⟨h1, h2⟩ | ⟨rfl, rfl⟩
      · rw [others.rows _ _ (old h2).1 (by simp) (by simp), h.vertices j x h1]
      · exact s0.vertices
    edges := by
      intro j x hj
      rcases key hj with ⟨h1, h2⟩ | ⟨rfl, rfl⟩
      · rw [others.rows _ _ (old h2).1 (by simp) (by simp), h.edges j x h1]
      · exact s0.edges
    activeNew := by
      intro j hj
      obtain ⟨x, hx⟩ : ∃ x, (ns ++ [d])[j]? = some x := ⟨_, List.getElem?_eq_getElem hj⟩
      rcases key hx with ⟨h1, h2⟩ | ⟨rfl, rfl⟩
      · rw [others.active _ _ (old h2).1 (fun e => (old h2).2 e.2), h.activeNew j h2]
      · exact s0.active
    markerNew := by
      intro j x hj
      rcases key hj with ⟨h1, h2⟩ | ⟨rfl, rfl⟩
      · rw [others.marker _ _ (old h2).1, h.markerNew j x h1]
      · exact s0.marker.trans (h.marker _ _ hd)
    originalNew := by
      intro j x hj
      rcases key hj with ⟨h1, h2⟩ | ⟨rfl, rfl⟩
      · rw [others.original _ _ (old h2).1, h.originalNew j x h1]
      · exact s0.original
    updatedNew := by
      intro j hj
      obtain ⟨x, hx⟩ : ∃ x, (ns ++ [d])[j]? = some x := ⟨_, List.getElem?_eq_getElem hj⟩
      rcases key hx with ⟨h1, h2⟩ | ⟨rfl, rfl⟩
      · rw [others.updated _ _ (old h2).1 (fun e => (old h2).2 e.2), h.updatedNew j h2]
      · exact s0.updated
    inactive := by
      intro x hx
      rw [List.mem_append, List.mem_singleton] at hx
      by_cases hxd : x = d
      · rw [hxd]; exact parent.inactive
      · have hx' : x ∈ ns := hx.resolve_right hxd
        rw [others.active _ _ (lt (hns x hx')) (fun e => hxd e.2), h.inactive x hx']
    updatedOld := by
      intro j x hj
      rcases key hj with ⟨h1, h2⟩ | ⟨rfl, rfl⟩
      · have hx' : x ∈ ns := List.mem_of_getElem? h1
        rw [others.updated _ _ (lt (hns x hx')) (fun e => hn (e.2 ▸ hx'))]
        exact h.updatedOld j x h1
      · obtain ⟨old', new, e1, e2, e3⟩ := parent.updated
        rw [h.updated _ _ hd (by simp [hn])] at e1
        have hin : m.num .d2 + ns.length ∈ new.getD [] := (e3 _).2 (.inr (by rw [h.num2]; simp))
        cases hnew : new with
        | none => rw [hnew] at hin; simp at hin
        | some l =>
          rw [hnew] at e2 e3
          refine ⟨old', l, e1, e2, fun z => ?_⟩
          rw [show (some l).getD [] = l from rfl] at e3
          rw [e3 z, h.num2]
          simp only [List.length_singleton]
          constructor
          · rintro (hz | hz)
            · exact .inl hz
            · exact .inr (by omega)
          · rintro (hz | hz)
            · exact .inl hz
            · exact .inr (by omega)
    active := fun d' i hi hne => by
      rw [List.mem_append, List.mem_singleton] at hne
      rw [others.active d' i (lt hi) (fun e => hne ⟨e.1, .inr e.2⟩), h.active d' i hi (fun e => hne ⟨e.1, .inl e.2⟩)]
    marker := fun d' i hi => by rw [others.marker d' i (lt hi), h.marker d' i hi]
    original := fun d' i hi => by rw [others.original d' i (lt hi), h.original d' i hi]
    updated := fun d' i hi hne => by
      rw [List.mem_append, List.mem_singleton] at hne
      rw [others.updated d' i (lt hi) (fun e => hne ⟨e.1, .inr e.2⟩), h.updated d' i hi (fun e => hne ⟨e.1, .inl e.2⟩)]
    rows := fun l i hi h2 h3 => by rw [others.rows l i (lt hi) h2 h3, h.rows l i hi h2 h3]
    polygonsOfEdges := fun x r hr => by
      rw [rep1 _ _ (h.polygonsOfEdges x r hr), around]
    polygonsOfVertices := fun x r hr => by
      rw [rep0 _ _ (h.polygonsOfVertices x r hr), around] }

theorem columns_eq {α : Type} {m : Mesh α} [Zero α] (h : m.WF) {d : Nat} {vs es : List Nat} (hb : BoundedBy m d vs es)
    {l : List Nat} (hl : ∀ i ∈ l, i < vs.length) :
    mapRes (m.column d) l = ok (l.map fun i => (vs.getD i 0, es.getD i 0)) := by
  apply mapRes_eq_map
  intro i hi
  have := hl i hi
  unfold Mesh.column
  rw [entry_getD h hb.vertices this, ok_bind, entry_getD h hb.edges (by rw [hb.count]; exact this), ok_bind]

theorem columnsAt_eq {vs es l : List Nat} (hc : es.length = vs.length) (hl : ∀ i ∈ l, i < vs.length) :
    mapRes (Mesh.columnAt vs es) l = ok (l.map fun i => (vs.getD i 0, es.getD i 0)) := by
  apply mapRes_eq_map
  intro i hi
  have := hl i hi
  unfold Mesh.columnAt
  rw [vat_of_getElem? (a := vs.getD i 0) (by simp [this]), ok_bind,
    vat_of_getElem? (a := es.getD i 0) (by simp [hc, this]), ok_bind]

/-- `UpdateCell2D_NewVertex`. -/
theorem addVertexOnEdge_spec [Zero α] {m : Mesh α} (h : m.WF) {d k w h0 h1 : Nat} {dir : Bool} {vs es : List Nat}
    (hb : BoundedBy m d vs es) (hk : k < vs.length) (hw : w < m.num .d0) (hh0 : h0 < m.num .d1)
    (hh1 : h1 < m.num .d1) :
    ∃ m', m.addVertexOnEdge d dir k [h0, h1] w = ok (m', m.num .d2) ∧
      ReplacedAll m m' [d] (fun _ => withVertex vs es k w h0 h1 dir) := by
  have hd : d < m.num .d2 := lt_of_row hb.vertices
  obtain ⟨m', e1, e2⟩ := (ReplacedAll.refl h (fun _ => withVertex vs es k w h0 h1 dir)).step hd (by simp) (by simp)
    (withVertex_lt hb hw hh0 hh1 hk)
  refine ⟨m', ?_, e2⟩
  unfold Mesh.addVertexOnEdge
  rw [rowSize_of_row h hb.vertices, ok_bind, hb.vertices, ok_bind, hb.edges, ok_bind,
    columnsAt_eq hb.count (fun i hi => by rw [List.mem_range] at hi; omega), ok_bind,
    vat_of_getElem? (a := vs.getD k 0) (by simp [hk]), ok_bind,
    vat_of_getElem? (a := if dir then h0 else h1) (by cases dir <;> rfl), ok_bind,
    vat_of_getElem? (a := if dir then h1 else h0) (by cases dir <;> rfl), ok_bind,
    columnsAt_eq hb.count (fun i hi => by rw [List.mem_range'_1] at hi; omega), ok_bind,
    ← withVertex_eq hb.count hk, e1, ok_bind]
  rfl

/-- The loop over the polygons of the edge. -/
theorem passLoop_spec [Zero α] {m : Mesh α} (h : m.WF) {c e w h0 h1 : Nat} {directions : List (List Bool)}
    {r : List Nat} (hr : m.row .nb12 e = ok r) (hf : ∀ y ∈ r, y < m.num .d2 ∨ m.num .d2 + r.length ≤ y)
    (hw : w < m.num .d0) (hh0 : h0 < m.num .d1) (hh1 : h1 < m.num .d1) (he0 : h0 ≠ e) (he1 : h1 ≠ e)
    {k : Nat → Nat} {dir : Nat → Bool} {vs es : Nat → List Nat}
    (hside : ∀ d ∈ r, d < m.num .d2 → d ≠ c → m.updated .d2 d = ok none →
      SideOnce m d e (k d) (vs d) (es d) ∧ ∃ ds, directions[d]? = some ds ∧ ds[k d]? = some (dir d)) :
    ∀ n, n ≤ r.length → ∃ m' ns,
      foldRes (Mesh.passToNeighbour c e w [h0, h1] directions) (m, []) (List.range n) =
        ok (m', ns.zipIdx.map fun p => (p.1, m.num .d2 + p.2)) ∧
      Concerned m c (r.take n) ns ∧
      ReplacedAll m m' ns (fun d => withVertex (vs d) (es d) (k d) w h0 h1 (dir d)) := by
  intro n
  induction n with
  | zero => exact fun _ => ⟨m, [], rfl, ⟨by simp, by simp, by simp⟩, ReplacedAll.refl h _⟩
  | succ n ih =>
    intro hn
    obtain ⟨m', ns, hrun, hc, hR⟩ := ih (by omega)
    have hnlt : n < r.length := by omega
    obtain ⟨v, hv⟩ : ∃ v, r[n]? = some v := ⟨_, List.getElem?_eq_getElem hnlt⟩
    have hvr : v ∈ r := List.mem_of_getElem? hv
    have htake : r.take (n + 1) = r.take n ++ [v] := by rw [List.take_add_one, hv]; rfl
    have hnsr : ∀ d ∈ ns, d ∈ r := fun d hd => List.mem_of_mem_take (hc.sub.subset hd)
    have hnslt : ∀ d ∈ ns, d < m.num .d2 := fun d hd => ((hc.mem d).1 hd).2.1
    have hle : ns.length ≤ n := by
      have := hc.sub.length_le
      rw [List.length_take] at this
      omega
    -- the list of the edge stays
    have hre : m'.row .nb12 e = ok r := by
      rw [hR.polygonsOfEdges e r hr]
      congr 1
      conv_rhs => rw [← List.map_id r]
      apply List.map_congr_left
      intro y hy
      rw [if_neg]
      · rfl
      · rintro ⟨hyn, hye⟩
        obtain ⟨-, q1, q2, q3⟩ := (hc.mem y).1 hyn
        obtain ⟨hs, -⟩ := hside y hy q1 q2 q3
        rcases (mem_withVertex hs.count hs.lt e).1 hye with ⟨i, hi, hx⟩ | hx | hx
        · exact hi ((hs.side i).1 hx)
        · exact he0 hx.symm
        · exact he1 hx.symm
    have skip : ¬ (v < m.num .d2 ∧ v ≠ c ∧ m.updated .d2 v = ok none) ∨ v ∈ ns →
        Mesh.passToNeighbour c e w [h0, h1] directions (m', ns.zipIdx.map fun p => (p.1, m.num .d2 + p.2)) n =
          ok (m', ns.zipIdx.map fun p => (p.1, m.num .d2 + p.2)) → ∃ m'' ns',
      foldRes (Mesh.passToNeighbour c e w [h0, h1] directions) (m, []) (List.range (n + 1)) =
        ok (m'', ns'.zipIdx.map fun p => (p.1, m.num .d2 + p.2)) ∧
      Concerned m c (r.take (n + 1)) ns' ∧
      ReplacedAll m m'' ns' (fun d => withVertex (vs d) (es d) (k d) w h0 h1 (dir d)) := by
      intro hno hstep
      refine ⟨m', ns, ?_, ⟨?_, hc.once, fun d => ?_⟩, hR⟩
      · rw [List.range_succ, foldRes_append, hrun, ok_bind]
        simp only [foldRes, hstep, ok_bind]
      · rw [htake]; exact hc.sub.trans (List.sublist_append_left _ _)
      · rw [hc.mem, htake, List.mem_append, List.mem_singleton]
        constructor
        · rintro ⟨q1, q2⟩; exact ⟨.inl q1, q2⟩
        · rintro ⟨q1 | rfl, q2⟩
          · exact ⟨q1, q2⟩
          · rcases hno with hno | hno
            · exact absurd q2 hno
            · exact (hc.mem _).1 hno
    have hhas := hasEntry_of_row hR.wf hre hv
    have hent := entry_of_row hR.wf hre hv
    by_cases hlt : v < m.num .d2
    · have hlt' : v < m'.num .d2 := by rw [hR.num2]; omega
      by_cases hvc : v = c
      · apply skip (.inl (fun q => q.2.1 hvc))
        unfold Mesh.passToNeighbour
        simp only [hhas, ok_bind, show Lst.nb12.target = .d2 from rfl, hlt', decide_true, Bool.not_true, hent, hvc]
        simp
      · by_cases hup : m'.updated .d2 v = ok none
        · -- the polygon is replaced
          have hvn : v ∉ ns := by
            intro hin
            obtain ⟨j, hj⟩ := List.getElem?_of_mem hin
            obtain ⟨_, new, -, e2, -⟩ := hR.updatedOld j v hj
            rw [hup] at e2
            cases e2
          have hup' : m.updated .d2 v = ok none := by
            rw [← hR.updated .d2 v hlt (by simp [hvn])]; exact hup
          obtain ⟨hs, ds, hds, hdir⟩ := hside v hvr hlt hvc hup'
          have hb' : BoundedBy m' v (vs v) (es v) :=
            ⟨by rw [hR.rows _ _ hlt (by simp) (by simp)]; exact hs.vertices,
             by rw [hR.rows _ _ hlt (by simp) (by simp)]; exact hs.edges, hs.count,
             fun x hx => by rw [hR.num _ (by simp)]; exact hs.vertex_lt x hx,
             fun x hx => by rw [hR.num _ (by simp)]; exact hs.edge_lt x hx⟩
          obtain ⟨m'', e1, e2⟩ := hR.step hlt hvn hnslt (withVertex_lt hs.toBoundedBy hw hh0 hh1 hs.lt)
          have hk := hs.lt
          refine ⟨m'', ns ++ [v], ?_, ⟨?_, ?_, fun d => ?_⟩, e2⟩
          · rw [List.range_succ, foldRes_append, hrun, ok_bind]
            have hstep : Mesh.passToNeighbour c e w [h0, h1] directions
                (m', ns.zipIdx.map fun p => (p.1, m.num .d2 + p.2)) n =
                ok (m'', (ns ++ [v]).zipIdx.map fun p => (p.1, m.num .d2 + p.2)) := by
              unfold Mesh.passToNeighbour
              simp only [hhas, ok_bind, show Lst.nb12.target = .d2 from rfl, hlt', decide_true, Bool.not_true, hent,
                if_neg hvc, hup]
              rw [if_neg (by simp), if_neg (by simp), rowSize_of_row hR.wf hb'.vertices, ok_bind]
              unfold Mesh.findEntry
              rw [hb'.edges, ok_bind, ok_bind, hs.find, vget_eq_ok.2 hds, ok_bind, vget_eq_ok.2 hdir, ok_bind,
                columns_eq hR.wf hb' (fun i hi => by rw [List.mem_range] at hi; omega), ok_bind,
                entry_getD hR.wf hb'.vertices hk, ok_bind,
                vget_eq_ok.2 (show [h0, h1][_]? = some (if dir v then h0 else h1) by cases dir v <;> rfl), ok_bind,
                vget_eq_ok.2 (show [h0, h1][_]? = some (if dir v then h1 else h0) by cases dir v <;> rfl), ok_bind,
                columns_eq hR.wf hb' (fun i hi => by rw [List.mem_range'_1] at hi; omega), ok_bind,
                ← withVertex_eq hs.count hk, e1, ok_bind]
              simp [List.zipIdx_append]
            simp only [foldRes, hstep, ok_bind]
          · rw [htake]; exact hc.sub.append (List.Sublist.refl _)
          · rw [List.nodup_append]
            exact ⟨hc.once, by simp, fun a ha b hb => by
              rw [List.mem_singleton] at hb; rintro rfl; exact hvn (hb ▸ ha)⟩
          · rw [htake, List.mem_append, List.mem_append, hc.mem, List.mem_singleton]
            constructor
            · rintro (⟨q1, q2⟩ | rfl)
              · exact ⟨.inl q1, q2⟩
              · exact ⟨.inr rfl, hlt, hvc, hup'⟩
            · rintro ⟨q1 | q1, q2⟩
              · exact .inl ⟨q1, q2⟩
              · exact .inr q1
        · have hu := Mesh.updated_of_lt hlt'
          have hsome : ∃ x, m'.updated .d2 v = ok (some x) := by
            rw [hu] at hup ⊢
            cases hx : mapFind (m'.upd .d2) v with
            | none => rw [hx] at hup; exact absurd rfl hup
            | some x => exact ⟨x, rfl⟩
          obtain ⟨x, hx⟩ := hsome
          refine skip ?_ ?_
          · by_cases hin : v ∈ ns
            · exact .inr hin
            · refine .inl (fun q => hup ?_)
              rw [hR.updated .d2 v hlt (by simp [hin])]
              exact q.2.2
          · unfold Mesh.passToNeighbour
            simp only [hhas, ok_bind, show Lst.nb12.target = .d2 from rfl, hlt', decide_true, Bool.not_true, hent,
              if_neg hvc, hx]
            simp
    · have hge : ¬ v < m'.num .d2 := by
        rcases hf v hvr with q | q
        · exact absurd q hlt
        · rw [hR.num2]; omega
      apply skip (.inl (fun q => hlt q.1))
      unfold Mesh.passToNeighbour
      simp only [hhas, ok_bind, show Lst.nb12.target = .d2 from rfl, hge, decide_false, Bool.not_false]
      simp

end Verif
