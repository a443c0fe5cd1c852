import Verif.Pass3Model
import Verif.Pass3Spec
import Verif.PassLemmas
import Verif.Split3Props
import Verif.CheckLemmas

/-
Helper lemmas: a new vertex on an edge is passed on to the polyhedra of the edge.
-/
namespace Verif

open Res

variable {α : Type}

theorem getElem?_snoc {ns : List Nat} {d j x : Nat} (hj : (ns ++ [d])[j]? = some x) :
    ns[j]? = some x ∧ j < ns.length ∨ j = ns.length ∧ x = d := by
  by_cases hlt : j < ns.length
  · rw [List.getElem?_append_left hlt] at hj
    exact .inl ⟨hj, hlt⟩
  · rw [List.getElem?_append_right (by omega)] at hj
    have : j - ns.length = 0 := by
      by_contra h0
      rw [List.getElem?_eq_none (by simp; omega)] at hj
      cases hj
    rw [this] at hj
    cases hj
    exact .inr ⟨by omega, rfl⟩

theorem TakesPlace.mono {m : Mesh α} {e : Nat} {M M' : List (Nat × Nat)} (hM : ∀ p ∈ M, p ∈ M') {f f' : Nat}
    (h : TakesPlace m e M f f') : TakesPlace m e M' f f' := by
  obtain ⟨l, hl, h⟩ := h
  exact ⟨l, hl, h.imp (fun h => ⟨h.1, hM _ h.2⟩) id⟩

theorem PassedOn.refl {m : Mesh α} (h : m.WF) (e w h0 h1 : Nat) (B : Nat → List (Nat × Nat)) (M : List (Nat × Nat)) :
    PassedOn m m e w h0 h1 B [] [] M where
  wf := h
  num0 := rfl
  num1 := rfl
  num2 := rfl
  num3 := rfl
  coordinates := fun _ _ => rfl
  extremes := fun _ _ => rfl
  polygons := by simp
  solids := by simp
  oldPolygons := by simp
  oldSolids := by simp
  active := fun _ _ _ _ _ => rfl
  marker := fun _ _ _ => rfl
  original := fun _ _ _ => rfl
  updated := fun _ _ _ _ _ => rfl
  rows := fun _ _ _ _ _ _ _ _ => rfl
  around := rfl

theorem PassedOn.lt {m m' : Mesh α} {e w h0 h1 : Nat} {B : Nat → List (Nat × Nat)} {fs ns : List Nat}
    {M : List (Nat × Nat)} (h : PassedOn m m' e w h0 h1 B fs ns M) {d : Dim} {i : Nat} (hi : i < m.num d) : i < m'.num d := by
  cases d
  · rw [h.num0]; exact hi
  · rw [h.num1]; exact hi
  · rw [h.num2]; omega
  · rw [h.num3]; omega

/-- One more polygon is replaced. -/
theorem PassedOn.face {m m' m'' : Mesh α} {e w h0 h1 : Nat} {B : Nat → List (Nat × Nat)} {fs ns : List Nat}
    {M M' : List (Nat × Nat)} (h : PassedOn m m' e w h0 h1 B fs ns M) (he : e < m.num .d1) {f : Nat} (hf : f < m.num .d2)
    (hn : f ∉ fs) (hM : ∀ p ∈ M, p ∈ M') (hfs : ∀ x ∈ fs, x < m.num .d2) (hns : ∀ x ∈ ns, x < m.num .d3)
    {R : Nat → List (Nat × Nat)} (hR : ReplacedAll m' m'' [f] R) (hB : R f = B f) :
    PassedOn m m'' e w h0 h1 B (fs ++ [f]) ns M' := by
  have z : [f][0]? = some f := rfl
  have n2 : m'.num .d2 + 0 = m.num .d2 + fs.length := by rw [h.num2]; rfl
  have o2 : ∀ {j}, j < fs.length → m.num .d2 + j < m'.num .d2 ∧ m.num .d2 + j ≠ f := by
    intro j hj; rw [h.num2]; omega
  have o3 : ∀ {j}, j < ns.length → m.num .d3 + j < m'.num .d3 := by
    intro j hj; rw [h.num3]; omega
  exact {
    wf := hR.wf
    num0 := by rw [hR.num _ (by simp), h.num0]
    num1 := by rw [hR.num _ (by simp), h.num1]
    num2 := by rw [hR.num2, h.num2]; simp; omega
    num3 := by rw [hR.num _ (by simp), h.num3]
    coordinates := fun i hi => by rw [hR.coordinates i (h.lt hi), h.coordinates i hi]
    extremes := fun i hi => by rw [hR.extremes i (h.lt hi), h.extremes i hi]
    polygons := by
      intro j x hj
      rcases getElem?_snoc hj with ⟨h1, h2⟩ | ⟨rfl, rfl⟩
      · have l := (o2 h2).1
        have ne : ¬ (Dim.d2 = .d2 ∧ m.num .d2 + j ∈ [f]) := by simpa using (o2 h2).2
        rw [hR.rows _ _ l (by simp) (by simp), hR.rows _ _ l (by simp) (by simp), hR.active _ _ l ne, hR.marker _ _ l,
          hR.original _ _ l, hR.updated _ _ l ne]
        exact h.polygons j x h1
      · have v := hR.vertices 0 x z
        have ed := hR.edges 0 x z
        have a := hR.activeNew 0 (by simp)
        have mk := hR.markerNew 0 x z
        have o := hR.originalNew 0 x z
        have u := hR.updatedNew 0 (by simp)
        rw [n2] at v ed a mk o u
        rw [hB] at v ed
        exact ⟨v, ed, a, by rw [mk, h.marker _ _ hf], o, u⟩
    solids := by
      intro j q hj
      have hjl := (List.getElem?_eq_some_iff.1 hj).1
      have l := o3 hjl
      obtain ⟨vs, es, gs, gs', q1, q2, q3, q4, q5, q6, q7, q8, q9, q10, q11⟩ := h.solids j q hj
      exact ⟨vs, es, gs, gs', q1, q2, q3, by rw [hR.rows _ _ l (by simp) (by simp), q4],
        by rw [hR.rows _ _ l (by simp) (by simp), q5], by rw [hR.rows _ _ l (by simp) (by simp), q6],
        q7.imp (fun _ _ => TakesPlace.mono hM), by rw [hR.active _ _ l (by simp), q8], by rw [hR.marker _ _ l, q9],
        by rw [hR.original _ _ l, q10], by rw [hR.updated _ _ l (by simp), q11]⟩
    oldPolygons := by
      intro j x hj
      rcases getElem?_snoc hj with ⟨h1, h2⟩ | ⟨rfl, rfl⟩
      · have hx := List.mem_of_getElem? h1
        have ne : ¬ (Dim.d2 = .d2 ∧ x ∈ [f]) := by
          simp only [true_and, List.mem_singleton]
          rintro rfl
          exact hn hx
        rw [hR.active _ _ (h.lt (hfs x hx)) ne, hR.updated _ _ (h.lt (hfs x hx)) ne]
        exact h.oldPolygons j x h1
      · refine ⟨hR.inactive x (by simp), ?_⟩
        obtain ⟨old, new, e1, e2, e3⟩ := hR.updatedOld 0 x z
        rw [h.updated _ _ hf (by simp [hn]) (by simp)] at e1
        rw [n2] at e3
        exact ⟨old, new, e1, e2, e3⟩
    oldSolids := by
      intro j q hj
      have hq := hns q (List.mem_of_getElem? hj)
      rw [hR.active _ _ (h.lt hq) (by simp), hR.updated _ _ (h.lt hq) (by simp)]
      exact h.oldSolids j q hj
    active := fun d i hi hne hne' => by
      rw [List.mem_append] at hne
      rw [hR.active d i (h.lt hi) (fun e => hne ⟨e.1, .inr e.2⟩), h.active d i hi (fun e => hne ⟨e.1, .inl e.2⟩) hne']
    marker := fun d i hi => by rw [hR.marker d i (h.lt hi), h.marker d i hi]
    original := fun d i hi => by rw [hR.original d i (h.lt hi), h.original d i hi]
    updated := fun d i hi hne hne' => by
      rw [List.mem_append] at hne
      rw [hR.updated d i (h.lt hi) (fun e => hne ⟨e.1, .inr e.2⟩), h.updated d i hi (fun e => hne ⟨e.1, .inl e.2⟩) hne']
    rows := fun l i hi a1 a2 a3 a4 a5 => by rw [hR.rows l i (h.lt hi) a1 a2, h.rows l i hi a1 a2 a3 a4 a5]
    around := by rw [hR.rows .nb13 e (h.lt (d := .d1) he) (by simp) (by simp), h.around] }

/-- One more polyhedron is replaced. -/
theorem PassedOn.solid [Zero α] {m m' : Mesh α} {e w h0 h1 : Nat} {B : Nat → List (Nat × Nat)} {fs ns : List Nat}
    {M : List (Nat × Nat)} (h : PassedOn m m' e w h0 h1 B fs ns M) {q : Nat} (hq : q < m.num .d3)
    (hn : q ∉ ns) (hfs : ∀ x ∈ fs, x < m.num .d2) (hns : ∀ x ∈ ns, x < m.num .d3) {vs es gs gs' r : List Nat}
    (hs : SolidOf m q vs es gs) (hw : w < m.num .d0) (hh0 : h0 < m.num .d1) (hh1 : h1 < m.num .d1) (he0 : h0 ≠ e)
    (he1 : h1 ≠ e) (hr : m.row .nb13 e = ok r) (hg : List.Forall₂ (TakesPlace m e M) gs gs')
    (hg' : ∀ x ∈ gs', x < m'.num .d2) :
    ∃ m'', m'.splitCell3D q [vs ++ [w]] [(es.map fun x => if x = e then h0 else x) ++ [h1]] [gs'] =
        ok (m'', [m.num .d3 + ns.length]) ∧ PassedOn m m'' e w h0 h1 B fs (ns ++ [q]) M := by
  obtain ⟨es', hes'⟩ : ∃ es', es' = (es.map fun x => if x = e then h0 else x) ++ [h1] := ⟨_, rfl⟩
  have hlt : ∀ x ∈ es', x < m.num .d1 ∧ x ≠ e := by
    intro x hx
    rw [hes', List.mem_append, List.mem_singleton, List.mem_map] at hx
    rcases hx with ⟨y, hy, rfl⟩ | rfl
    · by_cases hye : y = e
      · rw [if_pos hye]; exact ⟨hh0, he0⟩
      · rw [if_neg hye]; exact ⟨hs.edge_lt y hy, hye⟩
    · exact ⟨hh1, he1⟩
  rw [← hes']
  obtain ⟨y, hy, wfy, others, parent, sub, -, rep13, -⟩ := c126_split_partial m' h.wf q (h.lt hq) [vs ++ [w]] [es'] [gs']
    ⟨rfl, rfl, by
      intro s hs' x hx
      rw [List.mem_singleton] at hs'
      subst hs'
      rw [h.num0]
      rw [List.mem_append, List.mem_singleton] at hx
      rcases hx with hx | rfl
      · exact hs.vertex_lt x hx
      · exact hw, by
      intro s hs' x hx
      rw [List.mem_singleton] at hs'
      subst hs'
      rw [h.num1]
      exact (hlt x hx).1, by
      intro s hs' x hx
      rw [List.mem_singleton] at hs'
      subst hs'
      exact hg' x hx⟩
  have s0 := sub 0 _ _ _ rfl rfl rfl
  have n3 : m'.num .d3 + 0 = m.num .d3 + ns.length := by rw [h.num3]; rfl
  rw [n3] at s0
  refine ⟨y, ?_, ?_⟩
  · rw [hy, h.num3]
    rfl
  have o2 : ∀ {j}, j < fs.length → m.num .d2 + j < m'.num .d2 := by
    intro j hj; rw [h.num2]; omega
  have o3 : ∀ {j}, j < ns.length → m.num .d3 + j < m'.num .d3 ∧ m.num .d3 + j ≠ q := by
    intro j hj; rw [h.num3]; omega
  exact {
    wf := wfy
    num0 := by rw [others.num _ (by simp), h.num0]
    num1 := by rw [others.num _ (by simp), h.num1]
    num2 := by rw [others.num _ (by simp), h.num2]
    num3 := by rw [others.num3, h.num3]; simp; omega
    coordinates := fun i hi => by rw [others.coordinates i (h.lt hi), h.coordinates i hi]
    extremes := fun i hi => by rw [others.extremes i (h.lt hi), h.extremes i hi]
    polygons := by
      intro j x hj
      have l := o2 (List.getElem?_eq_some_iff.1 hj).1
      rw [others.rows .vert2 _ l (by simp) (by simp) (by simp), others.rows .edge2 _ l (by simp) (by simp) (by simp),
        others.active _ _ l (by simp), others.marker _ _ l, others.original _ _ l, others.updated _ _ l (by simp)]
      exact h.polygons j x hj
    solids := by
      intro j x hj
      rcases getElem?_snoc hj with ⟨h1, h2⟩ | ⟨rfl, rfl⟩
      · have l := (o3 h2).1
        have ne : ¬ (Dim.d3 = .d3 ∧ m.num .d3 + j = q) := fun hc => (o3 h2).2 hc.2
        obtain ⟨vs, es, gs, gs', q1, q2, q3, q4, q5, q6, q7, q8, q9, q10, q11⟩ := h.solids j x h1
        exact ⟨vs, es, gs, gs', q1, q2, q3, by rw [others.rows _ _ l (by simp) (by simp) (by simp), q4],
          by rw [others.rows _ _ l (by simp) (by simp) (by simp), q5],
          by rw [others.rows _ _ l (by simp) (by simp) (by simp), q6],
          q7, by rw [others.active _ _ l ne, q8], by rw [others.marker _ _ l, q9],
          by rw [others.original _ _ l, q10], by rw [others.updated _ _ l ne, q11]⟩
      · exact ⟨vs, es, gs, gs', hs.vertices, hs.edges, hs.faces, s0.vertices, by rw [s0.edges, hes'], s0.faces, hg,
          s0.active, by rw [s0.marker, h.marker _ _ hq], s0.original, s0.updated⟩
    oldPolygons := by
      intro j x hj
      have hx := h.lt (hfs x (List.mem_of_getElem? hj))
      rw [others.active _ _ hx (by simp), others.updated _ _ hx (by simp)]
      exact h.oldPolygons j x hj
    oldSolids := by
      intro j x hj
      rcases getElem?_snoc hj with ⟨h1, h2⟩ | ⟨rfl, rfl⟩
      · have hx := List.mem_of_getElem? h1
        have ne : ¬ (Dim.d3 = .d3 ∧ x = q) := fun hc => hn (hc.2 ▸ hx)
        rw [others.active _ _ (h.lt (hns x hx)) ne, others.updated _ _ (h.lt (hns x hx)) ne]
        exact h.oldSolids j x h1
      · refine ⟨parent.inactive, ?_⟩
        obtain ⟨old', new, e1, e2, e3⟩ := parent.updated
        rw [h.updated _ _ hq (by simp) (by simp [hn])] at e1
        have hin : m.num .d3 + ns.length ∈ new.getD [] := (e3 _).2 (.inr (by rw [h.num3]; simp))
        cases hnew : new with
        | none => rw [hnew] at hin; simp at hin
        | some l =>
          rw [hnew] at e2 e3
          refine ⟨old', l, e1, e2, fun z => ?_⟩
          rw [show (some l).getD [] = l from rfl] at e3
          rw [e3 z, h.num3]
          simp only [List.length_singleton]
          constructor
          · rintro (hz | hz)
            · exact .inl hz
            · exact .inr (by omega)
          · rintro (hz | hz)
            · exact .inl hz
            · exact .inr (by omega)
    active := fun d i hi hne hne' => by
      rw [List.mem_append, List.mem_singleton] at hne'
      rw [others.active d i (h.lt hi) (fun e => hne' ⟨e.1, .inr e.2⟩),
        h.active d i hi hne (fun e => hne' ⟨e.1, .inl e.2⟩)]
    marker := fun d i hi => by rw [others.marker d i (h.lt hi), h.marker d i hi]
    original := fun d i hi => by rw [others.original d i (h.lt hi), h.original d i hi]
    updated := fun d i hi hne hne' => by
      rw [List.mem_append, List.mem_singleton] at hne'
      rw [others.updated d i (h.lt hi) (fun e => hne' ⟨e.1, .inr e.2⟩),
        h.updated d i hi hne (fun e => hne' ⟨e.1, .inl e.2⟩)]
    rows := fun l i hi a1 a2 a3 a4 a5 => by rw [others.rows l i (h.lt hi) a3 a4 a5, h.rows l i hi a1 a2 a3 a4 a5]
    around := by
      have hr' : m'.row .nb13 e = ok r := by rw [h.around, hr]
      rw [rep13 e r hr', hr]
      congr 1
      conv_rhs => rw [← List.map_id r]
      apply List.map_congr_left
      intro z _
      rw [heir_one, if_neg (fun hc => (hlt e hc).2 rfl)]
      by_cases hz : z = q
      · rw [if_pos hz, hz]; rfl
      · rw [if_neg hz]; rfl }

end Verif
