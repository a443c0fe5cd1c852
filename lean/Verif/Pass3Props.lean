import Verif.Pass3RunLemmas
import Mathlib.Tactic.IntervalCases

/-
C128: a new vertex on an edge is passed on to the polyhedra of the edge.
-/
namespace Verif

open Res

variable {α : Type}

/-- C128: the polyhedra of the edge, except `c` and those replaced before, are replaced by polyhedra with the new vertex and with the
halves for the edge; their faces with the edge are replaced, each of them one time, by polygons with the new vertex, unless the
table has a polygon for them, and the new polygons are added to the table. -/
theorem c128_pass [Zero α] {m : Mesh α} (h : m.WF) {c e w h0 h1 : Nat} {directions : List (List (List Bool))} {r : List Nat}
    {M : List (Nat × Nat)} (hr : m.row .nb13 e = ok r) (hf : ∀ y ∈ r, y < m.num .d3 ∨ m.num .d3 + r.length ≤ y)
    (hw : w < m.num .d0) (hh0 : h0 < m.num .d1) (hh1 : h1 < m.num .d1) (he0 : h0 ≠ e) (he1 : h1 ≠ e)
    (hM : ∀ p ∈ M, p.2 < m.num .d2) {k : Nat → Nat} {dir : Nat → Bool} {vs es : Nat → List Nat} {vs3 es3 gs : Nat → List Nat}
    (hin : ∀ q ∈ r, q < m.num .d3 → q ≠ c → m.updated .d3 q = ok none →
      SolidInput m e directions k dir vs es q (vs3 q) (es3 q) (gs q)) :
    ∃ m' ns fs, m.passToSolids c e w [h0, h1] directions M =
        ok (m', ns.zipIdx.map (fun p => (p.1, m.num .d3 + p.2)), M ++ fs.zipIdx.map fun p => (p.1, m.num .d2 + p.2)) ∧
      SolidsConcerned m c r ns ∧ FacesConcerned m e M ns fs ∧
      PassedOn m m' e w h0 h1 (fun f => withVertex (vs f) (es f) (k f) w h0 h1 (dir f)) fs ns
        (M ++ fs.zipIdx.map fun p => (p.1, m.num .d2 + p.2)) := by
  obtain ⟨m', ns, fs, a1, a2, a3, a4, a5⟩ := aroundLoop_spec h (lt_of_row hr) hw hh0 hh1 he0 he1 hr hf hM hin r.length le_rfl
  rw [List.take_length] at a2
  have hins : ∀ q ∈ ns, SolidInput m e directions k dir vs es q (vs3 q) (es3 q) (gs q) := by
    intro q hq
    obtain ⟨b1, b2, b3, b4⟩ := (a2.mem q).1 hq
    exact hin q b1 b2 b3 b4
  refine ⟨m', ns, fs, ?_, a2, ⟨a3, fun f => ?_⟩, a5⟩
  · unfold Mesh.passToSolids
    rw [rowSize_of_row h hr, ok_bind, a1]
    rfl
  · rw [a4]
    constructor
    · rintro ⟨⟨q, hq, hfq⟩, hx, hy⟩
      have hs := hins q hq
      obtain ⟨p, hp⟩ := List.getElem?_of_mem hfq
      exact ⟨⟨q, _, hq, hs.faces, hfq⟩, ⟨_, (hs.face p f hp).1.edges, hx⟩, hy⟩
    · rintro ⟨⟨q, gs', hq, hg, hfq⟩, ⟨l, hl, hx⟩, hy⟩
      have hs := hins q hq
      rw [hs.faces] at hg
      cases hg
      obtain ⟨p, hp⟩ := List.getElem?_of_mem hfq
      rw [(hs.face p f hp).1.edges] at hl
      cases hl
      exact ⟨⟨q, hq, hfq⟩, hx, hy⟩

/-- C128: neither a new polyhedron nor a face of it has the edge, if this is so for the polygons that the table had before. -/
theorem c128_edge_gone {m m' : Mesh α} {e w h0 h1 : Nat} (he0 : h0 ≠ e) (he1 : h1 ≠ e) {M : List (Nat × Nat)}
    {k : Nat → Nat} {dir : Nat → Bool} {vs es : Nat → List Nat} {fs ns : List Nat} {c : Nat} {r : List Nat}
    {directions : List (List (List Bool))} {vs3 es3 gs : Nat → List Nat}
    (hin : ∀ q ∈ r, q < m.num .d3 → q ≠ c → m.updated .d3 q = ok none →
      SolidInput m e directions k dir vs es q (vs3 q) (es3 q) (gs q))
    (hold : ∀ p ∈ M, ∀ l, m'.row .edge2 p.2 = ok l → e ∉ l) (hc : SolidsConcerned m c r ns) (hF : FacesConcerned m e M ns fs)
    (hP : PassedOn m m' e w h0 h1 (fun f => withVertex (vs f) (es f) (k f) w h0 h1 (dir f)) fs ns
      (M ++ fs.zipIdx.map fun p => (p.1, m.num .d2 + p.2))) {j : Nat} (hj : j < ns.length) :
    (∀ l, m'.row .edge3 (m.num .d3 + j) = ok l → e ∉ l ∧ h0 ∈ l ∧ h1 ∈ l) ∧
    ∀ l, m'.row .face3 (m.num .d3 + j) = ok l → ∀ f' ∈ l, ∀ x, m'.row .edge2 f' = ok x → e ∉ x := by
  obtain ⟨q, hq⟩ : ∃ q, ns[j]? = some q := ⟨_, List.getElem?_eq_getElem hj⟩
  obtain ⟨vs', es', gs', gs'', b1, b2, b3, b4, b5, b6, b7, -⟩ := hP.solids j q hq
  obtain ⟨c1, c2, c3, c4⟩ := (hc.mem q).1 (List.mem_of_getElem? hq)
  have hs := hin q c1 c2 c3 c4
  rw [hs.edges] at b2
  cases b2
  constructor
  · intro l hl
    rw [b5] at hl
    cases hl
    obtain ⟨i, hi⟩ := hs.edge
    refine ⟨?_, ?_, by simp⟩
    · rw [List.mem_append, List.mem_singleton, List.mem_map]
      rintro (⟨y, hy, hye⟩ | rfl)
      · by_cases hc' : y = e
        · rw [if_pos hc'] at hye; exact he0 hye
        · rw [if_neg hc'] at hye; exact hc' hye
      · exact he1 rfl
    · exact List.mem_append_left _ (List.mem_map.2 ⟨e, List.mem_of_getElem? ((hi i).2 rfl), if_pos rfl⟩)
  · intro l hl f' hf' x hx hex
    rw [b6] at hl
    cases hl
    obtain ⟨p, hp⟩ := List.getElem?_of_mem hf'
    obtain ⟨hpl, hpx⟩ := List.getElem?_eq_some_iff.1 hp
    have hpg : p < gs'.length := by rw [b7.length_eq]; exact hpl
    have ht := (List.forall₂_iff_get.1 b7).2 p hpg hpl
    simp only [List.get_eq_getElem] at ht
    rw [hpx] at ht
    obtain ⟨l', hl', ⟨ha, hb⟩ | ⟨ha, hb⟩⟩ := ht
    · rw [List.mem_append] at hb
      rcases hb with hb | hb
      · exact hold _ hb x hx hex
      · rw [List.mem_map] at hb
        obtain ⟨⟨g, i⟩, hz, heq⟩ := hb
        rw [List.mem_zipIdx_iff_getElem?] at hz
        simp only [Prod.mk.injEq] at heq
        obtain ⟨hg, rfl⟩ := heq
        have hrow := (hP.polygons i g hz).2.1
        rw [hx] at hrow
        cases hrow
        obtain ⟨⟨q', gq, hq', hgq, hgm⟩, -, -⟩ := (hF.mem g).1 (List.mem_of_getElem? hz)
        obtain ⟨c1', c2', c3', c4'⟩ := (hc.mem q').1 hq'
        have hs' := hin q' c1' c2' c3' c4'
        rw [hs'.faces] at hgq
        cases hgq
        obtain ⟨p', hp'⟩ := List.getElem?_of_mem hgm
        obtain ⟨hbd, hsd⟩ := hs'.face p' g hp'
        by_cases heg : e ∈ es g
        · obtain ⟨hk, -⟩ := hsd heg
          have hklt : k g < (vs g).length := by
            rw [← hbd.count]
            exact (List.getElem?_eq_some_iff.1 ((hk _).2 rfl)).1
          rcases (mem_withVertex hbd.count hklt e).1 hex with ⟨i', hi', hx'⟩ | hx' | hx'
          · exact hi' ((hk i').1 hx')
          · exact he0 hx'.symm
          · exact he1 hx'.symm
        · have := hbd.edges
          rw [hg, hl'] at this
          cases this
          exact heg (by rw [hg]; exact ha)
    · subst hb
      rw [hP.rows .edge2 _ (lt_of_row hl') (by simp) (by simp) (by simp) (by simp) (by simp), hl'] at hx
      cases hx
      exact ha hex

/-- C128: two polyhedra with a common face get the same polygon for it. -/
theorem c128_shared {m m' : Mesh α} {e w h0 h1 : Nat} {M : List (Nat × Nat)} {B : Nat → List (Nat × Nat)} {fs ns : List Nat}
    (hM : ∀ f x y, (f, x) ∈ M → (f, y) ∈ M → x = y) (hF : FacesConcerned m e M ns fs)
    (hP : PassedOn m m' e w h0 h1 B fs ns (M ++ fs.zipIdx.map fun p => (p.1, m.num .d2 + p.2))) {i j p p' f g g' q q' : Nat}
    {gs gs' l l' : List Nat} (hq : ns[i]? = some q) (hq' : ns[j]? = some q') (hg : m.row .face3 q = ok gs)
    (hg' : m.row .face3 q' = ok gs') (hp : gs[p]? = some f) (hp' : gs'[p']? = some f)
    (hl : m'.row .face3 (m.num .d3 + i) = ok l) (hl' : m'.row .face3 (m.num .d3 + j) = ok l') (hx : l[p]? = some g)
    (hx' : l'[p']? = some g') : g = g' := by
  have hfun : ∀ f x y, (f, x) ∈ M ++ (fs.zipIdx.map fun p => (p.1, m.num .d2 + p.2)) →
      (f, y) ∈ M ++ (fs.zipIdx.map fun p => (p.1, m.num .d2 + p.2)) → x = y := by
    intro f x y h1 h2
    rw [List.mem_append] at h1 h2
    have new : ∀ {x}, (f, x) ∈ (fs.zipIdx.map fun p => (p.1, m.num .d2 + p.2)) → ∃ a, fs[a]? = some f ∧ x = m.num .d2 + a := by
      intro x h
      rw [List.mem_map] at h
      obtain ⟨⟨a, b⟩, h, he⟩ := h
      rw [List.mem_zipIdx_iff_getElem?] at h
      cases he
      exact ⟨b, h, rfl⟩
    have no : ∀ {x y}, (f, x) ∈ M → (f, y) ∈ (fs.zipIdx.map fun p => (p.1, m.num .d2 + p.2)) → False := by
      intro x y h h'
      obtain ⟨a, ha, -⟩ := new h'
      exact ((hF.mem f).1 (List.mem_of_getElem? ha)).2.2 x h
    rcases h1 with h1 | h1 <;> rcases h2 with h2 | h2
    · exact hM f x y h1 h2
    · exact (no h1 h2).elim
    · exact (no h2 h1).elim
    · obtain ⟨a, ha, rfl⟩ := new h1
      obtain ⟨b, hb, rfl⟩ := new h2
      obtain ⟨ha1, ha2⟩ := List.getElem?_eq_some_iff.1 ha
      obtain ⟨hb1, hb2⟩ := List.getElem?_eq_some_iff.1 hb
      have := (hF.once.getElem_inj_iff).1 (ha2.trans hb2.symm)
      rw [this]
  have get : ∀ {i p q f g : Nat} {gs l : List Nat}, ns[i]? = some q → m.row .face3 q = ok gs → gs[p]? = some f →
      m'.row .face3 (m.num .d3 + i) = ok l → l[p]? = some g →
      TakesPlace m e (M ++ fs.zipIdx.map fun p => (p.1, m.num .d2 + p.2)) f g := by
    intro i p q f g gs l h1 h2 h3 h4 h5
    obtain ⟨_, _, gs1, gs2, -, -, b3, -, -, b6, b7, -⟩ := hP.solids i q h1
    rw [h2] at b3
    cases b3
    rw [h4] at b6
    cases b6
    obtain ⟨a1, a2⟩ := List.getElem?_eq_some_iff.1 h3
    obtain ⟨c1, c2⟩ := List.getElem?_eq_some_iff.1 h5
    have := (List.forall₂_iff_get.1 b7).2 p a1 c1
    simp only [List.get_eq_getElem] at this
    rwa [a2, c2] at this
  obtain ⟨x, hx1, t1⟩ := get hq hg hp hl hx
  obtain ⟨y, hy1, t2⟩ := get hq' hg' hp' hl' hx'
  rw [hx1] at hy1
  cases hy1
  rcases t1 with ⟨t1, t1'⟩ | ⟨t1, t1'⟩ <;> rcases t2 with ⟨t2, t2'⟩ | ⟨t2, t2'⟩
  · exact hfun f g g' t1' t2'
  · exact absurd t1 t2
  · exact absurd t2 t1
  · rw [t1', t2']

/-! ### Example -/

/-- Three tetrahedra around the edge 0 from the vertex 0 to the vertex 1, which was split at the vertex 5 in the edges 10 and 11. The
face 0 was replaced by the polygon 9 before. The tetrahedron 0 is the one that is refined. -/
def ringOps : List (Op ℚ) :=
  [.append .d0 6, .append .d1 12, .insertExt 0 0 1, .insertExt 1 0 2, .insertExt 2 0 3, .insertExt 3 0 4,
   .insertExt 4 1 2, .insertExt 5 1 3, .insertExt 6 1 4, .insertExt 7 2 3, .insertExt 8 3 4, .insertExt 9 4 2,
   .insertExt 10 0 5, .insertExt 11 5 1, .append .d2 10,
   .addRow .vert2 0 [0, 1, 2], .addRow .edge2 0 [0, 4, 1], .addRow .vert2 1 [0, 1, 3], .addRow .edge2 1 [0, 5, 2],
   .addRow .vert2 2 [4, 1, 0], .addRow .edge2 2 [6, 0, 3], .addRow .vert2 3 [0, 2, 3], .addRow .edge2 3 [1, 7, 2],
   .addRow .vert2 4 [1, 2, 3], .addRow .edge2 4 [4, 7, 5], .addRow .vert2 5 [0, 3, 4], .addRow .edge2 5 [2, 8, 3],
   .addRow .vert2 6 [1, 3, 4], .addRow .edge2 6 [5, 8, 6], .addRow .vert2 7 [0, 4, 2], .addRow .edge2 7 [3, 9, 1],
   .addRow .vert2 8 [1, 4, 2], .addRow .edge2 8 [6, 9, 4], .addRow .vert2 9 [0, 5, 1, 2], .addRow .edge2 9 [10, 11, 4, 1],
   .append .d3 3,
   .addRow .vert3 0 [0, 1, 2, 3], .addRow .edge3 0 [0, 1, 2, 4, 5, 7], .addRow .face3 0 [0, 1, 3, 4],
   .addRow .vert3 1 [0, 1, 3, 4], .addRow .edge3 1 [2, 0, 3, 5, 6, 8], .addRow .face3 1 [1, 2, 5, 6],
   .addRow .vert3 2 [0, 1, 4, 2], .addRow .edge3 2 [3, 1, 6, 4, 9, 0], .addRow .face3 2 [2, 0, 7, 8],
   .setAct .d3 1 true, .setAct .d3 2 true, .setMark .d3 2 5, .setMark .d2 2 7,
   .resizeRow .nb13 0 3, .insertEntry .nb13 0 0 1, .insertEntry .nb13 0 1 0, .insertEntry .nb13 0 2 2]

def ring : Mesh ℚ :=
  match Mesh.empty.run ringOps with
  | ok m => m
  | _ => Mesh.empty

theorem ring_run : (Mesh.empty : Mesh ℚ).run ringOps = ok ring := by
  have h : (match (Mesh.empty : Mesh ℚ).run ringOps with | ok _ => true | _ => false) = true := by
    decide +kernel
  unfold ring
  revert h
  cases (Mesh.empty : Mesh ℚ).run ringOps <;> simp

theorem ring_wf : ring.WF := by
  refine Mesh.run_wf_of_ok (ops := ringOps) Mesh.empty_wf (Mesh.along_of_forall ?_ _) ring_run
  intro o ho m
  have : ∀ o ∈ ringOps, (match o with
      | .init _ _ => false | .resetNeighbour _ _ _ => false | .insertProp _ _ _ _ _ => false | _ => true) = true := by
    decide +kernel
  have := this o ho
  cases o <;> first | trivial | simp at this

/-- The directions of the edges in the faces of the tetrahedra; only those of edge 0 matter. -/
def ringDirections : List (List (List Bool)) :=
  [[], [[true, true, true], [true, false, true], [], []], [[true, false, true], [true, true, true], [], []]]

/-- The vertices and edges of the faces, as the mesh has them. -/
def ringRow (l : Lst) (f : Nat) : List Nat :=
  match ring.row l f with
  | ok r => r
  | _ => []

/-- The results of the run. -/
def ringResult : Mesh ℚ × List (Nat × Nat) × List (Nat × Nat) :=
  match ring.passToSolids 0 0 5 [10, 11] ringDirections [(0, 9)] with
  | ok r => r
  | _ => (ring, [], [])

/-- The tetrahedra 1 and 2 are replaced, and their common face 2 one time. -/
example : ringResult.2.1 = [(1, 3), (2, 4)] ∧ ringResult.2.2 = [(0, 9), (1, 10), (2, 11)] ∧
    ringResult.1.row .vert3 4 = ok [0, 1, 4, 2, 5] ∧ ringResult.1.row .edge3 4 = ok [3, 1, 6, 4, 9, 10, 11] ∧
    ringResult.1.row .face3 3 = ok [10, 11, 5, 6] ∧ ringResult.1.row .face3 4 = ok [11, 9, 7, 8] ∧
    ringResult.1.row .vert2 11 = ok [4, 1, 5, 0] ∧ ringResult.1.row .edge2 11 = ok [6, 11, 10, 3] ∧
    ringResult.1.marker .d2 11 = ok 7 ∧ ringResult.1.marker .d3 4 = ok 5 ∧ ringResult.1.active .d3 2 = ok false := by
  decide +kernel

/-- The position of the edge 0 in the faces. -/
def ringPos (f : Nat) : Nat := if f = 2 then 1 else 0

theorem ring_face {q p f : Nat} (hb : ring.row .vert2 f = ok (ringRow .vert2 f) ∧
      ring.row .edge2 f = ok (ringRow .edge2 f) ∧ (ringRow .vert2 f).length = 3 ∧ (ringRow .edge2 f).length = 3 ∧
      (∀ v ∈ ringRow .vert2 f, v < ring.num .d0) ∧ (∀ v ∈ ringRow .edge2 f, v < ring.num .d1))
    (hp : 0 ∈ ringRow .edge2 f → (∀ i < 3, (ringRow .edge2 f)[i]? = some 0 ↔ i = ringPos f) ∧ ringPos f < 3 ∧
      ((ringDirections[q]?.bind fun d => d[p]?).bind fun d => d[ringPos f]?) = some (decide (f ≠ 2))) :
    FaceInput ring 0 ringDirections ringPos (fun f => decide (f ≠ 2)) (ringRow .vert2) (ringRow .edge2) q p f := by
  obtain ⟨b1, b2, b3, b4, b5, b6⟩ := hb
  refine ⟨⟨b1, b2, by rw [b3, b4], b5, b6⟩, fun h => ?_⟩
  obtain ⟨c1, c2, c3⟩ := hp h
  refine ⟨fun i => ?_, ?_⟩
  · by_cases hi : i < 3
    · exact c1 i hi
    · rw [List.getElem?_eq_none (by rw [b4]; omega)]
      constructor
      · intro h; cases h
      · intro h; omega
  · rw [Option.bind_eq_some_iff] at c3
    obtain ⟨d2, h2, h1⟩ := c3
    rw [Option.bind_eq_some_iff] at h2
    obtain ⟨d3, h3, h2⟩ := h2
    exact ⟨d3, d2, h3, h2, h1⟩

/-- The mesh is one as in the theorems. -/
example : ring.WF ∧ ring.row .nb13 0 = ok [1, 0, 2] ∧ (∀ p ∈ [((0 : Nat), (9 : Nat))], p.2 < ring.num .d2) ∧
    ∀ q ∈ [1, 0, 2], q < ring.num .d3 → q ≠ 0 → ring.updated .d3 q = ok none →
      SolidInput ring 0 ringDirections ringPos (fun f => decide (f ≠ 2)) (ringRow .vert2) (ringRow .edge2) q
        (ringRow .vert3 q) (ringRow .edge3 q) (ringRow .face3 q) := by
  refine ⟨ring_wf, by decide +kernel, by decide +kernel, ?_⟩
  intro q hq _ h0 _
  have hq' : q = 1 ∨ q = 2 := by
    simp only [List.mem_cons, List.not_mem_nil, or_false] at hq
    omega
  have hb : ∀ f < 9, ring.row .vert2 f = ok (ringRow .vert2 f) ∧
      ring.row .edge2 f = ok (ringRow .edge2 f) ∧ (ringRow .vert2 f).length = 3 ∧ (ringRow .edge2 f).length = 3 ∧
      (∀ v ∈ ringRow .vert2 f, v < ring.num .d0) ∧ (∀ v ∈ ringRow .edge2 f, v < ring.num .d1) := by decide +kernel
  rcases hq' with rfl | rfl
  · have hg : ringRow .face3 1 = [1, 2, 5, 6] := by decide +kernel
    have he : ringRow .edge3 1 = [2, 0, 3, 5, 6, 8] := by decide +kernel
    refine ⟨⟨by decide +kernel, by decide +kernel, by decide +kernel, by decide +kernel, by decide +kernel,
      by decide +kernel⟩, ⟨1, fun j => ?_⟩, fun p f hp => ?_⟩
    · rw [he]
      by_cases hj : j < 6
      · interval_cases j <;> simp
      · rw [List.getElem?_eq_none (by simp; omega)]
        constructor
        · intro h; cases h
        · intro h; omega
    · rw [hg] at hp
      have hpl : p < 4 := (List.getElem?_eq_some_iff.1 hp).1
      interval_cases p <;> cases hp <;> exact ring_face (hb _ (by decide)) (by decide +kernel)
  · have hg : ringRow .face3 2 = [2, 0, 7, 8] := by decide +kernel
    have he : ringRow .edge3 2 = [3, 1, 6, 4, 9, 0] := by decide +kernel
    refine ⟨⟨by decide +kernel, by decide +kernel, by decide +kernel, by decide +kernel, by decide +kernel,
      by decide +kernel⟩, ⟨5, fun j => ?_⟩, fun p f hp => ?_⟩
    · rw [he]
      by_cases hj : j < 6
      · interval_cases j <;> simp
      · rw [List.getElem?_eq_none (by simp; omega)]
        constructor
        · intro h; cases h
        · intro h; omega
    · rw [hg] at hp
      have hpl : p < 4 := (List.getElem?_eq_some_iff.1 hp).1
      interval_cases p <;> cases hp <;> exact ring_face (hb _ (by decide)) (by decide +kernel)

end Verif
