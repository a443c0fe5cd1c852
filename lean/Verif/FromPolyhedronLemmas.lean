import Verif.FromPolyhedronSpec
import Verif.FromPolygonLemmas
import Verif.OvmLemmas
import Verif.ActiveLemmas

/-
Lemmas for the mesh of one polyhedron.
-/
namespace Verif

open Res

namespace MeshData

variable {K : Type} [Field K] {D : MeshData K}

/-- An edge of the polyhedron. -/
def bodyEdge (n : Nat) (es : List (Nat × Nat)) (em : List Nat) (i : Nat) : ECell :=
  ⟨(es.getD i (0, 0)).1, (es.getD i (0, 0)).2, markerOf em es.length i (n + i + 1), true, []⟩

/-- A face of the polyhedron. -/
def bodyFace (n : Nat) (fs : List (List (Nat × Nat))) (fm : List Nat) (i : Nat) : PCell :=
  ⟨(fs.getD i []).map Prod.fst, (fs.getD i []).map Prod.snd, markerOf fm fs.length i (n + i + 1), true⟩

/-- The cells of the mesh of a polyhedron. -/
def bodyData (ps : List (V3 K)) (es : List (Nat × Nat)) (fs : List (List (Nat × Nat))) (vm em fm : List Nat) : MeshData K where
  dimension := 3
  V := (List.range ps.length).map (polyPoint ps vm)
  E := (List.range es.length).map (bodyEdge ps.length es em)
  P := (List.range fs.length).map (bodyFace (ps.length + es.length) fs fm)
  C := [⟨List.range ps.length, List.range es.length, List.range fs.length, 0, true⟩]

theorem polyhedronEdges_eq {n : Nat} {es : List (Nat × Nat)} {em : List Nat} {v : ECell} (hv : v.polygons = []) :
    Mesh.polyhedronEdges n es em ({ D with E := List.replicate es.length v } : MeshData K).mesh =
      ok ({ D with E := (List.range es.length).map (bodyEdge n es em) } : MeshData K).mesh := by
  unfold Mesh.polyhedronEdges
  have h := foldRange (fun (m : Mesh K) e => do
      let x ← vget es e
      let k ← givenMarker em es.length e (n + e + 1)
      m.putEdge e x.1 x.2 k) (fun E => ({ D with E := E } : MeshData K).mesh)
    (fun i _ => bodyEdge n es em i) (List.replicate es.length v) (by
      intro cs i b hi hl hb' hb
      simp only [List.length_replicate] at hi
      obtain rfl : v = b := by
        simp only [List.getElem?_replicate, hi, if_true, Option.some.injEq] at hb'
        exact hb'
      simp only [vget_of_lt hi, ok_bind, givenMarker_eq hi]
      rw [putEdge_E (D := { D with E := cs }) hb, hv]
      simp [bodyEdge, hi])
  simp only [List.length_replicate] at h
  rw [h, mapIdx_replicate]

theorem polyhedronFaces_eq {n : Nat} {fs : List (List (Nat × Nat))} {fm : List Nat}
    (h1 : RowsInRange D.V.length (fs.map (·.map Prod.fst))) (h2 : RowsInRange D.E.length (fs.map (·.map Prod.snd))) :
    Mesh.polyhedronFaces n fs fm ({ D with P := List.replicate fs.length ⟨[], [], 0, false⟩ } : MeshData K).mesh =
      ok ({ D with P := (List.range fs.length).map (bodyFace n fs fm) } : MeshData K).mesh := by
  unfold Mesh.polyhedronFaces
  have h := foldRange (fun (m : Mesh K) f => do
      let p ← vget fs f
      let m ← m.resizeRowOf .vert2 f p.length
      let m ← m.resizeRowOf .edge2 f p.length
      let k ← givenMarker fm fs.length f (n + f + 1)
      m.putPolygon f (p.map Prod.fst) (p.map Prod.snd) k) (fun P => ({ D with P := P } : MeshData K).mesh)
    (fun i _ => bodyFace n fs fm i) (List.replicate fs.length ⟨[], [], 0, false⟩) (by
      intro cs i b hi hl hb' hb
      simp only [List.length_replicate] at hi hl
      obtain rfl : (⟨[], [], 0, false⟩ : PCell) = b := by
        simp only [List.getElem?_replicate, hi, if_true, Option.some.injEq] at hb'
        exact hb'
      simp only [vget_of_lt hi, ok_bind, givenMarker_eq hi]
      rw [resizeRowOf_vert2 (D := { D with P := cs }) hb, ok_bind,
        resizeRowOf_edge2 (by simp [hl, hi]; rfl), ok_bind,
        putPolygon_P (by simp [hl, hi]; rfl) (by simp [vresize]) (by simp [vresize]) (by
          intro x hx
          exact h1 _ (List.mem_map.2 ⟨_, List.getElem_mem hi, rfl⟩) x hx) (by
          intro x hx
          exact h2 _ (List.mem_map.2 ⟨_, List.getElem_mem hi, rfl⟩) x hx)]
      simp [bodyFace, hi, List.set_set])
  simp only [List.length_replicate] at h
  rw [h, mapIdx_replicate]

theorem putPolygon_bad {i k : Nat} {vs es : List Nat} {v : PCell} (hv : D.P[i]? = some v) (h1 : v.verts.length = vs.length)
    (hbad : ¬ ((∀ x ∈ vs, x < D.V.length) ∧ ∀ x ∈ es, x < D.E.length)) : D.mesh.putPolygon i vs es k = abort := by
  unfold Mesh.putPolygon
  by_cases h : ∀ x ∈ vs, x < D.V.length
  · rw [insertFrom_vert2 hv h1 h, ok_bind, Mesh.insertFrom_bad (mesh_wf _) (by
      by_contra hc
      push Not at hc
      exact hbad ⟨h, hc⟩)]
    rfl
  · rw [Mesh.insertFrom_bad (mesh_wf _) (by
      push Not at h
      obtain ⟨x, hx, hn⟩ := h
      exact ⟨x, hx, not_lt.2 hn⟩)]
    rfl

theorem polyhedronFaces_abort {n : Nat} {fs : List (List (Nat × Nat))} {fm : List Nat}
    (hbad : ¬ (RowsInRange D.V.length (fs.map (·.map Prod.fst)) ∧ RowsInRange D.E.length (fs.map (·.map Prod.snd)))) :
    Mesh.polyhedronFaces n fs fm ({ D with P := List.replicate fs.length ⟨[], [], 0, false⟩ } : MeshData K).mesh = abort := by
  unfold Mesh.polyhedronFaces
  have h := foldRange_abort (fun (m : Mesh K) f => do
      let p ← vget fs f
      let m ← m.resizeRowOf .vert2 f p.length
      let m ← m.resizeRowOf .edge2 f p.length
      let k ← givenMarker fm fs.length f (n + f + 1)
      m.putPolygon f (p.map Prod.fst) (p.map Prod.snd) k) (fun P => ({ D with P := P } : MeshData K).mesh)
    (fun i _ => bodyFace n fs fm i)
    (fun i => ¬ ((∀ x ∈ fs.getD i [], x.1 < D.V.length) ∧ ∀ x ∈ fs.getD i [], x.2 < D.E.length))
    (List.replicate fs.length ⟨[], [], 0, false⟩) (by
      by_contra hc
      push Not at hc
      refine hbad ⟨?_, ?_⟩
      · intro r hr x hx
        obtain ⟨f, hf, rfl⟩ := List.mem_map.1 hr
        obtain ⟨y, hy, rfl⟩ := List.mem_map.1 hx
        obtain ⟨i, hi, rfl⟩ := List.mem_iff_getElem.1 hf
        exact (hc i (by simpa using hi)).1 y (by simpa [hi] using hy)
      · intro r hr x hx
        obtain ⟨f, hf, rfl⟩ := List.mem_map.1 hr
        obtain ⟨y, hy, rfl⟩ := List.mem_map.1 hx
        obtain ⟨i, hi, rfl⟩ := List.mem_iff_getElem.1 hf
        exact (hc i (by simpa using hi)).2 y (by simpa [hi] using hy)) (by
      intro cs i b hi hg hl hb' hb
      simp only [List.length_replicate] at hi hl
      rw [not_not] at hg
      simp only [List.getD_eq_getElem?_getD, List.getElem?_eq_getElem hi, Option.getD_some] at hg
      obtain rfl : (⟨[], [], 0, false⟩ : PCell) = b := by
        simp only [List.getElem?_replicate, hi, if_true, Option.some.injEq] at hb'
        exact hb'
      simp only [vget_of_lt hi, ok_bind, givenMarker_eq hi]
      rw [resizeRowOf_vert2 (D := { D with P := cs }) hb, ok_bind,
        resizeRowOf_edge2 (by simp [hl, hi]; rfl), ok_bind,
        putPolygon_P (by simp [hl, hi]; rfl) (by simp [vresize]) (by simp [vresize]) (by
          intro x hx
          obtain ⟨y, hy, rfl⟩ := List.mem_map.1 hx
          exact hg.1 y hy) (by
          intro x hx
          obtain ⟨y, hy, rfl⟩ := List.mem_map.1 hx
          exact hg.2 y hy)]
      simp [bodyFace, hi, List.set_set]) (by
      intro cs i b hi hg hl hb' hb
      simp only [List.length_replicate] at hi hl
      simp only [List.getD_eq_getElem?_getD, List.getElem?_eq_getElem hi, Option.getD_some] at hg
      obtain rfl : (⟨[], [], 0, false⟩ : PCell) = b := by
        simp only [List.getElem?_replicate, hi, if_true, Option.some.injEq] at hb'
        exact hb'
      simp only [vget_of_lt hi, ok_bind, givenMarker_eq hi]
      rw [resizeRowOf_vert2 (D := { D with P := cs }) hb, ok_bind,
        resizeRowOf_edge2 (by simp [hl, hi]; rfl), ok_bind]
      exact putPolygon_bad (by simp [hl, hi]; rfl) (by simp [vresize]) (by
        rintro ⟨g1, g2⟩
        exact hg ⟨fun x hx => g1 _ (List.mem_map_of_mem hx), fun x hx => g2 _ (List.mem_map_of_mem hx)⟩))
  simp only [List.length_replicate] at h
  exact h

theorem polyhedronCell_eq (hC : D.C = []) : Mesh.polyhedronCell D.V.length D.E.length D.P.length D.mesh =
    ok ({ D with C := [⟨List.range D.V.length, List.range D.E.length, List.range D.P.length, 0, true⟩] } : MeshData K).mesh := by
  unfold Mesh.polyhedronCell
  simp only
  rw [init_C hC, resizeRowOf_vert3 (v := ⟨[], [], [], 0, false⟩) (by simp), ok_bind, resizeRowOf_edge3 (by simp; rfl), ok_bind,
    resizeRowOf_face3 (by simp; rfl), ok_bind,
    insertFrom_vert3 (by simp; rfl) (by simp [vresize]) (by intro x hx; simpa [num] using hx), ok_bind,
    insertFrom_edge3 (by simp; rfl) (by simp [vresize]) (by intro x hx; simpa [num] using hx), ok_bind,
    insertFrom_face3 (by simp; rfl) (by simp [vresize]) (by intro x hx; simpa [num] using hx), ok_bind,
    setAct_C (by simp; rfl), ok_bind, setMark_C (by simp; rfl)]
  rfl

theorem mesh3DFromPolyhedron_eq (ps : List (V3 K)) (es : List (Nat × Nat)) (fs : List (List (Nat × Nat))) (vm em fm : List Nat) :
    Mesh.mesh3DFromPolyhedron ps es fs vm em fm Mesh.empty =
      if 3 < ps.length ∧ RowsInRange ps.length (fs.map (·.map Prod.fst)) ∧ RowsInRange es.length (fs.map (·.map Prod.snd)) then
        ok (bodyData ps es fs vm em fm).mesh else abort := by
  unfold Mesh.mesh3DFromPolyhedron
  simp only
  by_cases h : 3 < ps.length
  · rw [assert_true h, ok_bind, empty_mesh, initDim_mesh]
    simp only
    rw [init_V rfl, polygonPoints_eq, ok_bind, init_E rfl, polyhedronEdges_eq rfl, ok_bind, init_P rfl]
    by_cases h1 : RowsInRange ps.length (fs.map (·.map Prod.fst)) ∧ RowsInRange es.length (fs.map (·.map Prod.snd))
    · rw [if_pos ⟨h, h1⟩, polyhedronFaces_eq (by simpa using h1.1) (by simpa using h1.2), ok_bind]
      have := polyhedronCell_eq (D := { bodyData ps es fs vm em fm with C := [] }) rfl
      simp only [bodyData, List.length_map, List.length_range] at this
      exact this
    · rw [if_neg fun g => h1 g.2, polyhedronFaces_abort (by simpa using h1)]
      rfl
  · rw [if_neg (fun g => h g.1), assert_false h]
    rfl

end MeshData

/-! ### A polyhedron of a mesh -/

theorem natFind_insert {m : NatMap} {k v x : Nat} : natFind (natInsert m k v) x =
    match natFind m x with | some i => some i | none => if x = k then some v else none := by
  unfold natInsert
  have hmem : ∀ (m : NatMap) y, y ∈ m.map Prod.fst → ∃ i, natFind m y = some i := by
    intro m y
    induction m with
    | nil => simp
    | cons p m ih =>
      intro hy
      unfold natFind
      split
      · exact ⟨_, rfl⟩
      · rename_i hp
        simp only [List.map_cons, List.mem_cons] at hy
        exact ih (hy.resolve_left fun h => hp h.symm)
  split
  · rename_i hk
    cases hf : natFind m x with
    | some i => rfl
    | none =>
      by_cases he : x = k
      · obtain ⟨i, hi⟩ := hmem m k hk
        rw [he, hi] at hf
        cases hf
      · simp only [if_neg he]
  · rename_i hk
    rw [natFind_append_fresh hk]
    split
    · rename_i he
      rw [he, natFind_eq_none hk]
    · cases hf : natFind m x <;> rfl

theorem localMap_find (xs : List Nat) : ∀ (k : Nat) (m : NatMap) (x i : Nat), natFind (localMap xs k m) x = some i →
    natFind m x = some i ∨ ∃ j, i = k + j ∧ xs[j]? = some x := by
  induction xs with
  | nil => intro k m x i h; exact Or.inl h
  | cons y xs ih =>
    intro k m x i h
    rcases ih _ _ _ _ h with h | ⟨j, rfl, hj⟩
    · rw [natFind_insert] at h
      cases hf : natFind m x with
      | some a => rw [hf] at h; exact Or.inl h
      | none =>
        rw [hf] at h
        simp only at h
        split at h
        · rename_i he
          refine Or.inr ⟨0, ?_, by simp [he]⟩
          simpa using (Option.some.inj h).symm
        · cases h
    · exact Or.inr ⟨j + 1, by omega, by simpa using hj⟩

theorem localMap_none (xs : List Nat) : ∀ (k : Nat) (m : NatMap) (x : Nat), natFind (localMap xs k m) x = none ↔
    natFind m x = none ∧ x ∉ xs := by
  induction xs with
  | nil => intro k m x; simp [localMap]
  | cons y xs ih =>
    intro k m x
    rw [localMap, ih, natFind_insert]
    cases hf : natFind m x with
    | some a => simp
    | none =>
      simp only [List.mem_cons, not_or, true_and]
      constructor
      · rintro ⟨h1, h2⟩
        refine ⟨fun he => ?_, h2⟩
        rw [if_pos he] at h1
        cases h1
      · rintro ⟨h1, h2⟩
        exact ⟨if_neg h1, h2⟩

theorem localAt_mem {xs : List Nat} {x : Nat} (h : x ∈ xs) : ∃ i, localAt (localMap xs 0 []) x = ok i ∧ xs[i]? = some x := by
  unfold localAt
  cases hf : natFind (localMap xs 0 []) x with
  | none => exact absurd h ((localMap_none xs 0 [] x).1 hf).2
  | some i =>
    rcases localMap_find xs 0 [] x i hf with h | ⟨j, rfl, hj⟩
    · cases h
    · exact ⟨_, rfl, by simpa using hj⟩

theorem localAt_not_mem {xs : List Nat} {x : Nat} (h : x ∉ xs) : localAt (localMap xs 0 []) x = throw := by
  unfold localAt
  rw [(localMap_none xs 0 [] x).2 ⟨rfl, h⟩]

theorem mapRes_throws {α β : Type} {f : α → Res β} {l : List α} (h : ∀ a ∈ l, (∃ b, f a = ok b) ∨ f a = throw)
    (hb : ∃ a ∈ l, f a = throw) : mapRes f l = throw := by
  induction l with
  | nil => obtain ⟨a, ha, _⟩ := hb; cases ha
  | cons a l ih =>
    rcases h a (by simp) with ⟨b, hb'⟩ | ht
    · have : ∃ x ∈ l, f x = throw := by
        obtain ⟨x, hx, hxt⟩ := hb
        rcases List.mem_cons.1 hx with rfl | hx
        · rw [hb'] at hxt; cases hxt
        · exact ⟨x, hx, hxt⟩
      simp only [mapRes, hb', ok_bind, ih (fun x hx => h x (by simp [hx])) this]
      rfl
    · simp only [mapRes, ht]
      rfl

/-- A list that is the result of a `mapRes`, with what each step says. -/
theorem mapRes_exists_at {α β : Type} {f : α → Res β} {l : List α} {R : α → β → Prop} (h : ∀ a ∈ l, ∃ b, f a = ok b ∧ R a b) :
    ∃ r, mapRes f l = ok r ∧ r.length = l.length ∧ ∀ (i : Nat) a b, l[i]? = some a → r[i]? = some b → R a b := by
  obtain ⟨r, hr, ha⟩ := mapRes_forall₂ h
  refine ⟨r, hr, ha.length_eq.symm, ?_⟩
  intro i a b hi hj
  obtain ⟨hi', rfl⟩ := List.getElem?_eq_some_iff.1 hi
  obtain ⟨hj', rfl⟩ := List.getElem?_eq_some_iff.1 hj
  exact (List.forall₂_iff_get.1 ha).2 i hi' hj'

end Verif
