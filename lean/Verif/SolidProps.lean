import Verif.SolidLemmas
import Verif.ExtractLemmas
import Verif.CheckLemmas
import Verif.MapSpec

/-
C96: polyhedra built from corners, by extrusion and from facets. C97: the orientation and the data of the faces of a
polyhedron.
-/
namespace Verif

open Res

variable {K : Type} [Field K]

/-! ### C96 -/

/-- C96: the tetrahedron of any four points has these points as vertices, its six edges join each two of them, its four
faces are triangles, and it is consistent and closed. -/
theorem c96_tetrahedron (v1 v2 v3 v4 : V3 K) :
    (createTetrahedronWithVertices v1 v2 v3 v4).vertices = [v1, v2, v3, v4] ∧
    (createTetrahedronWithVertices v1 v2 v3 v4).Consistent ∧ (createTetrahedronWithVertices v1 v2 v3 v4).Closed ∧
    (createTetrahedronWithVertices v1 v2 v3 v4).edges.length = 6 ∧
    (createTetrahedronWithVertices v1 v2 v3 v4).faces.length = 4 ∧
    (∀ face ∈ (createTetrahedronWithVertices v1 v2 v3 v4).faces,
      face.length = 3 ∧ (face.map Prod.fst).Nodup ∧ (face.map Prod.snd).Nodup) := by
  refine ⟨rfl, ⟨?_, ?_⟩, ?_, rfl, rfl, ?_⟩
  · show EdgesOk 4 [(0, 1), (0, 2), (1, 2), (0, 3), (1, 3), (2, 3)]
    decide
  · intro face hf
    apply faceOk_of_check
    revert face
    show ∀ face ∈ _, faceCheck 4 [(0, 1), (0, 2), (1, 2), (0, 3), (1, 3), (2, 3)] face = true
    unfold createTetrahedronWithVertices
    dsimp only
    decide
  · unfold Solid.Closed Solid.sides createTetrahedronWithVertices
    dsimp only
    decide
  · unfold createTetrahedronWithVertices
    dsimp only
    decide

/-- C96: the tetrahedron with an origin and three sides is the one of the origin and the ends of the sides, in the order
length, width, height. -/
theorem c96_tetrahedron_origin (origin length height width : V3 K) :
    createTetrahedronWithOrigin origin length height width =
      createTetrahedronWithVertices origin (origin.add length) (origin.add width) (origin.add height) := rfl

/-- C96: the parallelepiped with an origin and three sides has as vertices the sums of the origin and some of the sides,
its six faces are parallelograms, it has twelve edges and is consistent and closed. -/
theorem c96_parallelepiped (origin length height width : V3 K) :
    (∀ a b c : Bool, ((origin.add (if a then height else V3.zero)).add (if b then length else V3.zero)).add
      (if c then width else V3.zero) ∈ (createParallelepipedWithOrigin origin length height width).vertices) ∧
    (createParallelepipedWithOrigin origin length height width).Consistent ∧
    (createParallelepipedWithOrigin origin length height width).Closed ∧
    (createParallelepipedWithOrigin origin length height width).vertices.length = 8 ∧
    (createParallelepipedWithOrigin origin length height width).edges.length = 12 ∧
    (createParallelepipedWithOrigin origin length height width).faces.length = 6 ∧
    (∀ face ∈ (createParallelepipedWithOrigin origin length height width).faces,
      (face.map Prod.fst).Nodup ∧ (face.map Prod.snd).Nodup ∧ ∃ p q r s,
      face.map (fun c => (createParallelepipedWithOrigin origin length height width).vertices[c.1]?) =
        [some p, some q, some r, some s] ∧ p.add r = q.add s) := by
  refine ⟨?_, ⟨?_, ?_⟩, ?_, rfl, rfl, rfl, ?_⟩
  · intro a b c
    have hz : ∀ v : V3 K, v.add V3.zero = v := fun v => by simp [V3.add, V3.zero]
    cases a <;> cases b <;> cases c <;>
      simp only [if_true, if_false, Bool.false_eq_true, hz, createParallelepipedWithOrigin, List.mem_cons, true_or,
        or_true]
  · show EdgesOk 8 [(0, 1), (1, 2), (2, 3), (3, 0), (4, 5), (5, 6), (6, 7), (7, 4), (0, 4), (1, 5), (2, 6), (3, 7)]
    decide
  · intro face hf
    apply faceOk_of_check
    revert face
    show ∀ face ∈ _, faceCheck 8
      [(0, 1), (1, 2), (2, 3), (3, 0), (4, 5), (5, 6), (6, 7), (7, 4), (0, 4), (1, 5), (2, 6), (3, 7)] face = true
    unfold createParallelepipedWithOrigin
    dsimp only
    decide
  · unfold Solid.Closed Solid.sides createParallelepipedWithOrigin
    dsimp only
    decide
  · intro face hf
    refine ⟨?_, ?_, ?_⟩
    · revert face
      unfold createParallelepipedWithOrigin
      dsimp only
      decide
    · revert face
      unfold createParallelepipedWithOrigin
      dsimp only
      decide
    · unfold createParallelepipedWithOrigin at hf ⊢
      simp only [List.zip_cons_cons, List.zip_nil_right, List.mem_cons, List.not_mem_nil, or_false] at hf
      rcases hf with rfl | rfl | rfl | rfl | rfl | rfl <;> refine ⟨_, _, _, _, rfl, ?_⟩ <;>
        simp only [V3.add, V3.mk.injEq] <;> refine ⟨?_, ?_, ?_⟩ <;> ring

/-- C96: the extrusion of a polygon with at least three vertices has as vertices the ones of the polygon followed by the
shifted ones, two faces with as many vertices as the polygon and one face with four vertices for each side of the
polygon. It is consistent and closed. -/
theorem c96_extrusion (polygon heights : List (V3 K)) (hn : 3 ≤ polygon.length)
    (hl : polygon.length = heights.length) :
    ∃ s, createPolyhedronWithExtrusion polygon heights = ok s ∧ s.Consistent ∧ s.Closed ∧
      s.vertices.length = 2 * polygon.length ∧ s.edges.length = 3 * polygon.length ∧
      s.faces.length = polygon.length + 2 ∧
      (∀ i p h, polygon[i]? = some p → heights[i]? = some h →
        s.vertices[i]? = some p ∧ s.vertices[polygon.length + i]? = some (p.add h)) ∧
      (∃ bottom top sides, s.faces = bottom :: top :: sides ∧ bottom.map Prod.fst = List.range polygon.length ∧
        top.map Prod.fst = (List.range polygon.length).map (polygon.length + ·) ∧
        sides.map (List.map Prod.fst) = (List.range polygon.length).map fun i =>
          [i, (i + 1) % polygon.length, polygon.length + (i + 1) % polygon.length, polygon.length + i]) := by
  have hz : (polygon ++ List.zipWith V3.add polygon heights).length = 2 * polygon.length := by simp [hl]; omega
  refine ⟨_, extrusion_eq polygon heights hl, ⟨?_, ?_⟩, ?_, hz, ?_, ?_, ?_, ?_⟩
  · show EdgesOk (polygon ++ List.zipWith V3.add polygon heights).length _
    rw [hz]
    exact extEdges_ok hn
  · show ∀ face ∈ _, FaceOk (polygon ++ List.zipWith V3.add polygon heights).length _ _
    rw [hz]
    exact extFaces_ok (by omega)
  · intro e he
    exact extFaces_closed he
  · simp [extEdges]; omega
  · simp [extFaces]
  · intro i p h hp hh
    have hi : i < polygon.length := (List.getElem?_eq_some_iff.1 hp).1
    constructor
    · show (polygon ++ List.zipWith V3.add polygon heights)[i]? = _
      rw [List.getElem?_append_left hi, hp]
    · show (polygon ++ List.zipWith V3.add polygon heights)[polygon.length + i]? = _
      rw [List.getElem?_append_right (by omega), Nat.add_sub_cancel_left, List.getElem?_zipWith, hp, hh]
  · refine ⟨_, _, _, rfl, ?_, ?_, ?_⟩
    · rw [List.map_map]; exact List.map_id _
    · rw [List.map_map]; rfl
    · rw [List.map_map]; rfl

/-- C96: a polygon and shifts of different number fail an assertion. -/
theorem c96_extrusion_abort (polygon heights : List (V3 K)) (hl : polygon.length ≠ heights.length) :
    createPolyhedronWithExtrusion polygon heights = abort := by
  unfold createPolyhedronWithExtrusion
  rw [assert_false hl]
  rfl

/-- C96: the polyhedron of facets with identifiers of points. Its vertices are the points of the identifiers, in the
order in which these appear first and each once; the faces are the facets, with identifiers replaced by positions; the
edges are the sides of the facets, each once; an edge is the side of as many faces as there are facet sides which join
its ends. If no facet repeats an identifier at consecutive positions then the polyhedron is consistent, and it is closed
exactly if each side of a facet appears twice. -/
theorem c96_facets (points : List (V3 K)) (facets : List (List Nat))
    (hp : ∀ x ∈ facets.flatten, x < points.length) :
    ∃ s, ∃ ids : List Nat, facetsToPolyhedron points facets = ok s ∧ ids.Nodup ∧
      (∀ x, x ∈ ids ↔ x ∈ facets.flatten) ∧
      (ids.Pairwise fun a b => facets.flatten.idxOf a < facets.flatten.idxOf b) ∧
      s.vertices.map some = ids.map (fun i => points[i]?) ∧
      (polyhedronToFacets s).map (List.map fun i => ids[i]?) = facets.map (List.map some) ∧
      (∀ face ∈ s.faces, FaceOk s.vertices.length s.edges face) ∧
      (s.edges.Pairwise fun e e' => ¬ JoinsPair e e'.1 e'.2) ∧
      (∀ e a b, s.edges[e]? = some (a, b) → ∃ x y, ids[a]? = some x ∧ ids[b]? = some y ∧ x ≤ y ∧
        s.sides e = facetSides facets x y ∧ 0 < s.sides e) ∧
      (NoLoops facets → s.Consistent) ∧
      (s.Closed ↔ ∀ f ∈ facets, ∀ v x y, f[v]? = some x → f[(v + 1) % f.length]? = some y →
        facetSides facets x y = 2) := by
  set ids := keysOf facets.flatten with hids
  set sides := keysOf (facets.map sidesOf).flatten with hsides
  obtain ⟨i1, i2, i3⟩ := keysOf_spec facets.flatten
  obtain ⟨s1, -, -⟩ := keysOf_spec (facets.map sidesOf).flatten
  rw [← hids] at i1 i2 i3
  rw [← hsides] at s1
  obtain ⟨vertices, hv, -⟩ := mapRes_forall₂ (f := vget points) (R := fun _ _ => True) (l := ids) (by
    intro i hi
    exact ⟨_, vget_of_lt (hp i ((i2 i).1 hi)), trivial⟩)
  have hv : ids.map (fun i => points[i]?) = vertices.map some := by
    rw [mapRes_eq_ok] at hv
    have := List.forall₂_map_left_iff.2 (List.forall₂_map_right_iff.2 (hv.imp fun a b h => vget_eq_ok.1 h) :
      List.Forall₂ (fun (a : Nat) b => points[a]? = b) ids (vertices.map some))
    exact List.forall₂_eq_eq_eq ▸ this
  have hlen : vertices.length = ids.length := by
    have := congrArg List.length hv
    simpa using this.symm
  have hlt : ∀ x, x ∈ ids → keyIdx ids x < ids.length := fun x hx =>
    (List.getElem?_eq_some_iff.1 (getElem?_idxOf_of_mem hx)).1
  have hedge : ∀ side ∈ sides, side.1 ∈ ids ∧ side.2 ∈ ids := fun side h => side_ends h
  have hjoin : ∀ side ∈ sides, ∀ side' ∈ sides, JoinsPair (keyIdx ids side.1, keyIdx ids side.2)
      (keyIdx ids side'.1) (keyIdx ids side'.2) → side = side' := by
    intro side h side' h' hJ
    obtain ⟨f, _, v, _, rfl⟩ := side_mem h
    obtain ⟨f', _, v', _, rfl⟩ := side_mem h'
    have l1 := sideAt_le f v
    have l2 := sideAt_le f' v'
    rcases hJ with e | e
    · exact Prod.ext (idxOf_inj_of_mem (hedge _ h).1 (hedge _ h').1 (congrArg Prod.fst e))
        (idxOf_inj_of_mem (hedge _ h).2 (hedge _ h').2 (congrArg Prod.snd e))
    · have e1 := idxOf_inj_of_mem (hedge _ h).1 (hedge _ h').2 (congrArg Prod.fst e)
      have e2 := idxOf_inj_of_mem (hedge _ h).2 (hedge _ h').1 (congrArg Prod.snd e)
      exact Prod.ext (by omega) (by omega)
  have hfaces : ∀ face ∈ facets.map (facetFace ids sides), FaceOk vertices.length
      (sides.map fun side => (keyIdx ids side.1, keyIdx ids side.2)) face := by
    intro face hf
    obtain ⟨facet, hf', rfl⟩ := List.mem_map.1 hf
    clear hf
    have hf := hf'
    intro i c c' hc hc'
    have hl : (facetFace ids sides facet).length = facet.length := by simp [facetFace]
    have hi : i < facet.length := by rw [← hl]; exact (List.getElem?_eq_some_iff.1 hc).1
    have hi' : (i + 1) % facet.length < facet.length := Nat.mod_lt _ (by omega)
    rw [hl] at hc'
    unfold facetFace at hc hc'
    rw [List.getElem?_map, List.getElem?_range hi] at hc
    rw [List.getElem?_map, List.getElem?_range hi'] at hc'
    obtain rfl := Option.some.inj hc
    obtain rfl := Option.some.inj hc'
    have hm := mem_sides hf hi
    refine ⟨by rw [hlen]; exact hlt _ (mem_ids hf hi),
      (keyIdx ids (sideAt facet i).1, keyIdx ids (sideAt facet i).2), ?_, ?_⟩
    · show (sides.map _)[keyIdx sides (sideAt facet i)]? = _
      rw [List.getElem?_map, getElem?_idxOf_of_mem hm]
      rfl
    · show JoinsPair (keyIdx ids (sideAt facet i).1, keyIdx ids (sideAt facet i).2) _ _
      unfold sideAt JoinsPair
      rcases Nat.le_total (facet.getD i 0) (facet.getD ((i + 1) % facet.length) 0) with h | h
      · left; simp only [Nat.min_eq_left h, Nat.max_eq_right h]
      · right; simp only [Nat.min_eq_right h, Nat.max_eq_left h]
  have hpair : (sides.map fun side => (keyIdx ids side.1, keyIdx ids side.2)).Pairwise
      fun e e' => ¬ JoinsPair e e'.1 e'.2 := by
    rw [List.pairwise_map]
    refine List.Pairwise.imp_of_mem (fun {a b} ha hb hab hJ => ?_) s1
    exact hab (hjoin a ha b hb hJ)
  have hcount : ∀ e side, sides[e]? = some side →
      ((facets.map (facetFace ids sides)).flatten.countP fun c => decide (c.2 = e)) =
        facetSides facets side.1 side.2 := by
    intro e side he
    obtain ⟨f, _, v, _, hs⟩ := side_mem (List.mem_of_getElem? he)
    exact faces_sides s1 (fun facet hf v hv => mem_sides hf hv) he (by rw [hs]; exact sideAt_le f v)
  have hpos : ∀ f ∈ facets, ∀ v x y, f[v]? = some x → f[(v + 1) % f.length]? = some y → 0 < facetSides facets x y := by
    intro f hf v x y hx hy
    unfold facetSides
    have hvl := (List.getElem?_eq_some_iff.1 hx).1
    refine Nat.lt_of_lt_of_le ?_ (List.single_le_sum (fun _ _ => Nat.zero_le _) _ (List.mem_map_of_mem hf))
    rw [List.countP_pos_iff]
    exact ⟨v, List.mem_range.2 hvl, by simp [hx, hy]⟩
  have hsym : ∀ x y, facetSides facets x y = facetSides facets y x := by
    intro x y
    unfold facetSides
    congr 1
    apply List.map_congr_left
    intro f _
    apply List.countP_congr
    intro v _
    simp only [decide_eq_true_eq]
    exact or_comm
  refine ⟨_, ids, facetsToPolyhedron_eq points facets hv, i1, i2, i3, hv.symm, ?_, hfaces, hpair, ?_, ?_, ?_⟩
  · unfold polyhedronToFacets
    rw [List.map_map, List.map_map]
    apply List.map_congr_left
    intro facet hf
    simp only [Function.comp, facetFace, List.map_map]
    apply List.ext_getElem?
    intro i
    by_cases hi : i < facet.length
    · rw [List.getElem?_map, List.getElem?_range hi, List.getElem?_map, nat_getElem?_getD hi]
      simp only [Option.map_some, Function.comp, getElem?_idxOf_of_mem (mem_ids hf hi), ← hids]
      rw [hids, getElem?_idxOf_of_mem (mem_ids hf hi)]
    · rw [List.getElem?_eq_none (by simp; omega), List.getElem?_eq_none (by simp; omega)]
  · intro e a b he
    have he : (sides.map fun side => (keyIdx ids side.1, keyIdx ids side.2))[e]? = some (a, b) := he
    rw [List.getElem?_map, Option.map_eq_some_iff] at he
    obtain ⟨side, hside, he⟩ := he
    have hm := List.mem_of_getElem? hside
    obtain ⟨rfl, rfl⟩ := Prod.mk.injEq .. ▸ he
    obtain ⟨f, hf, v, hv', hs⟩ := side_mem hm
    have hc := hcount e side hside
    refine ⟨side.1, side.2, getElem?_idxOf_of_mem (hedge _ hm).1, getElem?_idxOf_of_mem (hedge _ hm).2,
      by rw [hs]; exact sideAt_le f v, hc, ?_⟩
    show 0 < List.countP _ _
    rw [hc]
    have := (sideAt_eq_iff (a := side.1) (b := side.2) hv' (by rw [hs]; exact sideAt_le f v)).1 hs.symm
    rcases this with ⟨h1, h2⟩ | ⟨h1, h2⟩
    · exact hpos f hf v _ _ h1 h2
    · rw [hsym]; exact hpos f hf v _ _ h1 h2
  · intro hno
    refine ⟨⟨?_, hpair⟩, hfaces⟩
    intro e he
    obtain ⟨side, hm, rfl⟩ := List.mem_map.1 he
    show keyIdx ids side.1 < vertices.length ∧ keyIdx ids side.2 < vertices.length ∧ keyIdx ids side.1 ≠ keyIdx ids side.2
    rw [hlen]
    refine ⟨hlt _ (hedge _ hm).1, hlt _ (hedge _ hm).2, fun h => ?_⟩
    have h := idxOf_inj_of_mem (hedge _ hm).1 (hedge _ hm).2 h
    obtain ⟨f, hf, v, hv', hs⟩ := side_mem hm
    have := (sideAt_eq_iff (a := side.1) (b := side.2) hv' (by rw [hs]; exact sideAt_le f v)).1 hs.symm
    rcases this with ⟨h1, h2⟩ | ⟨h1, h2⟩
    · exact hno f hf v _ _ h1 h2 h
    · exact hno f hf v _ _ h1 h2 h.symm
  · constructor
    · intro hc f hf v x y hx hy
      have hv' := (List.getElem?_eq_some_iff.1 hx).1
      have hm := mem_sides hf hv'
      have hx' := getElem?_idxOf_of_mem hm
      have h2 := hc (keyIdx sides (sideAt f v)) (by
        show _ < (sides.map _).length
        rw [List.length_map]
        exact (List.getElem?_eq_some_iff.1 hx').1)
      have h3 := hcount _ _ hx'
      have : facetSides facets (sideAt f v).1 (sideAt f v).2 = 2 := by rw [← h3]; exact h2
      have hj := (sideAt_eq_iff (a := (sideAt f v).1) (b := (sideAt f v).2) hv' (sideAt_le f v)).1 rfl
      rw [hx, hy] at hj
      simp only [Option.some.injEq] at hj
      rcases hj with ⟨e1, e2⟩ | ⟨e1, e2⟩
      · rw [e1, e2]; exact this
      · rw [e1, e2, hsym]; exact this
    · intro hc e he
      have he : e < sides.length := by
        have : e < (sides.map fun side => (keyIdx ids side.1, keyIdx ids side.2)).length := he
        simpa using this
      have hside := List.getElem?_eq_getElem he
      obtain ⟨f, hf, v, hv', hs⟩ := side_mem (List.mem_of_getElem? hside)
      show List.countP _ _ = 2
      rw [hcount e _ hside]
      have := (sideAt_eq_iff (a := sides[e].1) (b := sides[e].2) hv' (by rw [hs]; exact sideAt_le f v)).1 hs.symm
      rcases this with ⟨h1, h2⟩ | ⟨h1, h2⟩
      · exact hc f hf v _ _ h1 h2
      · rw [hsym]; exact hc f hf v _ _ h1 h2

/-- C96: facets whose identifiers are numbered in the order in which they appear are given back by
`PolyhedronToFacets`. -/
theorem c96_round_trip (points : List (V3 K)) (facets : List (List Nat))
    (hp : ∀ x ∈ facets.flatten, x < points.length) (hn : Numbered facets) :
    ∃ s, facetsToPolyhedron points facets = ok s ∧ polyhedronToFacets s = facets := by
  obtain ⟨s, ids, hs, h1, h2, h3, -, h4, -⟩ := c96_facets points facets hp
  refine ⟨s, hs, ?_⟩
  have hids : ids = keysOf facets.flatten := by
    obtain ⟨k1, k2, k3⟩ := keysOf_spec facets.flatten
    refine List.Perm.eq_of_pairwise (le := fun a b => facets.flatten.idxOf a < facets.flatten.idxOf b) ?_ h3 k3 ?_
    · intro a b _ _ hab hba; omega
    · exact (List.perm_ext_iff_of_nodup h1 k1).2 fun x => by rw [h2, k2]
  rw [hids, keysOf_numbered hn] at h4
  have h4 : (polyhedronToFacets s).map (List.map fun i => (List.range (keysOf facets.flatten).length)[i]?) =
    facets.map (List.map some) := h4
  have inj : ∀ (l l' : List Nat) (n : Nat), l.map (fun i => (List.range n)[i]?) = l'.map some → l = l' := by
    intro l l' n h
    apply List.ext_getElem?
    intro i
    have := congrArg (·[i]?) h
    simp only [List.getElem?_map] at this
    cases hl : l[i]? <;> cases hl' : l'[i]? <;> rw [hl, hl'] at this <;> simp at this
    · rename_i a b
      rw [List.getElem?_eq_some_iff] at this
      obtain ⟨_, h⟩ := this
      simp at h
      rw [h]
  apply List.ext_getElem?
  intro i
  have := congrArg (·[i]?) h4
  simp only [List.getElem?_map] at this
  cases hl : (polyhedronToFacets s)[i]? <;> cases hl' : facets[i]? <;> rw [hl, hl'] at this <;>
    simp only [Option.map_some, Option.map_none, Option.some.injEq, reduceCtorEq] at this
  · rw [inj _ _ _ this]

/-- C96: facets with an identifier which is no point are undefined. -/
theorem c96_facets_ub (points : List (V3 K)) (facets : List (List Nat))
    (hp : ∃ x ∈ facets.flatten, points.length ≤ x) : facetsToPolyhedron points facets = ub := by
  unfold facetsToPolyhedron
  simp only
  rw [facetsToVertices_eq, extractPoints_ub]
  · rfl
  · obtain ⟨x, hx, h⟩ := hp
    exact ⟨x, ((keysOf_spec _).2.1 x).2 hx, h⟩

/-! ### C97 -/

/-- C97: changing the orientation of a face keeps the first vertex and reverses the others, reverses the edges, keeps
the face consistent, and doing it twice gives the face back. -/
theorem c97_reverse (face : List (Nat × Nat)) (h : 0 < face.length) :
    ∃ r, changeFaceOrientation face = ok r ∧ r.map Prod.snd = (face.map Prod.snd).reverse ∧
      (∀ i, i < face.length →
        (r.map Prod.fst)[i]? = (face.map Prod.fst)[(face.length - i) % face.length]?) ∧
      (∀ n edges, FaceOk n edges face → FaceOk n edges r) ∧ changeFaceOrientation r = ok face := by
  obtain ⟨r, hr, hl, hc⟩ := changeFaceOrientation_eq h
  have hfst : ∀ i, i < face.length →
      (r.map Prod.fst)[i]? = (face.map Prod.fst)[(face.length - i) % face.length]? := by
    intro i hi
    have hri := List.getElem?_eq_getElem (hl ▸ hi : i < r.length)
    obtain ⟨x, y, h1, h2⟩ := hc i _ hri
    rw [List.getElem?_map, hri, List.getElem?_map, h1]
    rfl
  have hsnd : ∀ i, i < face.length →
      (r.map Prod.snd)[i]? = (face.map Prod.snd)[face.length - 1 - i]? := by
    intro i hi
    have hri := List.getElem?_eq_getElem (hl ▸ hi : i < r.length)
    obtain ⟨x, y, h1, h2⟩ := hc i _ hri
    rw [List.getElem?_map, hri, List.getElem?_map, h2]
    rfl
  refine ⟨r, hr, ?_, hfst, ?_, ?_⟩
  · apply List.ext_getElem?
    intro i
    by_cases hi : i < face.length
    · rw [hsnd i hi, List.getElem?_reverse (by simpa using hi), List.length_map]
    · rw [List.getElem?_eq_none (by simp; omega), List.getElem?_eq_none (by simp; omega)]
  · intro n edges hf i c c' hci hci'
    have hi : i < face.length := hl ▸ (List.getElem?_eq_some_iff.1 hci).1
    rw [hl] at hci'
    obtain ⟨x, y, h1, h2⟩ := hc i c hci
    obtain ⟨x', y', h1', -⟩ := hc _ c' hci'
    have e1 : (face.length - 1 - i + 1) % face.length = (face.length - i) % face.length := by
      congr 1; omega
    have e2 : (face.length - (i + 1) % face.length) % face.length = face.length - 1 - i := by
      by_cases h' : i + 1 < face.length
      · rw [Nat.mod_eq_of_lt h', Nat.mod_eq_of_lt (by omega)]; omega
      · have : i + 1 = face.length := by omega
        rw [this, Nat.mod_self, Nat.sub_zero, Nat.mod_self]; omega
    rw [e2, h2] at h1'
    have hy : y = c'.1 := congrArg Prod.fst (Option.some.inj h1')
    subst hy
    rw [← e1] at h1
    obtain ⟨hlt, e, he, hJ⟩ := hf _ _ _ h2 h1
    have hcl : c.1 < n := by
      have hk : (face.length - 1 - i + 1) % face.length < face.length := Nat.mod_lt _ h
      have hk' : ((face.length - 1 - i + 1) % face.length + 1) % face.length < face.length := Nat.mod_lt _ h
      exact (hf _ _ _ h1 (List.getElem?_eq_getElem hk')).1
    exact ⟨hcl, e, he, hJ.symm⟩
  · obtain ⟨r', hr', hl', hc'⟩ := changeFaceOrientation_eq (hl ▸ h : 0 < r.length)
    rw [hr']
    congr 1
    apply List.ext_getElem?
    intro i
    by_cases hi : i < face.length
    · have hri := List.getElem?_eq_getElem (show i < r'.length by omega)
      obtain ⟨x, y, h1, h2⟩ := hc' i _ hri
      rw [hri, List.getElem?_eq_getElem hi]
      have a1 := congrArg (Option.map Prod.fst) h1
      have a2 := congrArg (Option.map Prod.snd) h2
      rw [← List.getElem?_map, hl, hfst _ (Nat.mod_lt _ h)] at a1
      rw [← List.getElem?_map, hl, hsnd _ (by omega)] at a2
      have e1 : (face.length - (face.length - i) % face.length) % face.length = i := by
        by_cases h0 : i = 0
        · subst h0; simp
        · rw [Nat.mod_eq_of_lt (by omega : face.length - i < face.length), Nat.mod_eq_of_lt (by omega)]; omega
      have e2 : face.length - 1 - (face.length - 1 - i) = i := by omega
      rw [e1, List.getElem?_map, List.getElem?_eq_getElem hi] at a1
      rw [e2, List.getElem?_map, List.getElem?_eq_getElem hi] at a2
      simp only [Option.map_some, Option.some.injEq] at a1 a2
      congr 1
      exact Prod.ext a1.symm a2.symm
    · rw [List.getElem?_eq_none (by omega), List.getElem?_eq_none (by omega)]

/-- C97: the orientation of a face without vertices is undefined. -/
theorem c97_reverse_empty : changeFaceOrientation [] = ub := rfl

/-- C97: `ChangePolyhedronFacesOrientation` changes exactly the faces whose direction is false. -/
theorem c97_orientations (s : Solid K) (directions : List Bool) (hd : s.faces.length ≤ directions.length)
    (hf : ∀ face ∈ s.faces, 0 < face.length) :
    ∃ faces, changeFacesOrientation s directions = ok faces ∧ faces.length = s.faces.length ∧
      ∀ (f : Nat) (face : List (Nat × Nat)), s.faces[f]? = some face → ∃ r, faces[f]? = some r ∧
        (directions[f]? = some true → r = face) ∧ (directions[f]? = some false → changeFaceOrientation face = ok r) := by
  obtain ⟨faces, h1, h2⟩ := mapRes_forall₂ (f := fun f => do
      let d ← vectorAt directions f
      let face ← vectorAt s.faces f
      if d then ok face else changeFaceOrientation face) (l := List.range s.faces.length)
    (R := fun f r => ∀ face, s.faces[f]? = some face →
        (directions[f]? = some true → r = face) ∧ (directions[f]? = some false → changeFaceOrientation face = ok r)) (by
      intro f hfl
      have hfl := List.mem_range.1 hfl
      have hdl : f < directions.length := by omega
      obtain ⟨r, hr, -⟩ := c97_reverse s.faces[f] (hf _ (List.getElem_mem hfl))
      have e1 : vectorAt directions f = ok directions[f] := by
        unfold vectorAt; rw [List.getElem?_eq_getElem hdl]
      have e2 : vectorAt s.faces f = ok s.faces[f] := by
        unfold vectorAt; rw [List.getElem?_eq_getElem hfl]
      simp only [e1, e2, ok_bind, List.getElem?_eq_getElem hdl, List.getElem?_eq_getElem hfl, Option.some.injEq]
      cases directions[f]
      · refine ⟨r, hr, ?_⟩
        rintro face rfl
        exact ⟨fun h => (Bool.false_ne_true h).elim, fun _ => hr⟩
      · refine ⟨s.faces[f], rfl, ?_⟩
        rintro face rfl
        exact ⟨fun _ => rfl, fun h => (Bool.false_ne_true h.symm).elim⟩)
  have hl : faces.length = s.faces.length := by rw [← h2.length_eq, List.length_range]
  refine ⟨faces, h1, hl, ?_⟩
  intro f face hface
  have hfl := (List.getElem?_eq_some_iff.1 hface).1
  have := h2.get (i := f) (by simpa using hfl) (by omega)
  simp only [List.get_eq_getElem, List.getElem_range] at this
  exact ⟨_, List.getElem?_eq_getElem (by omega), this face hface⟩

/-- C97: a missing direction is an exception. -/
theorem c97_orientations_throw (s : Solid K) (directions : List Bool) (hd : directions.length < s.faces.length)
    (hf : ∀ face ∈ s.faces, 0 < face.length) : changeFacesOrientation s directions = Res.throw := by
  unfold changeFacesOrientation
  have gen : ∀ m k, k + m = s.faces.length → k ≤ directions.length → mapRes (fun f => do
      let d ← vectorAt directions f
      let face ← vectorAt s.faces f
      if d then ok face else changeFaceOrientation face) (List.range' k m) = Res.throw := by
    intro m
    induction m with
    | zero => intro k h1 h2; omega
    | succ m ih =>
      intro k h1 h2
      rw [List.range'_succ, mapRes]
      by_cases hk : k < directions.length
      · have hkf : k < s.faces.length := by omega
        have e1 : vectorAt directions k = ok directions[k] := by
          unfold vectorAt; rw [List.getElem?_eq_getElem hk]
        have e2 : vectorAt s.faces k = ok s.faces[k] := by
          unfold vectorAt; rw [List.getElem?_eq_getElem hkf]
        obtain ⟨r, hr, -⟩ := c97_reverse s.faces[k] (hf _ (List.getElem_mem hkf))
        have ih := ih (k + 1) (by omega) (by omega)
        rw [e1, ok_bind, e2, ok_bind, ih]
        cases directions[k]
        · simp only [Bool.false_eq_true, if_false, hr, ok_bind]; rfl
        · simp only [if_true, ok_bind]; rfl
      · have : vectorAt directions k = Res.throw := by
          unfold vectorAt; rw [List.getElem?_eq_none (by omega)]
        rw [this]; rfl
  rw [List.range_eq_range']
  exact gen _ 0 (by omega) (by omega)

/-- C97: the data of the edges of a consistent polyhedron: the barycenter is the middle of the ends, the length is their
distance and the tangent is their difference. -/
theorem c97_edges [LinearOrder K] [IsStrictOrderedRing K] (sqrt : K → K) (hs : IsSqrt sqrt) (s : Solid K)
    (h : EdgesOk s.vertices.length s.edges) :
    ∃ C L T, polyhedronEdgesCentroid s = ok C ∧ polyhedronEdgesLength sqrt s = ok L ∧ polyhedronEdgeTangents s = ok T ∧
      C.length = s.edges.length ∧ L.length = s.edges.length ∧ T.length = s.edges.length ∧
      ∀ (e i j : Nat), s.edges[e]? = some (i, j) → ∃ (p q c : V3 K) (l : K), s.vertices[i]? = some p ∧ s.vertices[j]? = some q ∧
        C[e]? = some c ∧ c.add c = p.add q ∧ L[e]? = some l ∧ 0 ≤ l ∧ l * l = (q.sub p).dot (q.sub p) ∧
        T[e]? = some (q.sub p) := by
  have hv : ∀ e ∈ s.edges, ∃ p q, s.vertices[e.1]? = some p ∧ s.vertices[e.2]? = some q := fun e he =>
    ⟨_, _, List.getElem?_eq_getElem (h.1 e he).1, List.getElem?_eq_getElem (h.1 e he).2.1⟩
  set p : Nat × Nat → V3 K := fun e => s.vertices.getD e.1 V3.zero with hp
  set q : Nat × Nat → V3 K := fun e => s.vertices.getD e.2 V3.zero with hq
  have hget : ∀ e ∈ s.edges, s.vertices[e.1]? = some (p e) ∧ s.vertices[e.2]? = some (q e) := by
    intro e he
    obtain ⟨a, b, ha, hb⟩ := hv e he
    simp only [hp, hq, List.getD_eq_getElem?_getD, ha, hb, Option.getD_some, and_self]
  have hg1 : ∀ e ∈ s.edges, vget s.vertices e.1 = ok (p e) := fun e he => vget_eq_ok.2 (hget e he).1
  have hg2 : ∀ e ∈ s.edges, vget s.vertices e.2 = ok (q e) := fun e he => vget_eq_ok.2 (hget e he).2
  refine ⟨s.edges.map fun e => segmentBarycenter (p e) (q e), s.edges.map fun e => segmentLength sqrt (p e) (q e),
    s.edges.map fun e => segmentTangent (p e) (q e), ?_, ?_, ?_, by simp, by simp, by simp, ?_⟩
  · apply mapRes_eq_map
    intro e he
    rw [hg1 e he, ok_bind, hg2 e he, ok_bind]
  · apply mapRes_eq_map
    intro e he
    rw [hg1 e he, ok_bind, hg2 e he, ok_bind]
  · apply mapRes_eq_map
    intro e he
    rw [hg1 e he, ok_bind, hg2 e he, ok_bind]
  · intro e i j he
    have hm := List.mem_of_getElem? he
    have hnn : 0 ≤ ((q (i, j)).sub (p (i, j))).dot ((q (i, j)).sub (p (i, j))) := by
      unfold V3.dot
      nlinarith [mul_self_nonneg ((q (i, j)).sub (p (i, j))).x, mul_self_nonneg ((q (i, j)).sub (p (i, j))).y,
        mul_self_nonneg ((q (i, j)).sub (p (i, j))).z]
    refine ⟨_, _, _, _, (hget _ hm).1, (hget _ hm).2, by rw [List.getElem?_map, he]; rfl, ?_,
      by rw [List.getElem?_map, he]; rfl, (hs _ hnn).1, (hs _ hnn).2, by rw [List.getElem?_map, he]; rfl⟩
    show (segmentBarycenter (p (i, j)) (q (i, j))).add (segmentBarycenter (p (i, j)) (q (i, j))) = _
    simp only [segmentBarycenter, V3.add, V3.smul, V3.mk.injEq]
    refine ⟨?_, ?_, ?_⟩ <;> ring

/-- C97: for a consistent polyhedron the vertices of a face are the ones of its columns, the direction of an edge on a
face tells whether the edge begins at the vertex of the column, and the tangent of the edge on the face is the
difference of the next vertex of the face and this one. -/
theorem c97_faces (s : Solid K) (h : s.Consistent) :
    ∃ V D T F, polyhedronFaceVertices s = ok V ∧ polyhedronFaceEdgeDirections s = ok D ∧
      polyhedronEdgeTangents s = ok T ∧ polyhedronFaceEdgeTangents s D T = ok F ∧
      V.length = s.faces.length ∧ D.length = s.faces.length ∧ F.length = s.faces.length ∧
      ∀ (f : Nat) face, s.faces[f]? = some face → ∃ vf df tf, V[f]? = some vf ∧ D[f]? = some df ∧ F[f]? = some tf ∧
        vf.length = face.length ∧ df.length = face.length ∧ tf.length = face.length ∧
        ∀ (i : Nat) c c', face[i]? = some c → face[(i + 1) % face.length]? = some c' → ∃ p q,
          s.vertices[c.1]? = some p ∧ s.vertices[c'.1]? = some q ∧ vf[i]? = some p ∧
          vf[(i + 1) % face.length]? = some q ∧ tf[i]? = some (q.sub p) ∧
          (df[i]? = some true ↔ s.edges[c.2]? = some (c.1, c'.1)) ∧
          (df[i]? = some false ↔ s.edges[c.2]? = some (c'.1, c.1)) := by
  have hcol : ∀ face ∈ s.faces, ∀ (i : Nat) c, face[i]? = some c → ∃ c', face[(i + 1) % face.length]? = some c' ∧
      c.1 < s.vertices.length ∧ c'.1 < s.vertices.length ∧
      ∃ e, s.edges[c.2]? = some e ∧ JoinsPair e c.1 c'.1 ∧ c.1 ≠ c'.1 := by
    intro face hf i c hc
    have hi := (List.getElem?_eq_some_iff.1 hc).1
    have hm : (i + 1) % face.length < face.length := Nat.mod_lt _ (by omega)
    have hm' : ((i + 1) % face.length + 1) % face.length < face.length := Nat.mod_lt _ (by omega)
    obtain ⟨h1, e, he, hJ⟩ := h.faces face hf i _ _ hc (List.getElem?_eq_getElem hm)
    obtain ⟨h2, -⟩ := h.faces face hf _ _ _ (List.getElem?_eq_getElem hm) (List.getElem?_eq_getElem hm')
    refine ⟨_, List.getElem?_eq_getElem hm, h1, h2, e, he, hJ, ?_⟩
    have hne := (h.edges.1 e (List.mem_of_getElem? he)).2.2
    rcases hJ with rfl | rfl
    · exact hne
    · exact fun h => hne h.symm
  set P : Nat → V3 K := fun i => s.vertices.getD i V3.zero with hP
  set E : Nat → Nat × Nat := fun i => s.edges.getD i (0, 0) with hE
  have hPget : ∀ i, i < s.vertices.length → s.vertices[i]? = some (P i) := fun i hi => by
    simp only [hP, List.getD_eq_getElem?_getD, List.getElem?_eq_getElem hi, Option.getD_some]
  have hEget : ∀ i e, s.edges[i]? = some e → E i = e := fun i e he => by
    simp only [hE, List.getD_eq_getElem?_getD, he, Option.getD_some]
  have hT : polyhedronEdgeTangents s = ok (s.edges.map fun e => (P e.2).sub (P e.1)) := by
    apply mapRes_eq_map
    intro e he
    rw [vget_eq_ok.2 (hPget _ (h.edges.1 e he).1), ok_bind, vget_eq_ok.2 (hPget _ (h.edges.1 e he).2.1), ok_bind]
    rfl
  have hV : polyhedronFaceVertices s = ok (s.faces.map (List.map fun c => P c.1)) := by
    apply mapRes_eq_map
    intro face hf
    apply mapRes_eq_map
    intro c hc
    obtain ⟨i, hi⟩ := List.mem_iff_getElem?.1 hc
    obtain ⟨c', _, h1, _⟩ := hcol face hf i c hi
    exact vget_eq_ok.2 (hPget _ h1)
  have hD : polyhedronFaceEdgeDirections s = ok (s.faces.map (List.map fun c => decide ((E c.2).1 = c.1))) := by
    apply mapRes_eq_map
    intro face hf
    apply mapRes_eq_map
    intro c hc
    obtain ⟨i, hi⟩ := List.mem_iff_getElem?.1 hc
    obtain ⟨c', _, _, _, e, he, _⟩ := hcol face hf i c hi
    rw [vget_eq_ok.2 he, ok_bind, hEget _ _ he]
  have hF : polyhedronFaceEdgeTangents s (s.faces.map (List.map fun c => decide ((E c.2).1 = c.1)))
      (s.edges.map fun e => (P e.2).sub (P e.1)) = ok (s.faces.map (List.map fun c =>
        V3.smul (if decide ((E c.2).1 = c.1) then 1 else -1) ((P (E c.2).2).sub (P (E c.2).1)))) := by
    unfold polyhedronFaceEdgeTangents
    apply mapRes_range_eq
    intro f hf
    rw [vget_of_lt hf, ok_bind]
    apply mapRes_range_eq
    intro i hi
    obtain ⟨c', _, _, _, e, he, _⟩ := hcol s.faces[f] (List.getElem_mem hf) i _ (List.getElem?_eq_getElem hi)
    rw [vget_of_lt hi, ok_bind]
    have e1 : vget (s.faces.map (List.map fun c => decide ((E c.2).1 = c.1))) f =
        ok (s.faces[f].map fun c => decide ((E c.2).1 = c.1)) := by
      rw [vget_eq_ok, List.getElem?_map, List.getElem?_eq_getElem hf]; rfl
    have e2 : vget (s.faces[f].map fun c => decide ((E c.2).1 = c.1)) i =
        ok (decide ((E s.faces[f][i].2).1 = s.faces[f][i].1)) := by
      rw [vget_eq_ok, List.getElem?_map, List.getElem?_eq_getElem hi]; rfl
    have e3 : vget (s.edges.map fun e => (P e.2).sub (P e.1)) s.faces[f][i].2 =
        ok ((P (E s.faces[f][i].2).2).sub (P (E s.faces[f][i].2).1)) := by
      rw [vget_eq_ok, List.getElem?_map, he, hEget _ _ he]; rfl
    rw [e1, ok_bind, e2, ok_bind, e3, ok_bind]
  refine ⟨_, _, _, _, hV, hD, hT, hF, by simp, by simp, by simp, ?_⟩
  intro f face hface
  refine ⟨_, _, _, by rw [List.getElem?_map, hface]; rfl, by rw [List.getElem?_map, hface]; rfl,
    by rw [List.getElem?_map, hface]; rfl, by simp, by simp, by simp, ?_⟩
  intro i c c' hc hc'
  obtain ⟨c'', hc'', h1, h2, e, he, hJ, hne⟩ := hcol face (List.mem_of_getElem? hface) i c hc
  obtain rfl : c'' = c' := Option.some.inj (hc''.symm.trans hc')
  refine ⟨P c.1, P c''.1, hPget _ h1, hPget _ h2, by rw [List.getElem?_map, hc]; rfl,
    by rw [List.getElem?_map, hc']; rfl, ?_, ?_, ?_⟩
  · rw [List.getElem?_map, hc, Option.map_some, hEget _ _ he]
    congr 1
    rcases hJ with rfl | rfl
    · simp [V3.smul]
    · have : ¬ (c''.1 = c.1) := fun h => hne h.symm
      simp [V3.smul, V3.sub, this]
  · rw [List.getElem?_map, hc, Option.map_some, hEget _ _ he, he]
    simp only [Option.some.injEq, decide_eq_true_eq]
    rcases hJ with rfl | rfl
    · simp
    · simp only [Prod.mk.injEq]
      exact ⟨fun h => (hne h.symm).elim, fun h => h.1⟩
  · rw [List.getElem?_map, hc, Option.map_some, hEget _ _ he, he]
    simp only [Option.some.injEq, decide_eq_false_iff_not]
    rcases hJ with rfl | rfl
    · simp only [Prod.mk.injEq]
      exact ⟨fun h => (h trivial).elim, fun h => (hne h.1).elim⟩
    · simp only [iff_true]
      exact fun h => hne h.symm

/-- C97: the coordinate system of a polyhedron with at least three edges at vertex 0 is vertex 0 and three different
vertices joined with it. -/
theorem c97_coordinates (n : Nat) (edges : List (Nat × Nat)) (h : EdgesOk n edges)
    (h3 : 3 ≤ edges.countP fun e => decide (e.1 = 0 ∨ e.2 = 0)) :
    ∃ a b c, polyhedronCoordinateSystem edges = ok [0, a, b, c] ∧ [0, a, b, c].Nodup ∧
      ∀ x ∈ [a, b, c], x < n ∧ ∃ e ∈ edges, JoinsPair e 0 x := by
  set o : Nat × Nat → Nat := fun e => if e.1 = 0 then e.2 else e.1 with ho
  set L := edges.filter fun e => decide (e.1 = 0 ∨ e.2 = 0) with hL
  have hlen : 3 ≤ L.length := by rw [hL, ← List.countP_eq_length_filter]; exact h3
  have hmem : ∀ e ∈ L, e ∈ edges ∧ JoinsPair e 0 (o e) ∧ o e ≠ 0 ∧ o e < n := by
    intro e he
    obtain ⟨hm, h0⟩ := List.mem_filter.1 he
    have h0 := of_decide_eq_true h0
    obtain ⟨h1, h2, hne⟩ := h.1 e hm
    refine ⟨hm, ?_⟩
    simp only [ho]
    by_cases hz : e.1 = 0
    · rw [if_pos hz]
      exact ⟨Or.inl (Prod.ext hz rfl), fun h => hne (hz.trans h.symm), h2⟩
    · rw [if_neg hz]
      exact ⟨Or.inr (Prod.ext rfl (by rcases h0 with h | h; exact (hz h).elim; exact h)), hz, h1⟩
  have hp : L.Pairwise fun e e' => ¬ JoinsPair e e'.1 e'.2 := h.2.sublist List.filter_sublist
  match hLc : L with
  | [] | [_] | [_, _] => simp at hlen
  | e1 :: e2 :: e3 :: L' =>
    have hj : ∀ e e', JoinsPair e 0 (o e) → JoinsPair e' 0 (o e') → ¬ JoinsPair e e'.1 e'.2 → o e ≠ o e' := by
      rintro e e' h1 h2 h3 heq
      apply h3
      rw [← heq] at h2
      generalize o e = k at h1 h2
      rcases h1 with rfl | rfl <;> rcases h2 with rfl | rfl <;> simp [JoinsPair]
    obtain ⟨m1, j1, z1, n1⟩ := hmem e1 (by simp)
    obtain ⟨m2, j2, z2, n2⟩ := hmem e2 (by simp)
    obtain ⟨m3, j3, z3, n3⟩ := hmem e3 (by simp)
    simp only [List.pairwise_cons, List.mem_cons, forall_eq_or_imp] at hp
    have d12 := hj _ _ j1 j2 hp.1.1
    have d13 := hj _ _ j1 j3 hp.1.2.1
    have d23 := hj _ _ j2 j3 hp.2.1.1
    refine ⟨o e1, o e2, o e3, ?_, ?_, ?_⟩
    · unfold polyhedronCoordinateSystem
      simp only
      rw [coordinateLoop_eq _ _ (by simp), ← hL]
      simp only [List.nil_append, List.map_cons, List.take_succ_cons, List.take_zero]
      rfl
    · simp only [List.nodup_cons, List.mem_cons, List.not_mem_nil, or_false, not_or, not_false_eq_true, List.nodup_nil,
        and_true]
      exact ⟨⟨z1.symm, z2.symm, z3.symm⟩, ⟨d12, d13⟩, d23⟩
    · intro x hx
      simp only [List.mem_cons, List.not_mem_nil, or_false] at hx
      rcases hx with rfl | rfl | rfl
      · exact ⟨n1, e1, m1, j1⟩
      · exact ⟨n2, e2, m2, j2⟩
      · exact ⟨n3, e3, m3, j3⟩

/-- C97: with fewer than three edges at vertex 0 there is no coordinate system: an assertion fails. -/
theorem c97_coordinates_abort (edges : List (Nat × Nat))
    (h3 : (edges.countP fun e => decide (e.1 = 0 ∨ e.2 = 0)) < 3) : polyhedronCoordinateSystem edges = abort := by
  unfold polyhedronCoordinateSystem
  simp only
  rw [coordinateLoop_eq _ _ (by simp), assert_false]
  · rfl
  · rw [List.countP_eq_length_filter] at h3
    simp only [List.nil_append, List.length_take, List.length_map]
    omega

/-! ### Examples -/

/-- A square pyramid, with identifiers that are not numbered from zero. -/
def pyramidPoints : List (V3 Rat) := [⟨9, 9, 9⟩, ⟨0, 0, 0⟩, ⟨1, 0, 0⟩, ⟨1, 1, 0⟩, ⟨0, 1, 0⟩, ⟨0, 0, 1⟩]

def pyramidFacets : List (List Nat) := [[1, 2, 3, 4], [1, 2, 5], [2, 3, 5], [3, 4, 5], [4, 1, 5]]

example : ∃ s, facetsToPolyhedron pyramidPoints pyramidFacets = ok s ∧ s.Consistent ∧ s.Closed ∧
    s.vertices.length = 5 ∧ s.edges.length = 8 ∧ polyhedronToFacets s =
      [[0, 1, 2, 3], [0, 1, 4], [1, 2, 4], [2, 3, 4], [3, 0, 4]] := by
  have hno : NoLoops pyramidFacets := by
    intro f hf v x y hx hy
    have hv := (List.getElem?_eq_some_iff.1 hx).1
    revert hx hy
    revert x y v
    revert f
    unfold pyramidFacets
    simp only [List.mem_cons, List.not_mem_nil, or_false, forall_eq_or_imp, forall_eq]
    refine ⟨?_, ?_, ?_, ?_, ?_⟩ <;> intro v x y hv hx hy <;> simp only [List.length_cons, List.length_nil] at hv <;>
      interval_cases v <;> simp at hx hy <;> omega
  obtain ⟨s, ids, hs, -, -, -, -, -, -, -, -, hcons, hclosed⟩ := c96_facets pyramidPoints pyramidFacets (by decide)
  refine ⟨s, hs, hcons hno, hclosed.2 ?_, ?_⟩
  · intro f hf v x y hx hy
    have hv := (List.getElem?_eq_some_iff.1 hx).1
    revert hx hy
    revert x y v
    revert f
    unfold pyramidFacets
    simp only [List.mem_cons, List.not_mem_nil, or_false, forall_eq_or_imp, forall_eq]
    refine ⟨?_, ?_, ?_, ?_, ?_⟩ <;> intro v x y hv hx hy <;> simp only [List.length_cons, List.length_nil] at hv <;>
      interval_cases v <;> simp at hx hy <;> subst hx hy <;> decide
  · have : facetsToPolyhedron pyramidPoints pyramidFacets = ok ⟨[⟨0, 0, 0⟩, ⟨1, 0, 0⟩, ⟨1, 1, 0⟩, ⟨0, 1, 0⟩, ⟨0, 0, 1⟩],
        [(0, 1), (1, 2), (2, 3), (0, 3), (1, 4), (0, 4), (2, 4), (3, 4)],
        [[(0, 0), (1, 1), (2, 2), (3, 3)], [(0, 0), (1, 4), (4, 5)], [(1, 1), (2, 6), (4, 4)], [(2, 2), (3, 7), (4, 6)],
          [(3, 3), (0, 5), (4, 7)]]⟩ := by rfl
    rw [hs] at this
    obtain rfl := Res.ok.inj this
    exact ⟨rfl, rfl, rfl⟩

example : Numbered [[0, 1, 2], [0, 2, 3], [1, 0, 3]] ∧
    ∃ s, facetsToPolyhedron (K := Rat) [⟨0, 0, 0⟩, ⟨1, 0, 0⟩, ⟨1, 1, 0⟩, ⟨0, 1, 1⟩] [[0, 1, 2], [0, 2, 3], [1, 0, 3]] = ok s ∧
      polyhedronToFacets s = [[0, 1, 2], [0, 2, 3], [1, 0, 3]] := by
  have hn : Numbered [[0, 1, 2], [0, 2, 3], [1, 0, 3]] := by unfold Numbered; decide
  exact ⟨hn, c96_round_trip _ _ (by decide) hn⟩

example : facetsToPolyhedron (K := Rat) [⟨0, 0, 0⟩, ⟨1, 0, 0⟩] [[0, 1, 2]] = ub := c96_facets_ub _ _ (by decide)

example : ∃ s, createPolyhedronWithExtrusion (K := Rat) [⟨0, 0, 0⟩, ⟨1, 0, 0⟩, ⟨0, 1, 0⟩]
    [⟨0, 0, 1⟩, ⟨0, 0, 2⟩, ⟨0, 0, 3⟩] = ok s ∧ s.Closed :=
  let ⟨s, h, _, hc, _⟩ := c96_extrusion _ _ (by decide) (by decide)
  ⟨s, h, hc⟩

example : createPolyhedronWithExtrusion (K := Rat) [⟨0, 0, 0⟩, ⟨1, 0, 0⟩, ⟨0, 1, 0⟩] [⟨0, 0, 1⟩] = abort :=
  c96_extrusion_abort _ _ (by decide)

example : changeFaceOrientation [(3, 8), (5, 2), (6, 4), (1, 7)] = ok [(3, 7), (1, 4), (6, 2), (5, 8)] := rfl

/-- The unit cube. -/
def unitCube : Solid Rat := createParallelepipedWithOrigin ⟨0, 0, 0⟩ ⟨1, 0, 0⟩ ⟨0, 0, 1⟩ ⟨0, 1, 0⟩

example : ∃ faces, changeFacesOrientation unitCube [false, true, true, false, true, false] = ok faces ∧
    faces.length = 6 :=
  let ⟨faces, h, hl, _⟩ := c97_orientations unitCube _ (by decide) (by unfold unitCube; decide)
  ⟨faces, h, hl⟩

example : changeFacesOrientation unitCube [false, true] = Res.throw :=
  c97_orientations_throw unitCube _ (by decide) (by unfold unitCube; decide)

example : unitCube.Consistent ∧ EdgesOk unitCube.vertices.length unitCube.edges :=
  ⟨(c96_parallelepiped _ _ _ _).2.1, (c96_parallelepiped _ _ _ _).2.1.edges⟩

example : polyhedronCoordinateSystem unitCube.edges = ok [0, 1, 3, 4] := rfl

example : polyhedronCoordinateSystem [(0, 1), (1, 2), (2, 0)] = abort := c97_coordinates_abort _ (by decide)

end Verif
