import Verif.FromPolygonModel
import Verif.FromPolygonSpec
import Verif.FillLemmas
import Verif.RectLemmas

namespace Verif

open Res

/-- The marker that is stored. -/
def markerOf (ms : List Nat) (n i d : Nat) : Nat := if ms.length = n then ms.getD i 0 else d

theorem givenMarker_eq {ms : List Nat} {n i d : Nat} (hi : i < n) :
    givenMarker ms n i d = ok (markerOf ms n i d) := by
  unfold givenMarker markerOf
  split
  · rename_i h
    have hi' : i < ms.length := by omega
    rw [vget_of_lt hi']; simp [hi']
  · rfl

theorem isMarker_markerOf {ms : List Nat} {n i d : Nat} (hi : i < n) :
    IsMarker ms n i d (markerOf ms n i d) := by
  constructor
  · intro h
    have hi' : i < ms.length := by omega
    rw [markerOf, if_pos h]; simp [hi']
  · intro h
    rw [markerOf, if_neg h]

theorem nextIn_eq {n v : Nat} (h : v < n) : (v + 1) % n = nextIn n v := by
  unfold nextIn
  split
  · rename_i e; rw [e, Nat.mod_self]
  · rw [Nat.mod_eq_of_lt (by omega)]

namespace MeshData

variable {K : Type} [Field K] {D : MeshData K}

/-- A point of the polygon. -/
def polyPoint (ps : List (V3 K)) (vm : List Nat) (i : Nat) : VCell K :=
  let p := ps.getD i ⟨0, 0, 0⟩
  ⟨p.x, p.y, p.z, markerOf vm ps.length i (i + 1), true⟩

/-- An edge of the polygon. -/
def polyEdge (n : Nat) (em nb : List Nat) (i : Nat) : ECell :=
  ⟨i, nextIn n i, markerOf em n i (n + i + 1), true, nb⟩

/-- The cells of the mesh of a polygon. -/
def polyData (ps : List (V3 K)) (vm em : List Nat) : MeshData K where
  dimension := 2
  V := (List.range ps.length).map (polyPoint ps vm)
  E := (List.range ps.length).map (polyEdge ps.length em [UINT_MAX, 0])
  P := [⟨List.range ps.length, List.range ps.length, 0, true⟩]
  C := []

theorem polygonPoints_eq {ps : List (V3 K)} {vm : List Nat} {v : VCell K} :
    Mesh.polygonPoints ps vm ({ D with V := List.replicate ps.length v } : MeshData K).mesh =
      ok ({ D with V := (List.range ps.length).map (polyPoint ps vm) } : MeshData K).mesh := by
  unfold Mesh.polygonPoints
  have h := foldRange (fun (m : Mesh K) v => do
      let p ← vget ps v
      let k ← givenMarker vm ps.length v (v + 1)
      m.putPoint v p k) (fun V => ({ D with V := V } : MeshData K).mesh)
    (fun i _ => polyPoint ps vm i) (List.replicate ps.length v) (by
      intro cs i b hi hl _ hb
      simp only [List.length_replicate] at hi
      simp only [vget_of_lt hi, ok_bind, givenMarker_eq hi]
      rw [putPoint_V (D := { D with V := cs }) hb]
      simp [polyPoint, hi])
  simp only [List.length_replicate] at h
  rw [h, mapIdx_replicate]

theorem polygonEdges_eq {n : Nat} {em : List Nat} {v : ECell} (hv : v.polygons = []) :
    Mesh.polygonEdges n em ({ D with E := List.replicate n v } : MeshData K).mesh =
      ok ({ D with E := (List.range n).map (polyEdge n em []) } : MeshData K).mesh := by
  unfold Mesh.polygonEdges
  have h := foldRange (fun (m : Mesh K) e => do
      let k ← givenMarker em n e (n + e + 1)
      m.putEdge e e ((e + 1) % n) k) (fun E => ({ D with E := E } : MeshData K).mesh)
    (fun i _ => polyEdge n em [] i) (List.replicate n v) (by
      intro cs i b hi hl hb' hb
      simp only [List.length_replicate] at hi
      obtain rfl : v = b := by
        simp only [List.getElem?_replicate, hi, if_true, Option.some.injEq] at hb'
        exact hb'
      simp only [ok_bind, givenMarker_eq hi]
      rw [putEdge_E (D := { D with E := cs }) hb, nextIn_eq hi, hv]
      rfl)
  simp only [List.length_replicate] at h
  rw [h, mapIdx_replicate]

theorem insertEntry_nb12 {i k x : Nat} {v : ECell} (hv : D.E[i]? = some v) (hk : k < v.polygons.length)
    (hx : x < D.P.length) : D.mesh.insertEntry .nb12 i k x =
      ok ({ D with E := D.E.set i { v with polygons := v.polygons.set k x } } : MeshData K).mesh := by
  unfold mesh
  rw [AMesh.insertEntry_conc D.toA_ok (l := .nb12) (r := v.polygons) (by
    show (D.E.map (·.polygons))[i]? = _
    simp [hv]) hk hx, setRow_nb12 hv]

theorem initNeighbours_eq {n : Nat} {em : List Nat} (hE : D.E = (List.range n).map (polyEdge n em [])) :
    D.mesh.initRowsConst .nb12 2 =
      ({ D with E := (List.range n).map (polyEdge n em [UINT_MAX, UINT_MAX]) } : MeshData K).mesh := by
  unfold mesh
  rw [initRowsConst_empty D.toA_ok (l := .nb12) (by
      show ∀ r ∈ D.E.map (·.polygons), _
      rw [hE]; simp [polyEdge])]
  rw [setRows_nb12 (by simp [toA, num, Lst.owner])]
  congr 2
  simp only [toA, num, Lst.owner, hE, Lst.fillAll, List.length_map, List.length_range]
  congr 1
  apply List.ext_getElem
  · simp
  · intro i h1 h2
    simp [polyEdge]

theorem polygonNeighbours_eq {n : Nat} {em : List Nat} (hP : D.P.length = 1)
    (hE : D.E = (List.range n).map (polyEdge n em [UINT_MAX, UINT_MAX])) :
    Mesh.polygonNeighbours n D.mesh =
      ok ({ D with E := (List.range n).map (polyEdge n em [UINT_MAX, 0]) } : MeshData K).mesh := by
  unfold Mesh.polygonNeighbours
  have h := foldRange (fun (m : Mesh K) e => m.insertEntry .nb12 e 1 0)
    (fun E => ({ D with E := E } : MeshData K).mesh)
    (fun i _ => polyEdge n em [UINT_MAX, 0] i) ((List.range n).map (polyEdge n em [UINT_MAX, UINT_MAX])) (by
      intro cs i b hi hl hb' hb
      simp only [List.length_map, List.length_range] at hi
      obtain rfl : polyEdge n em [UINT_MAX, UINT_MAX] i = b := by
        simpa [List.getElem?_map, hi] using hb'
      rw [insertEntry_nb12 (D := { D with E := cs }) hb (by simp [polyEdge]) (by simp [hP])]
      rfl)
  simp only [List.length_map, List.length_range] at h
  have e : ({ D with E := (List.range n).map (polyEdge n em [UINT_MAX, UINT_MAX]) } : MeshData K) = D := by
    rw [← hE]
  rw [e] at h
  rw [h]
  congr 3
  apply List.ext_getElem
  · simp
  · intro i h1 h2
    simp

theorem mesh2DFromPolygon_eq (ps : List (V3 K)) (vm em : List Nat) :
    Mesh.mesh2DFromPolygon ps vm em Mesh.empty =
      if 2 < ps.length then ok (polyData ps vm em).mesh else abort := by
  unfold Mesh.mesh2DFromPolygon
  simp only
  by_cases h : 2 < ps.length
  · rw [if_pos h, assert_true h, ok_bind, empty_mesh, initDim_mesh]
    simp only
    rw [init_V rfl, polygonPoints_eq, ok_bind, init_E rfl, polygonEdges_eq rfl, ok_bind, init_P rfl,
      resizeRowOf_vert2 (v := ⟨[], [], 0, false⟩) (by simp), ok_bind,
      resizeRowOf_edge2 (by simp; rfl), ok_bind,
      putPolygon_P (by simp; rfl) (by simp [vresize]) (by simp [vresize]) (by simp) (by simp), ok_bind,
      initNeighbours_eq (n := ps.length) (em := em) rfl, polygonNeighbours_eq (em := em) (by simp) rfl]
    rfl
  · rw [if_neg h, assert_false h]
    rfl

end MeshData
end Verif
