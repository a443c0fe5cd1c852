import Verif.ChordPathLemmas
import Verif.GeoDataLemmas

/-
Helper lemmas: the area test of the parts of a polygon.
-/
namespace Verif

open Res

variable {K : Type} [Field K] [LinearOrder K] [IsStrictOrderedRing K]

/-- The area test, for points of the plane. -/
theorem isAreaPositive_eq {g : GeoCfg K} {sqrt : K → K} (tol2D : K) (h1 : 0 ≤ g.tolerance1D) {m : Mesh K} {vs : List Nat}
    {rotation : M3 K} {translation : V3 K} {ps qs us : List (V3 K)} (hp : mapRes m.point vs = ok ps)
    (hq : ps.map (rotateTo2D rotation translation) = qs) (h2 : 2 < qs.length) (hm : MovesOn qs)
    (he : AlignedExact g sqrt qs) (hu : IsUnaligned g sqrt qs us) :
    g.isAreaPositive sqrt tol2D m vs rotation translation =
      if 2 < us.length then ok (!g.isValueZero (shoelace qs / 2) tol2D) else abort := by
  have hl : 0 < ps.length := by
    have : ps.length = qs.length := by rw [← hq, List.length_map]
    omega
  unfold GeoCfg.isAreaPositive
  rw [hp, ok_bind, assert_true (by simpa using hl), ok_bind]
  dsimp only
  rw [hq]
  obtain ⟨ids, e1, e2⟩ := unaligned_ok h2 hu
  rw [e1, ok_bind, e2, ok_bind]
  split
  · next h3 =>
    have hsub : ∀ u ∈ us, u ∈ qs := by
      obtain ⟨ids, -, hsel, -⟩ := hu
      exact fun u hu => selection_sub hsel hu
    have hz : ∀ u ∈ us, u.z = 0 := by
      intro u hu
      have := hsub u hu
      rw [← hq] at this
      obtain ⟨p, -, rfl⟩ := List.mem_map.1 this
      rfl
    rw [g.triangulationByFirstVertex_eq sqrt us h3, ok_bind, fan_points g sqrt us h3, ok_bind]
    show (do
      let areas ← mapRes (fun t : V3 K × V3 K × V3 K => g.polygonArea [t.1, t.2.1, t.2.2]) (g.fanTriangles sqrt us)
      ok (!g.isValueZero areas.sum tol2D)) = _
    have hareas : mapRes (fun t => g.polygonArea [t.1, t.2.1, t.2.2]) (g.fanTriangles sqrt us) =
        ok ((g.fanTriangles sqrt us).map fun t => area2 t.1 t.2.1 t.2.2 / 2) :=
      mapRes_eq_map fun t ht => by
        obtain ⟨i, hi, rfl, -⟩ := fanTriangles_mem h3 ht
        exact triangle_area g h1 (hz _ (getD_mem_of_lt (i := 0) (by omega)))
          (hz _ (getD_mem_of_lt (i := i + 1) (by omega))) (hz _ (getD_mem_of_lt (i := i + 2) (by omega)))
    rw [hareas, ok_bind]
    have hsum : ((g.fanTriangles sqrt us).map fun t => area2 t.1 t.2.1 t.2.2).sum = shoelace qs := by
      rw [fan_area h3 (exact_unaligned he hu), ← closedSum_unaligned crossZ_through hm he h2 hu]
      rfl
    have : ((g.fanTriangles sqrt us).map fun t => area2 t.1 t.2.1 t.2.2 / 2).sum = shoelace qs / 2 := by
      rw [← hsum]
      simp only [div_eq_mul_inv]
      rw [List.sum_map_mul_right]
    rw [this]
  · next h3 =>
    unfold GeoCfg.triangulationByFirstVertex
    rw [assert_false (by simpa using h3)]
    rfl

end Verif
