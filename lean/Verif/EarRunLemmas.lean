import Verif.EarModelLemmas
import Verif.EarWindLemmas

/-
The rounds of the ear clipping.
-/
namespace Verif

open Res

variable {K : Type} [Field K] [LinearOrder K] [IsStrictOrderedRing K]
variable {g : GeoCfg K} {sqrt : K → K}

theorem unalignedPoints_eq (g : GeoCfg K) (sqrt : K → K) (vs : List (V3 K)) (h : 2 < vs.length) :
    g.unalignedPoints sqrt vs 0 = ok ((List.range vs.length).filter fun p => !g.alignedAt sqrt vs p) := by
  unfold GeoCfg.unalignedPoints
  rw [assert_true (by omega), ok_bind, if_neg (by omega), unalignedLoop_eq g sqrt vs 0
      _ [] (fun p hp => List.mem_range.1 hp) (fun k => absurd k (by omega))]
  simp

/-- The vertices of a polygon with the given numbers. -/
def vtx (polygon : List (V3 K)) (i : Nat) : V3 K := polygon.getD i V3.zero

/-- The vertex is kept by the removal of the aligned ones. -/
def GeoCfg.keeps (g : GeoCfg K) (sqrt : K → K) (polygon : List (V3 K)) (ids : List Nat) (i : Nat) : Bool :=
  !g.alignedAt sqrt (ids.map (vtx polygon)) (ids.idxOf i)

theorem extract_vtx (polygon : List (V3 K)) (ids : List Nat) (h : ∀ i ∈ ids, i < polygon.length) :
    extractPoints polygon ids = ok (ids.map (vtx polygon)) := by
  apply extractPoints_eq
  rw [List.map_map]
  apply List.map_congr_left
  intro i hi
  simp [vtx, List.getElem?_eq_getElem (h i hi), h i hi]

theorem keeps_corner (polygon : List (V3 K)) {ids : List Nat} (hn : ids.Nodup) (h3 : 2 < ids.length) {x y w : Nat}
    (hc : CycCorner ids x y w) :
    g.keeps sqrt polygon ids y = !g.pointIsAligned sqrt (vtx polygon x) (vtx polygon y) (vtx polygon w) := by
  have hy := hc.mem.2.1
  have hv : ids.idxOf y < ids.length := List.idxOf_lt_length_of_mem hy
  have hp := cyclePrev_lt hv
  have hx := next_lt hv
  have gy : ids[ids.idxOf y]? = some y := List.getElem?_idxOf hy
  have hc' := cycCorner_of_getElem h3 hv (List.getElem?_eq_getElem hp) gy (List.getElem?_eq_getElem hx)
  obtain ⟨e1, e2⟩ := hc.unique hn hc'
  unfold GeoCfg.keeps GeoCfg.alignedAt
  rw [List.length_map]
  have g1 : (ids.map (vtx polygon))[if ids.idxOf y = 0 then ids.length - 1 else ids.idxOf y - 1]? =
      some (vtx polygon x) := by
    have : (if ids.idxOf y = 0 then ids.length - 1 else ids.idxOf y - 1) = cyclePrev ids.length (ids.idxOf y) := rfl
    rw [this, List.getElem?_map, List.getElem?_eq_getElem hp, ← e1]; rfl
  have g2 : (ids.map (vtx polygon))[ids.idxOf y]? = some (vtx polygon y) := by
    rw [List.getElem?_map, gy]; rfl
  have g3 : (ids.map (vtx polygon))[(ids.idxOf y + 1) % ids.length]? = some (vtx polygon w) := by
    rw [List.getElem?_map, List.getElem?_eq_getElem hx, ← e2]; rfl
  rw [g1, g2, g3]

/-- The output of a round. -/
def earTriple (ids : List Nat) (v : Nat) : List Nat :=
  [ids.getD v 0, ids.getD ((v + 1) % ids.length) 0, ids.getD (cyclePrev ids.length v) 0]

theorem earRounds_succ (hg : EarCfg g sqrt) (polygon : List (V3 K)) (hz : ∀ p ∈ polygon, p.z = 0) (fuel : Nat)
    {ids : List Nat} (hn : ids.Nodup) (h3 : 2 < ids.length) (hlt : ∀ i ∈ ids, i < polygon.length) (acc : List Nat) :
    let ids' := ids.filter (g.keeps sqrt polygon ids)
    g.earRounds sqrt polygon (fuel + 1) ids (ids.map (vtx polygon)) acc =
      if ids'.length ≤ 2 then abort
      else if ids'.length = 3 then ok (acc ++ ids')
      else match (List.range ids'.length).find? (g.isEarAt sqrt (ids'.map (vtx polygon))) with
        | none => abort
        | some v => g.earRounds sqrt polygon fuel (ids'.eraseIdx v) ((ids'.eraseIdx v).map (vtx polygon))
            (acc ++ earTriple ids' v) := by
  intro ids'
  have hlt' : ∀ i ∈ ids', i < polygon.length := fun i hi => hlt i (List.mem_of_mem_filter hi)
  rw [GeoCfg.earRounds, unalignedPoints_eq g sqrt _ (by simpa using h3), ok_bind, List.length_map]
  have hext : extractPoints ids ((List.range ids.length).filter
      (fun p => !g.alignedAt sqrt (ids.map (vtx polygon)) p)) = ok ids' := extract_positions ids hn _
  have hlen : ((List.range ids.length).filter (fun p => !g.alignedAt sqrt (ids.map (vtx polygon)) p)).length =
      ids'.length := by
    have gen : ∀ (ps : List Nat) (l q : List Nat), extractPoints ps l = ok q → l.length = q.length := by
      intro ps l
      induction l with
      | nil => intro q h; rw [extractPoints] at h; cases h; rfl
      | cons i l ih =>
        intro q h
        rw [extractPoints, bind_eq_ok] at h
        obtain ⟨a, -, h⟩ := h
        rw [bind_eq_ok] at h
        obtain ⟨b, hb, h⟩ := h
        cases h
        simp [ih b hb]
    exact gen _ _ _ hext
  rw [hlen]
  by_cases h2 : ids'.length ≤ 2
  · rw [if_pos h2, assert_false (by omega), abort_bind]
  · rw [if_neg h2, assert_true (by omega), ok_bind, hext, ok_bind]
    split
    · rename_i h
      match hi : ids', h with
      | [i, j, k], _ => 
        rfl
    · rename_i h
      rw [extract_vtx polygon ids' hlt', ok_bind, findEar_eq hg]
      · cases hf : (List.range ids'.length).find? (g.isEarAt sqrt (ids'.map (vtx polygon))) with
        | none => rfl
        | some v =>
          have hv : v < ids'.length := List.mem_range.1 (List.mem_of_find?_eq_some hf)
          simp only [ok_bind]
          rw [vget_of_lt hv, ok_bind, vget_of_lt (next_lt hv), ok_bind, vget_of_lt (cyclePrev_lt hv), ok_bind,
            if_pos]
          · rw [← List.eraseIdx_map]
            congr 2
            unfold earTriple
            simp [hv, next_lt hv, cyclePrev_lt hv]
          · rw [List.length_eraseIdx, List.length_map, if_pos hv]; omega
      · intro p hp
        obtain ⟨i, hi, rfl⟩ := List.mem_map.1 hp
        refine hz _ ?_
        unfold vtx
        simp [hlt' i hi]
      · intro i hi
        simpa using hi

end Verif
