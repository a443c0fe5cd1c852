import Verif.UcdSpec
import Verif.OvmLemmas
import Verif.FromPolyhedronLemmas

/-
Lemmas on the cells of the UCD exporter.
-/
namespace Verif

open Res

theorem ucdMaterial_ok {materials : List Int} {n i : Nat} (hi : i < n) (hm : ∀ z ∈ materials, 0 ≤ z) : ∃ m,
    ucdMaterial materials n i = ok m ∧ (materials.length = n → materials[i]? = some (m : Int)) ∧ (materials.length ≠ n → m = 0) := by
  unfold ucdMaterial
  by_cases h : materials.length = n
  · have hi' : i < materials.length := by omega
    have h0 := hm materials[i] (List.getElem_mem hi')
    refine ⟨materials[i].toNat, ?_, fun _ => ?_, fun g => absurd h g⟩
    · rw [if_pos h, vget_of_lt hi', ok_bind, uaddi_of_nonneg (by simpa using h0)]; simp
    · rw [List.getElem?_eq_getElem hi', Int.toNat_of_nonneg h0]
  · exact ⟨0, by rw [if_neg h], fun g => absurd g h, fun _ => rfl⟩

/-- The cells and the lines for elements of any kind. -/
theorem ucd_general (d : Nat) (elements : List (List Nat)) (materials : List Int) (f : Nat → Res UcdCell)
    (hm : ∀ z ∈ materials, 0 ≤ z) (hn : elements.length ≤ UINT_MAX) (hv : ∀ e ∈ elements, ∀ v ∈ e, v < UINT_MAX)
    (h : ∀ (i : Nat) e, elements[i]? = some e → ∃ t lab, f i = (ucdMaterial materials elements.length i >>= fun m => ok ⟨t, e, m⟩) ∧
      ucdLabel t = ok lab ∧ ucdShape lab = some (d, e.length)) :
    ∃ lines, (mapRes f (List.range elements.length) >>= ucdLines) = ok lines ∧ IsUcdLines d elements materials lines := by
  obtain ⟨cells, e1, l1, h1⟩ := mapRes_range_exists (f := f) (n := elements.length)
    (R := fun i c => (∃ lab, ucdLabel c.type = ok lab ∧ ucdShape lab = some (d, c.points.length)) ∧ elements[i]? = some c.points ∧
      (materials.length = elements.length → materials[i]? = some (c.material : Int)) ∧
      (materials.length ≠ elements.length → c.material = 0)) (by
    intro i hi
    obtain ⟨t, lab, e, ht, hs⟩ := h i _ (List.getElem?_eq_getElem hi)
    obtain ⟨m, em, hm1, hm2⟩ := ucdMaterial_ok hi hm
    exact ⟨⟨t, elements[i], m⟩, by rw [e, em, ok_bind], ⟨lab, ht, hs⟩, List.getElem?_eq_getElem hi, hm1, hm2⟩)
  obtain ⟨lines, e2, l2, h2⟩ := mapRes_range_exists (f := fun c => do
      let cell ← vget cells c
      let label ← ucdLabel cell.type
      ok (⟨(c + 1) % (UINT_MAX + 1), cell.material, label, cell.points.map fun p => (p + 1) % (UINT_MAX + 1)⟩ : UcdLine))
    (n := cells.length)
    (R := fun i l => ∃ c, cells[i]? = some c ∧ l.number = i + 1 ∧ ucdShape l.label = some (d, c.points.length) ∧
      l.points = c.points.map (· + 1) ∧ l.material = c.material) (by
    intro i hi
    obtain ⟨⟨lab, ht, hs⟩, he, -, -⟩ := h1 i _ (List.getElem?_eq_getElem hi)
    refine ⟨_, by rw [vget_of_lt hi, ok_bind, ht, ok_bind], cells[i], List.getElem?_eq_getElem hi, ?_, hs, ?_, rfl⟩
    · exact Nat.mod_eq_of_lt (by omega)
    · apply List.map_congr_left
      intro v hv'
      have := hv _ (List.mem_of_getElem? he) v hv'
      exact Nat.mod_eq_of_lt (by omega))
  refine ⟨lines, by rw [e1, ok_bind]; exact e2, by omega, ?_, ?_, ?_⟩
  · intro i e l he hl
    obtain ⟨c, hc, a, b, p, -⟩ := h2 i l hl
    have := (h1 i c hc).2.1
    rw [he] at this
    cases this
    exact ⟨a, b, p⟩
  · intro i l hl hlen
    obtain ⟨c, hc, -, -, -, m⟩ := h2 i l hl
    rw [m]
    exact (h1 i c hc).2.2.1 hlen
  · intro l hl hlen
    obtain ⟨i, hi⟩ := List.mem_iff_getElem?.1 hl
    obtain ⟨c, hc, -, -, -, m⟩ := h2 i l hi
    rw [m]
    exact (h1 i c hc).2.2.2 hlen

end Verif
