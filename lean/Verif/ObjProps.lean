import Verif.ObjLemmas
import Mathlib.Tactic.NormNum
import Mathlib.Algebra.Order.Field.Rat

/-
C133: the text of meshes in the format OBJ.
-/
namespace Verif

open Res

variable {K : Type}

/-- C133, whole property: reading a text gives the vertices and polygons of its lines, and a text with a line that the format does not
allow is refused. Here: a text of lines of the format, with positive or negative indices, is read as the format says; lines that are
skipped change nothing; after good lines, a polygon with a word that is not an integer throws. What is written for a mesh with indices
from 0 is a text of the format, and reading it gives the mesh back. Missing: the index 0 and indices beyond the vertices, see below. -/
theorem c133_text_partial :
    (∀ lines : List (ObjLine K), (∀ l ∈ lines, l.Good) → ∃ o, textToObj lines = ok o ∧ ObjMeaning lines o) ∧
    (∀ (a b : List (ObjLine K)) ws, (∀ l ∈ a, l.Good) → (∃ w ∈ ws, ∀ k, w ≠ .int k) →
      textToObj (a ++ .face ws :: b) = Res.throw) ∧
    ∀ o : ObjMesh K, (∀ f ∈ o.faces, ∀ i ∈ f, 0 ≤ i) →
      (∀ l ∈ objToText o, l.Good) ∧ textToObj (objToText o) = ok o := by
  refine ⟨?_, ?_, ?_⟩
  · intro lines h
    obtain ⟨o, ho, hm⟩ := foldRes_objLine lines [] _ ObjMeaning.nil h
    exact ⟨o, ho, by simpa using hm⟩
  · intro a b ws ha hb
    obtain ⟨o, ho, _⟩ := foldRes_objLine a [] _ ObjMeaning.nil ha
    unfold textToObj
    rw [foldRes_append, ho, ok_bind]
    simp only [foldRes, objLine, objFace_bad _ hb]
    rfl
  · intro o h
    refine ⟨?_, ?_⟩
    · intro l hl
      rcases List.mem_append.1 hl with hl | hl
      · obtain ⟨p, _, rfl⟩ := List.mem_map.1 hl
        exact le_refl 3
      · obtain ⟨f, hf, rfl⟩ := List.mem_map.1 hl
        intro w hw
        obtain ⟨i, hi, rfl⟩ := List.mem_map.1 hw
        have := h f hf i hi
        exact ⟨i + 1, rfl, by omega⟩
    · unfold textToObj objToText
      rw [foldRes_points, foldRes_faces _ _ h]
      simp

/-- A text with a line that is skipped, a polygon with positive and one with negative indices. -/
def objHouse : List (ObjLine ℚ) :=
  [.other, .vertex [0, 0, 0], .vertex [1, 0, 0], .vertex [1, 1, 0], .face [.int 1, .int 2, .int 3], .vertex [0, 1, 0, 7],
    .face [.int (-1), .int (-4), .int (-2)]]

example : ∀ l ∈ objHouse, l.Good := by
  intro l hl
  simp only [objHouse, List.mem_cons, List.not_mem_nil, or_false] at hl
  rcases hl with rfl | rfl | rfl | rfl | rfl | rfl | rfl <;> simp [ObjLine.Good]

example : textToObj objHouse = ok ⟨[⟨0, 0, 0⟩, ⟨1, 0, 0⟩, ⟨1, 1, 0⟩, ⟨0, 1, 0⟩], [[0, 1, 2], [3, 0, 2]]⟩ := rfl

/-- C133 fails for the code: the index 0, which the format does not have, becomes vertex -1, and an index beyond the vertices is
accepted. -/
theorem c133_index_violated :
    textToObj [.vertex [0, 0, (0 : ℚ)], .face [.int 0, .int 2, .int (-5)]] = ok ⟨[⟨0, 0, 0⟩], [[-1, 1, -4]]⟩ := rfl

end Verif
