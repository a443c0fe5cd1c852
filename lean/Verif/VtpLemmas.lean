import Verif.VtpSpec
import Verif.FromPolyhedronLemmas

/-
Lemmas for a polyhedron of a mesh as vertices and faces.
-/
namespace Verif

open Res

variable {K : Type}

/-- A face with its vertices in the list, and one without. -/
theorem vtpFace_cases {m : Mesh K} (hw : m.WF) {vs us : List Nat} {f : Nat} (hu : m.row .vert2 f = ok us) :
    ((∀ v ∈ us, v ∈ vs) → ∃ L, m.vtpFace (localMap vs 0 []) f = ok L ∧ L.length = us.length ∧
      ∀ (j : Nat) k, L[j]? = some k → ∃ v, us[j]? = some v ∧ vs[k]? = some v) ∧
    ((∃ v ∈ us, v ∉ vs) → m.vtpFace (localMap vs 0 []) f = throw) := by
  have col : ∀ (j : Nat) v, us[j]? = some v → (do
      let v ← m.entry .vert2 f j
      localAt (localMap vs 0 []) v : Res Nat) = localAt (localMap vs 0 []) v := by
    intro j v hv
    simp only [entry_of_row hw hu hv, ok_bind]
  unfold Mesh.vtpFace
  simp only [rowSize_of_row hw hu, ok_bind]
  constructor
  · intro h
    refine mapRes_range_exists (R := fun j k => ∃ v, us[j]? = some v ∧ vs[k]? = some v) ?_
    intro j hj
    have hu' : us[j]? = some us[j] := List.getElem?_eq_getElem hj
    obtain ⟨a, ha, ha'⟩ := localAt_mem (h _ (List.getElem_mem hj))
    exact ⟨a, by rw [col j _ hu', ha], _, hu', ha'⟩
  · rintro ⟨v, hv, hn⟩
    refine mapRes_throws ?_ ?_
    · intro j hj
      have hu' : us[j]? = some (us[j]'(List.mem_range.1 hj)) := List.getElem?_eq_getElem _
      rw [col j _ hu']
      by_cases hm : us[j]'(List.mem_range.1 hj) ∈ vs
      · obtain ⟨a, ha, _⟩ := localAt_mem hm
        exact Or.inl ⟨a, ha⟩
      · exact Or.inr (localAt_not_mem hm)
    · obtain ⟨j, hj, rfl⟩ := List.mem_iff_getElem.1 hv
      exact ⟨j, List.mem_range.2 hj, by rw [col j _ (List.getElem?_eq_getElem hj), localAt_not_mem hn]⟩

end Verif
