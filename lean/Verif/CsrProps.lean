/-
Properties of the list-per-cell storage (C01 and the storage part of C02).
-/
import Verif.CsrLemmas

namespace Verif

open Res

variable {α : Type}

/-- C01, storage level. Resizing the list of cell `i` always succeeds on a well-formed storage; the
resized list keeps its first `min old m` entries and is filled up with the default value `d`; the
list of every other cell is exactly what it was. -/
theorem c01_resize_row (c : Csr α) (n i m : Nat) (d : α) (h : c.WF n) (hi : i < n) :
    ∃ c' old, c.resizeRow n i m d = ok c' ∧ c'.WF n ∧
      c.row i = ok old ∧ c'.row i = ok (old.take m ++ List.replicate (m - old.length) d) ∧
      ∀ j, j < n → j ≠ i → ∃ r, c.row j = ok r ∧ c'.row j = ok r := by
  obtain ⟨rows, rfl, rfl⟩ := Csr.exists_rows_of_wf h
  refine ⟨_, rows[i], Csr.resizeRow_ofRows d hi, ?_, Csr.row_ofRows hi, ?_, ?_⟩
  · have := Csr.wf_ofRows (rows.set i (vresize rows[i] m d))
    simpa using this
  · rw [Csr.row_ofRows (by simpa using hi)]
    simp [vresize]
  · intro j hj hji
    refine ⟨rows[j], Csr.row_ofRows hj, ?_⟩
    rw [Csr.row_ofRows (by simpa using hj)]
    rw [List.getElem_set_ne (Ne.symm hji)]

/-- Three cells with lists `[5, 6]`, `[]`, `[7]`. -/
def exampleCsr : Csr Nat := ⟨[0, 2, 2, 3], [5, 6, 7]⟩

theorem exampleCsr_wf : exampleCsr.WF 3 := by
  rw [show exampleCsr = Csr.ofRows [[5, 6], [], [7]] by decide]
  exact Csr.wf_ofRows [[5, 6], [], [7]]

example := c01_resize_row exampleCsr 3 0 4 9 exampleCsr_wf (by decide)

example : exampleCsr.resizeRow 3 0 4 9 = ok ⟨[0, 4, 4, 5], [5, 6, 9, 9, 7]⟩ := by decide
example : exampleCsr.resizeRow 3 0 1 9 = ok ⟨[0, 1, 1, 2], [5, 7]⟩ := by decide

/-- The list of a cell as a whole and the pair (number of entries, entry) are the same information,
so every statement about whole lists is a statement about the entry getters. -/
theorem c01_row_is_entries (c : Csr α) (n i : Nat) (h : c.WF n) (hi : i < n) (r : List α) :
    c.row i = ok r ↔
      c.rowSize i = ok r.length ∧ ∀ k, ∀ (hk : k < r.length), c.get i k = ok r[k] :=
  Csr.row_eq_ok_iff h hi r

example : exampleCsr.row 0 = ok [5, 6] ∧ exampleCsr.rowSize 0 = ok 2 ∧ exampleCsr.get 0 1 = ok 6 := by
  decide

end Verif
