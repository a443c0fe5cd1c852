/-
Specification of list-per-cell storage: a plain list of rows.
-/
import Verif.CsrModel

namespace Verif

open Res


namespace Csr

variable {α : Type}

/-- Well-formedness of a storage with `n` rows, stated on the raw vectors: the number vector has one
entry more than there are rows, starts at 0, never decreases, and ends at the length of the element
vector. -/
structure WF (c : Csr α) (n : Nat) : Prop where
  length_off : c.off.length = n + 1
  first : c.off[0]? = some 0
  mono : ∀ k, ∀ (h : k + 1 < c.off.length), c.off[k] ≤ c.off[k + 1]
  last : c.off[n]? = some c.el.length

/-- The offset of row `k` in the concatenation of the rows. -/
def offsetOf (rows : List (List α)) (k : Nat) : Nat := (rows.take k).flatten.length

/-- The storage that holds exactly the given rows. -/
def ofRows (rows : List (List α)) : Csr α :=
  ⟨(List.range (rows.length + 1)).map (offsetOf rows), rows.flatten⟩

/-- A storage holds the given rows when the observable calls (number of entries of a row, entry of a
row) return what the rows say. -/
def Holds (c : Csr α) (rows : List (List α)) : Prop :=
  ∀ i, ∀ (h : i < rows.length),
    c.rowSize i = ok rows[i].length ∧
    ∀ k, ∀ (h' : k < rows[i].length), c.get i k = ok (rows[i][k])

end Csr
end Verif
