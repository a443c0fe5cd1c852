import Verif.SideCheckModel

/-
Which polygons of an edge object to the edge being split.
-/
namespace Verif

open Res

variable {K : Type} [Field K] [LinearOrder K] [IsStrictOrderedRing K]

/-- Half of the edge is shorter than the polygon `d` asks for, by its quality. -/
def TooShort (g : GeoCfg K) (length weight : K) (quality : List K) (d : Nat) : Prop :=
  ∃ q, quality[d]? = some q ∧ g.isValueGreaterOrEqual (1 / 2 * length) (weight * q) g.tol1D = false

/-- The edges, with their lengths, of a polygon on the line `line`. -/
def onLine (es : List Nat) (ls : List K) (aligned : List Nat) (line : Nat) : List (Nat × K) :=
  (es.zip ls).filter fun p => decide (aligned[p.1]? = some line)

/-- Half of the edge is shorter than the mean length of the edges of the polygon `d` on its line after the split. -/
def Unbalanced (g : GeoCfg K) (m : Mesh K) (length weight : K) (lengths : List (List K)) (aligned : List Nat) (line d : Nat) :
    Prop :=
  ∃ es ls, m.row .edge2 d = ok es ∧ lengths[d]? = some ls ∧
    g.isValueGreaterOrEqual (1 / 2 * length)
      (weight * ((onLine es ls aligned line).map Prod.snd).sum / (((onLine es ls aligned line).length + 1 : Nat) : K))
      g.tol1D = false

/-- What the neighbours `r` of an edge, as far as they are polygons of the mesh, say: `here` is false if the polygon `c`
itself objects, `all` is false if any of them objects, and `neigh` has the answers of the single ones. -/
structure SideAnswers (num : Nat) (r : List Nat) (c : Nat) (objects : Nat → Prop) (here all : Bool) (neigh : List Bool) :
    Prop where
  local_iff : here = false ↔ c ∈ r ∧ c < num ∧ objects c
  all_iff : all = false ↔ ∃ d ∈ r, d < num ∧ objects d
  size : neigh.length = r.length
  single_iff : ∀ k d : Nat, r[k]? = some d → (neigh[k]? = some false ↔ d < num ∧ objects d)

/-- The meaning of the three verdicts of a test, if any polygon objects. -/
structure Blames (num : Nat) (r : List Nat) (c : Nat) (objects : Nat → Prop) (onlyLocal onlyNeigh both v : SideVerdict) :
    Prop where
  onlyLocal : v = onlyLocal ↔ (c ∈ r ∧ c < num ∧ objects c) ∧ ¬ ∃ d ∈ r, d < num ∧ d ≠ c ∧ objects d
  onlyNeigh : v = onlyNeigh ↔ ¬ (c ∈ r ∧ c < num ∧ objects c) ∧ ∃ d ∈ r, d < num ∧ d ≠ c ∧ objects d
  both : v = both ↔ (c ∈ r ∧ c < num ∧ objects c) ∧ ∃ d ∈ r, d < num ∧ d ≠ c ∧ objects d

/-- The data for the polygons of the edge are there: the qualities, the lines of all edges and the lengths of the edges. -/
structure DataThere (m : Mesh K) (r : List Nat) (lengths : List (List K)) (quality : List K) (aligned : List Nat) :
    Prop where
  quality : ∀ d ∈ r, d < m.num .d2 → d < quality.length
  lines : ∀ d ∈ r, d < m.num .d2 → ∀ es, m.row .edge2 d = ok es → ∀ x ∈ es, x < aligned.length
  lengths : ∀ d ∈ r, d < m.num .d2 → ∃ es ls, m.row .edge2 d = ok es ∧ lengths[d]? = some ls ∧ ls.length = es.length

end Verif
