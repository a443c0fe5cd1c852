/-
Specification of a mesh restricted to some of its cells.
-/
import Verif.MeshSpec

namespace Verif

open Res

/-- How a reference `v` has to become `v'` when only the cells `σ 0, σ 1, ..., σ (n' - 1)` are kept: a
reference to a kept cell denotes that cell, any other one is outside the new range. -/
def RefKept (σ : Nat → Nat) (n' v v' : Nat) : Prop :=
  ((∃ w, w < n' ∧ σ w = v) → v' < n' ∧ σ v' = v) ∧
  ((¬ ∃ w, w < n' ∧ σ w = v) → n' ≤ v')

/-- `m'` consists of the cells `σ d 0, σ d 1, ...` of `m`, in increasing order, with everything the
getters report about them. References are renumbered; the sub-division lists are not mentioned. -/
structure Kept {α : Type} (m m' : Mesh α) (σ : Dim → Nat → Nat) : Prop where
  dimension : m'.dimension = m.dimension
  ids : ∀ d, m'.ids d = m.ids d
  lt : ∀ d j, j < m'.num d → σ d j < m.num d
  mono : ∀ d j k, j < k → k < m'.num d → σ d j < σ d k
  coordinates : ∀ j, j < m'.num .d0 → m'.coordinates j = m.coordinates (σ .d0 j)
  extremes : ∀ j a b, j < m'.num .d1 → m.extremes (σ .d1 j) = ok (a, b) →
    ∃ a' b', m'.extremes j = ok (a', b') ∧ RefKept (σ .d0) (m'.num .d0) a a' ∧
      RefKept (σ .d0) (m'.num .d0) b b'
  marker : ∀ d j, j < m'.num d → m'.marker d j = m.marker d (σ d j)
  active : ∀ d j, j < m'.num d → m'.active d j = m.active d (σ d j)
  original : ∀ d j v, d ≠ .d0 → j < m'.num d → m.original d (σ d j) = ok v →
    ∃ v', m'.original d j = ok v' ∧ RefKept (σ d) (m'.num d) v v'
  updated : ∀ d j, j < m'.num d → ∃ s s', m.updated d (σ d j) = ok s ∧ m'.updated d j = ok s' ∧
    ∀ x, x ∈ s'.getD [] ↔ x < m'.num d ∧ σ d x ∈ s.getD []
  rowSize : ∀ l j, j < m'.num l.owner → m'.rowSize l j = m.rowSize l (σ l.owner j)
  entry : ∀ l j k v, l ≠ .sub2 → j < m'.num l.owner → m.entry l (σ l.owner j) k = ok v →
    ∃ v', m'.entry l j k = ok v' ∧ RefKept (σ l.target) (m'.num l.target) v v'
  propSize : ∀ d j p, j < m'.num d → m'.propSize d j p = m.propSize d (σ d j) p
  propValue : ∀ d j p k, j < m'.num d → m'.propValue d j p k = m.propValue d (σ d j) p k

end Verif
