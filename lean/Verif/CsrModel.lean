/-
Model of the list-per-cell storage of `MeshMatricesDAO`: a "number vector" of offsets together with
an element vector (`GeDiM/src/Mesh/MeshMatrices.hpp:21-123`).
-/
import Verif.Basic

namespace Verif

open Res


/-- One list-per-cell storage: `off` is a "number vector" such as `NumberCell2DVertices`, `el` is the
matching element vector such as `Cell2DVertices` (`GeDiM/src/Mesh/MeshMatrices.hpp:75-80`). -/
structure Csr (α : Type) where
  off : List Nat
  el : List α
  deriving DecidableEq, Repr

namespace Csr

variable {α : Type}

/-- The storage of a fresh `MeshMatrices`: `NumberX = {0}`, `X = {}`
(`GeDiM/src/Mesh/MeshMatrices.hpp:26-34`). -/
def empty : Csr α := ⟨[0], []⟩

/-- Loop `numberElementVector[e + 1] = numberElementVector[e] + k` for `e` in `sizes`
(`GeDiM/src/Mesh/MeshMatricesDAO.cpp:28-30` and `:44-48`): the offsets after an initial
offset `o`. -/
def offsetsFrom (o : Nat) : List Nat → List Nat
  | [] => [o]
  | k :: ks => o :: offsetsFrom (o + k) ks

/-- `InitializeNumberVector` (`GeDiM/src/Mesh/MeshMatricesDAO.cpp:36-51`).
The loop reads `numberElementVector[0]`, which `resize` leaves as it was (0 when newly created). -/
def initSizes (c : Csr α) (sizes : List Nat) (d : α) : Csr α :=
  let o := (vresize c.off (sizes.length + 1) 0).headD 0
  ⟨offsetsFrom o sizes, vresize c.el sizes.sum d⟩

/-- `InitializeNuberVectorWithConstantElements`
(`GeDiM/src/Mesh/MeshMatricesDAO.cpp:22-33`). -/
def initConst (c : Csr α) (n k : Nat) (d : α) : Csr α :=
  let o := (vresize c.off (n + 1) 0).headD 0
  ⟨offsetsFrom o (List.replicate n k), vresize c.el (n * k) d⟩

/-- `ResizeNumberVectorWithNewNumberElements`
(`GeDiM/src/Mesh/MeshMatricesDAO.cpp:54-78`): `n` is `numberElements`, `i` is `vectorIndex`, `m` is
`newNumberElements`, `d` is `newElementInitialization`. -/
def resizeRow (c : Csr α) (n i m : Nat) (d : α) : Res (Csr α) := do
  let hi ← vget c.off (i + 1)
  let lo ← vget c.off i
  let orig : Nat := usub hi lo
  let newElements : Int := (m : Int) - (orig : Int)
  let numOld ← vget c.off n
  let off' := c.off.mapIdx fun k x => if i < k ∧ k ≤ n then uaddi x newElements else x
  if newElements > 0 then
    let tot ← vget off' n
    let lo' ← vget off' i
    let el' ← vrotate (vresize c.el tot d) (lo' + orig) numOld
    ok ⟨off', el'⟩
  else
    let lo' ← vget off' i
    let el' ← verase c.el (lo' + m) (lo' + orig)
    ok ⟨off', el'⟩

/-- Removal of one row: resize to 0 and erase the offset, as in every `CellXDRemove`
(for instance `GeDiM/src/Mesh/MeshMatricesDAO.cpp:231-232`). -/
def removeRow (c : Csr α) (n i : Nat) (d : α) : Res (Csr α) := do
  let c' ← c.resizeRow n i 0 d
  let off' ← verase1 c'.off i
  ok ⟨off', c'.el⟩

/-- The write loop of `CellXDAppend`
(for instance `GeDiM/src/Mesh/MeshMatricesDAO.cpp:199-200`):
`number[old + c + 1] = number[old]` for `c < k`. -/
def appendLoop (old : Nat) : Nat → List Nat → Res (List Nat)
  | 0, off => ok off
  | k + 1, off => do
      let off ← appendLoop old k off
      let x ← vget off old
      vset off (old + k + 1) x

/-- Append `k` empty rows after row `old`: push `k` zeros, then overwrite them
(`GeDiM/src/Mesh/MeshMatricesDAO.cpp:185-206`). -/
def appendRows (c : Csr α) (old k : Nat) : Res (Csr α) := do
  let off' ← appendLoop old k (c.off ++ List.replicate k 0)
  ok ⟨off', c.el⟩

/-- `NumberX.resize(n + 1, 0)` in `CellXDsInitialize`
(for instance `GeDiM/src/Mesh/MeshMatricesDAO.cpp:173`): the element vector is not touched. -/
def resizeOff (c : Csr α) (n : Nat) : Csr α := ⟨vresize c.off (n + 1) 0, c.el⟩

/-- Number of entries of row `i`: `NumberX[i + 1] - NumberX[i]`
(for instance `GeDiM/src/Mesh/IMeshDAO.hpp:1239-1243`). -/
def rowSize (c : Csr α) (i : Nat) : Res Nat := do
  let hi ← vget c.off (i + 1)
  let lo ← vget c.off i
  ok (usub hi lo)

/-- Entry `k` of row `i`: `X[NumberX[i] + k]`
(for instance `GeDiM/src/Mesh/IMeshDAO.hpp:1247-1252`). -/
def get (c : Csr α) (i k : Nat) : Res α := do
  let lo ← vget c.off i
  vget c.el (lo + k)

/-- Overwrite entry `k` of row `i`: `X[NumberX[i] + k] = a`
(for instance `GeDiM/src/Mesh/IMeshDAO.hpp:1231-1237`). -/
def put (c : Csr α) (i k : Nat) (a : α) : Res (Csr α) := do
  let lo ← vget c.off i
  let el' ← vset c.el (lo + k) a
  ok ⟨c.off, el'⟩

/-- The whole row `i` as a vector: `vector(X.begin() + NumberX[i], X.begin() + NumberX[i] + size)`
(for instance `Cell2DVertices`, `GeDiM/src/Mesh/IMeshDAO.hpp:1761-1766`); the loops of
`Cell3DVertices` (`GeDiM/src/Mesh/MeshMatricesDAO.cpp:1371-1380`) read the same entries. -/
def row (c : Csr α) (i : Nat) : Res (List α) := do
  let s ← c.rowSize i
  let lo ← vget c.off i
  if lo + s ≤ c.el.length then ok ((c.el.drop lo).take s) else ub

/-- Apply a function to every stored element, as the loop of `AlignContainerHigherElements` does
on an element vector (`GeDiM/src/Mesh/MeshMatricesDAO.cpp:118-127`). -/
def mapEl (f : α → α) (c : Csr α) : Csr α := ⟨c.off, c.el.map f⟩

end Csr
end Verif
