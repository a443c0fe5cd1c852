import Verif.DirectionModel
import Verif.ChordSpec

/-
The chord along which a polygon is cut by a direction, and the sides that are halved for it.
-/
namespace Verif

open Res

variable {K : Type} [Field K] [LinearOrder K] [IsStrictOrderedRing K]

/-- The position `v` is an end of the side at position `i` of a polygon with `n` vertices. -/
def EndOfSide (n i v : Nat) : Prop := v = i ∨ v = (i + 1) % n

/-- The end nearer to the intersection: the first one if the coordinate is at most a half. -/
def IsNearEnd (g : GeoCfg K) (n : Nat) (h : DirHit K) (v : Nat) : Prop :=
  v = if g.isValueGreaterOrEqual (1 / 2) h.coordinate g.tol1D then h.index else (h.index + 1) % n

/-- The chord between two vertices does not cut the polygon: it is a side, or the vertex after one of its ends is on its
line. -/
def FlatChord (g : GeoCfg K) (sqrt : K → K) (vs : List (V3 K)) (a b : Nat) : Prop :=
  (a + 1) % vs.length = b ∨ (b + 1) % vs.length = a ∨
    ∃ p q x, vs[a]? = some p ∧ vs[b]? = some q ∧ (vs[(a + 1) % vs.length]? = some x ∨ vs[(b + 1) % vs.length]? = some x) ∧
      g.pointIsAligned sqrt p q x = true

/-- The new vertices of a kind of split. -/
def SplitKind.onOne : SplitKind → Prop
  | .newVertexFrom | .newVertices => True
  | _ => False

def SplitKind.onTwo : SplitKind → Prop
  | .newVertexTo | .newVertices => True
  | _ => False

end Verif
