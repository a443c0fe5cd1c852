import Verif.CheckSpec

/-
Triangles around a common vertex.
-/
namespace Verif

open Res

variable {α : Type}

/-- The triangle `t` has the vertices `a`, `b`, `c` and the edges `e` from `a` to `b`, `f` from `b` to `c` and `g` from `c` to
`a` in this order, from whichever vertex on. -/
def IsTriangle (m : Mesh α) (t a b c e f g : Nat) : Prop :=
  (m.row .vert2 t = ok [a, b, c] ∧ m.row .edge2 t = ok [e, f, g]) ∨
  (m.row .vert2 t = ok [b, c, a] ∧ m.row .edge2 t = ok [f, g, e]) ∨
  (m.row .vert2 t = ok [c, a, b] ∧ m.row .edge2 t = ok [g, e, f])

/-- The triangles `ts`, in this order, around the vertex `a`: the triangle at position `i` has the vertices `i` and `i + 1`
of `rim`, the edges `i` and `i + 1` of `spokes` to `a` and the edge `i` of `outer` between them. -/
structure IsFan (m : Mesh α) (ts : List Nat) (a : Nat) (rim spokes outer : List Nat) : Prop where
  rimLength : rim.length = ts.length + 1
  spokesLength : spokes.length = ts.length + 1
  outerLength : outer.length = ts.length
  triangles : ∀ i t b c e f g, ts[i]? = some t → rim[i]? = some b → rim[i + 1]? = some c → spokes[i]? = some e →
    outer[i]? = some f → spokes[i + 1]? = some g → IsTriangle m t a b c e f g
  center : a ∉ rim
  vertices : rim.Nodup
  edges : (spokes ++ outer).Nodup

/-- `J e u v` says that the edge `e` runs from `u` to `v`: the edges `es` run from each of the vertices `vs` to the next and
from the last to the first. -/
def Around (J : Nat → Nat → Nat → Prop) (vs es : List Nat) : Prop :=
  es.length = vs.length ∧ ∀ k u v e, vs[k]? = some u → vs[(k + 1) % vs.length]? = some v → es[k]? = some e → J e u v

/-- All sides of the triangles `ts` run around them. -/
def AllAround (m : Mesh α) (J : Nat → Nat → Nat → Prop) (ts : List Nat) : Prop :=
  ∀ t ∈ ts, ∀ vs es, m.row .vert2 t = ok vs → m.row .edge2 t = ok es → Around J vs es

end Verif
