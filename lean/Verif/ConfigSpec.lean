import Verif.ConfigModel

/-
Specification for the configuration store.
-/
namespace Verif

open Res

variable {D M : Type}

/-- The stores a program can reach: from the empty store by any sequence of calls, whether they
succeed or throw. -/
inductive Config.Reachable (io : NumIO D M) : Config D M → Prop
  | empty : Reachable io Config.empty
  | add {c c' : Config D M} {id v desc} : Reachable io c → c.add id v desc = ok c' → Reachable io c'
  | set {c c' : Config D M} {id v} : Reachable io c → c.set id v = ok c' → Reachable io c'
  | setCString {c c' : Config D M} {id s} : Reachable io c → c.setCString id s = ok c' →
      Reachable io c'
  | remove {c c' : Config D M} {id} : Reachable io c → c.remove id = ok c' → Reachable io c'
  | reset {c c' : Config D M} : Reachable io c → c.reset = ok c' → Reachable io c'
  | convert {c : Config D M} {id type value desc} : Reachable io c →
      Reachable io (c.convert io id type value desc).1

/-- The values whose printed form is read back: every `int`, `unsigned` numbers that are `int`s,
characters, strings, truth values, vectors of such numbers, and floating point values for which
printing loses nothing. Sets and matrices are not among them. -/
inductive CVal.Readable (io : NumIO D M) : CVal D M → Prop
  | int (i : Int) : -2147483648 ≤ i → i ≤ 2147483647 → Readable io (.int i)
  | char (c : Char) : Readable io (.char c)
  | string (s : Str) : Readable io (.string s)
  | double (d : D) : io.readD (io.showD d) = ok d → Readable io (.double d)
  | vectorInt (v : List Int) : (∀ i ∈ v, -2147483648 ≤ i ∧ i ≤ 2147483647) →
      Readable io (.vectorInt v)
  | vectorDouble (v : List D) : (∀ d ∈ v, io.readD (io.showD d) = ok d ∧ io.showD d ≠ [] ∧
      ∀ c ∈ io.showD d, c ∉ ['[', ',', ';', ']', ' ']) → Readable io (.vectorDouble v)
  | bool (b : Bool) : Readable io (.bool b)
  | uint (n : Nat) : n < 2147483648 → Readable io (.uint n)
  | vectorUInt (v : List Nat) : (∀ n ∈ v, n < 2147483648) → Readable io (.vectorUInt v)

/-- Two stores that no call can tell apart: the same properties exist, with the same types and
values, and the number of properties is the same. -/
structure Config.Same (c c' : Config D M) : Prop where
  exists_ : ∀ id, c.exists_ id = c'.exists_ id
  get : ∀ id t, c.get id t = c'.get id t
  number : c.number = c'.number

end Verif
