/-
Outcomes of C++ calls and elementary vector operations.
-/
namespace Verif


/-- Outcome of a C++ call.

* `ok a`  : the call returns `a`;
* `abort` : `Gedim::Output::Assert` failed and called `abort()`
  (`GeDiM/src/IO/IOUtilities.hpp:125-133`);
* `throw` : a C++ exception leaves the call;
* `ub`    : undefined behaviour (for instance an out-of-range `operator[]`);
* `loop`  : the call did not return within the recursion depth or number of rounds that the model
  was given as fuel. -/
inductive Res (α : Type) where
  | ok (a : α)
  | abort
  | throw
  | ub
  | loop
  deriving DecidableEq, Repr

namespace Res

variable {α : Type} {β : Type}

/-- Sequencing of calls: the first abnormal outcome ends the computation. -/
protected def bind (x : Res α) (f : α → Res β) : Res β :=
  match x with
  | ok a => f a
  | abort => abort
  | throw => throw
  | ub => ub
  | loop => loop

instance : Monad Res where
  pure := ok
  bind := Res.bind

@[simp] theorem pure_eq (a : α) : (pure a : Res α) = ok a := rfl
@[simp] theorem ok_bind {α β : Type} (a : α) (f : α → Res β) : (ok a >>= f) = f a := rfl
@[simp] theorem abort_bind {α β : Type} (f : α → Res β) : ((abort : Res α) >>= f) = abort := rfl
@[simp] theorem throw_bind {α β : Type} (f : α → Res β) : ((Res.throw : Res α) >>= f) = Res.throw := rfl
@[simp] theorem ub_bind {α β : Type} (f : α → Res β) : ((ub : Res α) >>= f) = ub := rfl
@[simp] theorem loop_bind {α β : Type} (f : α → Res β) : ((loop : Res α) >>= f) = loop := rfl
@[simp] theorem map_ok {α β : Type} (g : α → β) (a : α) : (g <$> (ok a : Res α)) = ok (g a) := rfl

theorem bind_eq_ok {α β : Type} {x : Res α} {f : α → Res β} {b : β} :
    (x >>= f) = ok b ↔ ∃ a, x = ok a ∧ f a = ok b := by
  cases x <;> simp

end Res

open Res

/-- `std::numeric_limits<unsigned int>::max()`. -/
def UINT_MAX : Nat := 4294967295

/-- `Gedim::Output::Assert` (`GeDiM/src/IO/IOUtilities.cpp:704-`): `abort()` when the condition
is false. -/
def assert (p : Prop) [Decidable p] : Res PUnit :=
  if p then ok ⟨⟩ else abort

theorem assert_true {p : Prop} [Decidable p] (h : p) : assert p = ok ⟨⟩ := by simp [assert, h]
theorem assert_false {p : Prop} [Decidable p] (h : ¬p) : assert p = abort := by simp [assert, h]

/-- `v[i]` of a `std::vector`: undefined outside the range. -/
def vget {α : Type} (l : List α) (i : Nat) : Res α :=
  match l[i]? with
  | some a => ok a
  | none => ub

/-- `v[i] = a` of a `std::vector`: undefined outside the range. -/
def vset {α : Type} (l : List α) (i : Nat) (a : α) : Res (List α) :=
  if i < l.length then ok (l.set i a) else ub

/-- `v.resize(n, d)` of a `std::vector`: keeps the first `n` entries, pads with `d`. -/
def vresize {α : Type} (l : List α) (n : Nat) (d : α) : List α :=
  l.take n ++ List.replicate (n - l.length) d

/-- `v.erase(begin + a, begin + b)` of a `std::vector`: undefined unless `a ≤ b ≤ size`. -/
def verase {α : Type} (l : List α) (a b : Nat) : Res (List α) :=
  if a ≤ b ∧ b ≤ l.length then ok (l.take a ++ l.drop b) else ub

/-- `v.erase(begin + i)` of a `std::vector`: undefined unless `i < size`. -/
def verase1 {α : Type} (l : List α) (i : Nat) : Res (List α) :=
  if i < l.length then ok (l.eraseIdx i) else ub

/-- `std::rotate(begin + a, begin + b, end)`: undefined unless `a ≤ b ≤ size`. -/
def vrotate {α : Type} (l : List α) (a b : Nat) : Res (List α) :=
  if a ≤ b ∧ b ≤ l.length then ok (l.take a ++ (l.drop b ++ (l.take b).drop a)) else ub

/-- Subtraction of `unsigned int` values, with wrap-around when the result would be negative. -/
def usub (a b : Nat) : Nat := if b ≤ a then a - b else a + (UINT_MAX + 1) - b

/-- `unsigned int + int`, with wrap-around when the result would be negative. -/
def uaddi (a : Nat) (e : Int) : Nat :=
  if 0 ≤ (a : Int) + e then ((a : Int) + e).toNat else ((a : Int) + e + (UINT_MAX + 1)).toNat

theorem vget_of_lt {α : Type} {l : List α} {i : Nat} (h : i < l.length) : vget l i = ok l[i] := by
  simp [vget, h]

theorem vget_of_ge {α : Type} {l : List α} {i : Nat} (h : l.length ≤ i) : vget l i = ub := by
  simp [vget, List.getElem?_eq_none h]

theorem vget_eq_ok {α : Type} {l : List α} {i : Nat} {a : α} :
    vget l i = ok a ↔ l[i]? = some a := by
  unfold vget; cases l[i]? <;> simp

theorem vset_of_lt {α : Type} {l : List α} {i : Nat} (a : α) (h : i < l.length) :
    vset l i a = ok (l.set i a) := by simp [vset, h]

/-- A loop `for (x : xs) s = f(s, x)` whose body may end abnormally. -/
def foldRes {σ β : Type} (f : σ → β → Res σ) : σ → List β → Res σ
  | s, [] => ok s
  | s, x :: xs => do
      let s ← f s x
      foldRes f s xs

@[simp] theorem foldRes_nil {σ β : Type} (f : σ → β → Res σ) (s : σ) : foldRes f s [] = ok s := rfl

@[simp] theorem foldRes_cons {σ β : Type} (f : σ → β → Res σ) (s : σ) (x : β) (xs : List β) :
    foldRes f s (x :: xs) = (f s x >>= fun s => foldRes f s xs) := rfl

theorem foldRes_append {σ β : Type} (f : σ → β → Res σ) (s : σ) (xs ys : List β) :
    foldRes f s (xs ++ ys) = (foldRes f s xs >>= fun s => foldRes f s ys) := by
  induction xs generalizing s with
  | nil => rfl
  | cons x xs ih =>
    simp only [List.cons_append, foldRes_cons]
    cases f s x <;> simp [ih]

theorem usub_of_le {a b : Nat} (h : b ≤ a) : usub a b = a - b := by simp [usub, h]

theorem uaddi_of_nonneg {a : Nat} {e : Int} (h : 0 ≤ (a : Int) + e) :
    uaddi a e = ((a : Int) + e).toNat := by simp [uaddi, h]

@[simp] theorem length_vresize {α : Type} (l : List α) (n : Nat) (d : α) :
    (vresize l n d).length = n := by
  simp [vresize]; omega

end Verif
