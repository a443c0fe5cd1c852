import Verif.ConformPointsLemmas
import Mathlib.Algebra.Order.Field.Rat

/-
C142: the points of the conformed mesh of a segment.
-/
namespace Verif

open Res

variable {K : Type} [Field K] [LinearOrder K] [IsStrictOrderedRing K]

/-- C142. For a union that begins and ends with points of the own mesh and has all of them, the conformed mesh has the points of the union;
the own points have the cells of the own mesh, and each of the others has the cells of the own segment in which it is. -/
theorem c142_points (g : GeoCfg K) (h0 : 0 ≤ g.minTolerance) (position : Nat) (pts : List (K × CutPoint)) (segs : List (CutSegment K))
    (union : List (K × UPoint)) (hU : UnionOf g.tol1D position pts.length union) (hsegs : segs.length + 1 = pts.length) :
    ∃ new, conformPoints g position pts segs union = ok new ∧ IsConformed position pts segs union new := by
  obtain ⟨m, e, hk, h1, h2⟩ := conform_loop h0 hU hsegs union.length (Nat.le_refl _)
  rw [List.take_length] at e hk
  refine ⟨m, ?_, hk, h1, h2⟩
  unfold conformPoints
  rw [e, ok_bind]

/-- C142: if the first point of the union is only of the other mesh, the call stops at an assertion. -/
theorem c142_first (g : GeoCfg K) (h0 : 0 ≤ g.minTolerance) (position : Nat) (pts : List (K × CutPoint)) (segs : List (CutSegment K))
    (u : K × UPoint) (rest : List (K × UPoint)) (hu : ¬ OwnPoint position u.2) :
    conformPoints g position pts segs (u :: rest) = abort := by
  have := (conformStep_eq h0 (position := position) (pts := pts) (segs := segs) (m := []) (j := 0) (u := u) (by simp)).2.2 hu rfl
  unfold conformPoints
  simp only [foldRes, this]
  rfl

/-- Two points and one segment of the own mesh, and a union with one more point between them. -/
def ownPts : List (ℚ × CutPoint) := [(0, ⟨[0], [2], []⟩), (1, ⟨[0], [7], [3]⟩)]

def ownSegs : List (CutSegment ℚ) := [⟨(0, 1), [0], []⟩]

def ownUnion : List (ℚ × UPoint) := [(0, ⟨.both, [0, 0]⟩), (1 / 2, ⟨.second, [1, 1]⟩), (1, ⟨.first, [1, 2]⟩)]

example : ∃ new, conformPoints (⟨0, 1 / 100⟩ : GeoCfg ℚ) 0 ownPts ownSegs ownUnion = ok new ∧
    new[1]? = some (1 / 2, ⟨[0], [], [], .inherited⟩) ∧ new[2]? = some (1, ⟨[0], [7], [3], .original⟩) := by
  have t : (⟨0, 1 / 100⟩ : GeoCfg ℚ).tol1D = 1 / 100 := by norm_num [GeoCfg.tol1D]
  obtain ⟨new, hn, h⟩ := c142_points (⟨0, 1 / 100⟩ : GeoCfg ℚ) (le_refl _) 0 ownPts ownSegs ownUnion (by
    rw [t]
    refine ⟨?_, by decide, ?_, ?_⟩
    · norm_num [Separated, ownUnion]
    · intro u hu
      obtain rfl := Option.some.inj hu
      decide
    · intro u hu
      obtain rfl := Option.some.inj hu
      decide) rfl
  refine ⟨new, hn, ?_⟩
  have hl : new.length = 3 := by simpa [ownUnion] using congrArg List.length h.keys
  have key : ∀ (i : Nat) (x : ℚ × UPoint) (c : ℚ × ConformPoint), ownUnion[i]? = some x → new[i]? = some c → c.1 = x.1 := by
    intro i x c hx hc
    have := congrArg (fun l => l[i]?) h.keys
    simp only [List.getElem?_map, hx, hc, Option.map_some, Option.some.injEq] at this
    exact this
  have g1 : new[1]? = some new[1] := List.getElem?_eq_getElem _
  have g2 : new[2]? = some new[2] := List.getElem?_eq_getElem _
  obtain ⟨j, s, hj, hs, hc⟩ := h.other 1 _ _ rfl g1 (by decide)
  obtain ⟨p, hp, hc2⟩ := h.own 2 _ _ rfl g2 (by decide)
  have b1 : ownBefore 0 ownUnion 1 = 1 := by decide
  have b2 : ownBefore 0 ownUnion 2 = 1 := by decide
  rw [b1] at hj
  obtain rfl : j = 0 := by omega
  obtain rfl := Option.some.inj hs
  rw [b2] at hp
  obtain rfl := Option.some.inj hp
  rw [g1, g2]
  exact ⟨congrArg some (Prod.ext (key 1 _ _ rfl g1) hc), congrArg some (Prod.ext (key 2 _ _ rfl g2) hc2)⟩

/-- The other mesh comes first. -/
example : conformPoints (⟨0, 1 / 100⟩ : GeoCfg ℚ) 1 ownPts ownSegs [(0, ⟨.first, [0, 0]⟩), (1, ⟨.both, [1, 1]⟩)] = abort :=
  c142_first _ (le_refl _) _ _ _ _ _ (by decide)

end Verif
