import Verif.CutLineSpec
import Verif.MomentLemmas
import Verif.ChordLemmas
import Verif.PlaneMarkLemmas

/-
Lemmas about the lines along which a cell is to be cut.
-/
namespace Verif

open Res

section order
variable {K : Type} [LinearOrder K]

theorem firstMaxFrom_spec (xs : List K) : ∀ (pre : List K) (best : K) (k : Nat), pre[k]? = some best →
    (∀ (j : Nat) y, pre[j]? = some y → y ≤ best) → (∀ (j : Nat) y, j < k → pre[j]? = some y → y < best) →
    IsFirstMax (pre ++ xs) (firstMaxFrom best k pre.length xs) := by
  induction xs with
  | nil =>
    intro pre best k h1 h2 h3
    rw [List.append_nil]
    exact ⟨best, h1, h2, h3⟩
  | cons x xs ih =>
    intro pre best k h1 h2 h3
    have hk : k < pre.length := (List.getElem?_eq_some_iff.1 h1).1
    have e : pre ++ x :: xs = (pre ++ [x]) ++ xs := by simp
    have el : pre.length + 1 = (pre ++ [x]).length := by simp
    rw [e, firstMaxFrom, el]
    have split : ∀ (j : Nat) y, (pre ++ [x])[j]? = some y → pre[j]? = some y ∨ (j = pre.length ∧ y = x) := by
      intro j y hj
      rcases Nat.lt_or_ge j pre.length with h | h
      · left; rwa [List.getElem?_append_left h] at hj
      · right
        rw [List.getElem?_append_right h] at hj
        have := (List.getElem?_eq_some_iff.1 hj).1
        simp at this
        have ej : j = pre.length := by omega
        subst ej
        simp at hj
        exact ⟨rfl, hj.symm⟩
    split
    · rename_i hlt
      refine ih (pre ++ [x]) x pre.length (by simp) ?_ ?_
      · intro j y hj
        rcases split j y hj with h | h
        · exact le_of_lt (lt_of_le_of_lt (h2 j y h) hlt)
        · exact le_of_eq h.2
      · intro j y hj hy
        rcases split j y hy with h | h
        · exact lt_of_le_of_lt (h2 j y h) hlt
        · omega
    · rename_i hlt
      refine ih (pre ++ [x]) best k (by rw [List.getElem?_append_left hk]; exact h1) ?_ ?_
      · intro j y hj
        rcases split j y hj with h | h
        · exact h2 j y h
        · rw [h.2]; exact not_lt.1 hlt
      · intro j y hj hy
        rcases split j y hy with h | h
        · exact h3 j y hj h
        · omega

theorem firstMax_spec {l : List K} (h : l ≠ []) : ∃ k, firstMax l = ok k ∧ IsFirstMax l k := by
  match l, h with
  | x :: xs, _ =>
    refine ⟨_, rfl, ?_⟩
    have := firstMaxFrom_spec xs [x] x 0 rfl (fun j y hj => ?_) (fun j y hj _ => by omega)
    · simpa using this
    · rcases j with _ | j
      · simp at hj; exact le_of_eq hj.symm
      · simp at hj

end order

section ordered
variable {K : Type} [Field K] [LinearOrder K] [IsStrictOrderedRing K]

theorem segmentLength_mul_self {sqrt : K → K} (hs : IsSqrt sqrt) (a b : V3 K) :
    0 ≤ segmentLength sqrt a b ∧ segmentLength sqrt a b * segmentLength sqrt a b = dist2 a b := by
  obtain ⟨h0, h⟩ := norm_mul_self hs (b.sub a)
  refine ⟨h0, ?_⟩
  unfold segmentLength
  rw [h]
  simp only [V3.dot, V3.sub, dist2]
  ring

theorem dist2_le_of_length {sqrt : K → K} (hs : IsSqrt sqrt) {a b c d : V3 K}
    (h : segmentLength sqrt a b ≤ segmentLength sqrt c d) : dist2 a b ≤ dist2 c d := by
  rw [← (segmentLength_mul_self hs a b).2, ← (segmentLength_mul_self hs c d).2]
  exact mul_self_le_mul_self (segmentLength_mul_self hs a b).1 h

theorem dist2_symm (a b : V3 K) : dist2 a b = dist2 b a := by simp only [dist2]; ring

/-- What is known about the longest edge of a triangle: its ends in order, the opposite vertex and the places. -/
theorem longest_edge {sqrt : K → K} (hs : IsSqrt sqrt) {a b c : V3 K} {lengths : List K}
    (hl : polygonEdgeLengths sqrt [a, b, c] = ok lengths) :
    ∃ k p q o, firstMax lengths = ok k ∧ vget [a, b, c] k = ok p ∧ vget [a, b, c] ((k + 1) % 3) = ok q ∧
      vget [a, b, c] ((k + 2) % 3) = ok o ∧ IsTurnOf a b c p q o ∧ dist2 q o ≤ dist2 p q ∧
      dist2 o p ≤ dist2 p q := by
  have e : polygonEdgeLengths sqrt [a, b, c] =
      ok [segmentLength sqrt a b, segmentLength sqrt b c, segmentLength sqrt c a] := by
    rw [edgeLengths_eq sqrt (by simp)]
    rfl
  rw [e] at hl
  injection hl with hl
  subst hl
  obtain ⟨k, hk, x, hx, hmax, -⟩ := firstMax_spec
    (l := [segmentLength sqrt a b, segmentLength sqrt b c, segmentLength sqrt c a]) (by simp)
  have h0 := hmax 0 _ rfl
  have h1 := hmax 1 _ rfl
  have h2 := hmax 2 _ rfl
  refine ⟨k, ?_⟩
  rcases k with _ | _ | _ | k
  · simp at hx
    subst hx
    exact ⟨a, b, c, hk, rfl, rfl, rfl, .inl rfl, dist2_le_of_length hs h1, dist2_le_of_length hs h2⟩
  · simp at hx
    subst hx
    exact ⟨b, c, a, hk, rfl, rfl, rfl, .inr (.inl rfl), dist2_le_of_length hs h2, dist2_le_of_length hs h0⟩
  · simp at hx
    subst hx
    exact ⟨c, a, b, hk, rfl, rfl, rfl, .inr (.inr rfl), dist2_le_of_length hs h0, dist2_le_of_length hs h1⟩
  · simp at hx

/-- The entry of the matrix of distances. -/
def distanceAt (sqrt : K → K) (vs : List (V3 K)) (k : Nat) : K :=
  if k % vs.length < k / vs.length then
    segmentLength sqrt (vs.getD (k % vs.length) V3.zero) (vs.getD (k / vs.length) V3.zero)
  else -1

theorem pointsDistance_eq (sqrt : K → K) (vs : List (V3 K)) :
    pointsDistance sqrt vs = ok ((List.range (vs.length * vs.length)).map (distanceAt sqrt vs)) := by
  refine mapRes_pure _ _ _ fun k hk => ?_
  rw [List.mem_range] at hk
  have hn : 0 < vs.length := by
    rcases Nat.eq_zero_or_pos vs.length with h | h
    · rw [h] at hk; omega
    · exact h
  have h1 : k % vs.length < vs.length := Nat.mod_lt _ hn
  have h2 : k / vs.length < vs.length := Nat.div_lt_of_lt_mul hk
  unfold pointsDistanceEntry distanceAt
  split
  · rw [vget_getD vs _ V3.zero h1, vget_getD vs _ V3.zero h2]
    rfl
  · rfl

/-- Two vertices at the greatest distance are found. -/
theorem farthest {sqrt : K → K} (hs : IsSqrt sqrt) {vs : List (V3 K)} (h2 : 2 ≤ vs.length) :
    ∃ k i j a b, firstMax ((List.range (vs.length * vs.length)).map (distanceAt sqrt vs)) = ok k ∧
      k % vs.length = i ∧ k / vs.length = j ∧ i < j ∧ vs[i]? = some a ∧ vs[j]? = some b ∧
      ∀ p ∈ vs, ∀ q ∈ vs, dist2 p q ≤ dist2 a b := by
  have hnn : 0 < vs.length * vs.length := Nat.mul_pos (by omega) (by omega)
  obtain ⟨k, hk, x, hx, hmax, -⟩ := firstMax_spec
    (l := (List.range (vs.length * vs.length)).map (distanceAt sqrt vs)) (by
      intro h
      have := congrArg List.length h
      simp at this
      rw [this] at h2
      simp at h2)
  have hkl : k < vs.length * vs.length := by
    have := (List.getElem?_eq_some_iff.1 hx).1
    simpa using this
  have ex : x = distanceAt sqrt vs k := by
    rw [List.getElem?_map, List.getElem?_range hkl] at hx
    simpa using hx.symm
  have hm : k % vs.length < vs.length := Nat.mod_lt _ (by omega)
  have hd : k / vs.length < vs.length := Nat.div_lt_of_lt_mul hkl
  have entry : ∀ i j, i < j → j < vs.length →
      segmentLength sqrt (vs.getD i V3.zero) (vs.getD j V3.zero) ≤ x := by
    intro i j hij hj
    have hl : j * vs.length + i < vs.length * vs.length := by
      have : (j + 1) * vs.length ≤ vs.length * vs.length := Nat.mul_le_mul_right _ hj
      rw [Nat.add_mul] at this
      omega
    have e1 : (j * vs.length + i) % vs.length = i := by
      rw [Nat.add_comm, Nat.add_mul_mod_self_right]; exact Nat.mod_eq_of_lt (by omega)
    have e2 : (j * vs.length + i) / vs.length = j := by
      rw [Nat.add_comm, Nat.add_mul_div_right _ _ (by omega), Nat.div_eq_of_lt (by omega), Nat.zero_add]
    refine hmax (j * vs.length + i) _ ?_
    rw [List.getElem?_map, List.getElem?_range hl]
    simp only [Option.map_some, distanceAt, e1, e2, if_pos hij]
  have hlt : k % vs.length < k / vs.length := by
    by_contra hc
    rw [distanceAt, if_neg hc] at ex
    have h01 := entry 0 1 (by omega) (by omega)
    have hnn := (segmentLength_mul_self hs (vs.getD 0 V3.zero) (vs.getD 1 V3.zero)).1
    rw [ex] at h01
    linarith
  rw [distanceAt, if_pos hlt] at ex
  have g1 : vs.getD (k % vs.length) V3.zero = vs[k % vs.length] := by
    rw [List.getD_eq_getElem?_getD, List.getElem?_eq_getElem hm]; rfl
  have g2 : vs.getD (k / vs.length) V3.zero = vs[k / vs.length] := by
    rw [List.getD_eq_getElem?_getD, List.getElem?_eq_getElem hd]; rfl
  rw [g1, g2] at ex
  refine ⟨k, _, _, vs[k % vs.length], vs[k / vs.length], hk, rfl, rfl, hlt, List.getElem?_eq_getElem hm,
    List.getElem?_eq_getElem hd, ?_⟩
  have main : ∀ i j, i < j → (hj : j < vs.length) → ∀ p q, vs[i]? = some p → vs[j]? = some q →
      dist2 p q ≤ dist2 vs[k % vs.length] vs[k / vs.length] := by
    intro i j hij hj p q hp hq
    have h := entry i j hij hj
    rw [ex, List.getD_eq_getElem?_getD, List.getD_eq_getElem?_getD, hp, hq] at h
    exact dist2_le_of_length hs h
  intro p hp q hq
  obtain ⟨i, hi⟩ := List.mem_iff_getElem?.1 hp
  obtain ⟨j, hj⟩ := List.mem_iff_getElem?.1 hq
  have hil := (List.getElem?_eq_some_iff.1 hi).1
  have hjl := (List.getElem?_eq_some_iff.1 hj).1
  rcases Nat.lt_trichotomy i j with h | h | h
  · exact main i j h hjl p q hi hj
  · subst h
    rw [hi] at hj
    injection hj with hj
    subst hj
    have := (segmentLength_mul_self hs vs[k % vs.length] vs[k / vs.length]).2
    have h0 : dist2 p p = 0 := by simp only [dist2]; ring
    rw [h0, ← this]
    exact mul_self_nonneg _
  · rw [dist2_symm]
    exact main j i h hil q p hj hi

end ordered

end Verif
