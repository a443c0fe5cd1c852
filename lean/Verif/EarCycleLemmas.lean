import Verif.EarSpec
import Verif.PolygonLemmas
import Mathlib.Data.List.Rotate
import Mathlib.Data.Nat.ModEq
import Mathlib.Tactic.LinearCombination

/-
Closed lists: corners, removal of elements, sums over the edges.
-/
namespace Verif

variable {α : Type}

/-- `x`, `y`, `z` follow one another in the closed list. -/
def CycCorner (L : List α) (x y z : α) : Prop := ∃ t, L ~r (x :: y :: z :: t)

theorem isRotated_filter (q : α → Bool) {L L' : List α} (h : L ~r L') : L.filter q ~r L'.filter q := by
  obtain ⟨n, rfl⟩ := h
  induction n with
  | zero => rw [List.rotate_zero]
  | succ n ih =>
    refine ih.trans ?_
    rw [← List.rotate_rotate]
    generalize L.rotate n = M
    cases M with
    | nil => simp
    | cons a t =>
      rw [List.rotate_cons_succ, List.rotate_zero, List.filter_append, List.filter_cons]
      split
      · rename_i h
        rw [List.filter_cons, if_pos h]
        simpa using (List.isRotated_concat a (t.filter q)).symm
      · rename_i h
        rw [List.filter_cons, if_neg h]
        simpa using List.IsRotated.refl (t.filter q)

theorem isRotated_append_comm (l m : List α) : (l ++ m) ~r (m ++ l) := List.isRotated_append

theorem closedSum_isRotated {F : Type} [Field F] [LinearOrder F] [IsStrictOrderedRing F] (f : α → α → F) {L L' : List α}
    (h : L ~r L') : closedSum f L = closedSum f L' := by
  obtain ⟨n, rfl⟩ := h
  rw [closedSum_rotate]

theorem CycCorner.rot {L L' : List α} (h : L ~r L') {x y z : α} : CycCorner L x y z ↔ CycCorner L' x y z :=
  ⟨fun ⟨t, ht⟩ => ⟨t, h.symm.trans ht⟩, fun ⟨t, ht⟩ => ⟨t, h.trans ht⟩⟩

theorem CycCorner.mem {L : List α} {x y z : α} (h : CycCorner L x y z) : x ∈ L ∧ y ∈ L ∧ z ∈ L := by
  obtain ⟨t, ht⟩ := h
  refine ⟨ht.mem_iff.2 ?_, ht.mem_iff.2 ?_, ht.mem_iff.2 ?_⟩ <;> simp

theorem CycCorner.ne {L : List α} (hn : L.Nodup) {x y z : α} (h : CycCorner L x y z) : x ≠ y ∧ y ≠ z ∧ x ≠ z := by
  obtain ⟨t, ht⟩ := h
  have := ht.nodup_iff.1 hn
  simp at this
  tauto

/-- The neighbours of an element are unique. -/
theorem CycCorner.unique {L : List α} (hn : L.Nodup) {x y z x' z' : α} (h : CycCorner L x y z)
    (h' : CycCorner L x' y z') : x = x' ∧ z = z' := by
  obtain ⟨t, n, ht⟩ := h
  obtain ⟨t', m, ht'⟩ := h'
  have hlen : 2 < L.length := by
    have := congrArg List.length ht
    simp at this; omega
  have e1 : L[(1 + n) % L.length]? = some y := by
    have : (L.rotate n)[1]? = some y := by rw [ht]; rfl
    rw [List.getElem?_rotate (by omega)] at this
    exact this
  have e2 : L[(1 + m) % L.length]? = some y := by
    have : (L.rotate m)[1]? = some y := by rw [ht']; rfl
    rw [List.getElem?_rotate (by omega)] at this
    exact this
  have e3 : (1 + n) % L.length = (1 + m) % L.length :=
    (List.getElem?_inj (Nat.mod_lt _ (by omega)) hn).1 (e1.trans e2.symm)
  have e4 : L.rotate n = L.rotate m := by
    have : (n % L.length) = (m % L.length) := by
      have h : Nat.ModEq L.length (1 + n) (1 + m) := e3
      exact Nat.ModEq.add_left_cancel' 1 h
    rw [← List.rotate_mod L n, this, List.rotate_mod]
  rw [ht, ht'] at e4
  simp at e4
  tauto

/-- The corner at a position. -/
theorem cycCorner_of_getElem {L : List α} (h3 : 2 < L.length) {v : Nat} (hv : v < L.length) {x y z : α}
    (hx : L[cyclePrev L.length v]? = some x) (hy : L[v]? = some y) (hz : L[(v + 1) % L.length]? = some z) :
    CycCorner L x y z := by
  have hp : cyclePrev L.length v < L.length := by unfold cyclePrev; split <;> omega
  have h1 : (cyclePrev L.length v + 1) % L.length = v := by
    unfold cyclePrev; split
    · subst_vars; rw [Nat.sub_add_cancel (by omega), Nat.mod_self]
    · rw [Nat.sub_add_cancel (by omega), Nat.mod_eq_of_lt hv]
  have h2 : (cyclePrev L.length v + 2) % L.length = (v + 1) % L.length := by
    conv_rhs => rw [← h1, Nat.mod_add_mod]
  have key : ∀ i, (L.rotate (cyclePrev L.length v))[i]? = if i < L.length then
      L[(i + cyclePrev L.length v) % L.length]? else none := by
    intro i
    split
    · rename_i h; rw [List.getElem?_rotate h]
    · rename_i h; rw [List.getElem?_eq_none (by simpa using h)]
  have k0 := key 0
  have k1 := key 1
  have k2 := key 2
  rw [if_pos (by omega)] at k0 k1 k2
  rw [Nat.zero_add, Nat.mod_eq_of_lt hp, hx] at k0
  rw [Nat.add_comm, h1, hy] at k1
  rw [Nat.add_comm, h2, hz] at k2
  match hl : L.rotate (cyclePrev L.length v), k0, k1, k2 with
  | [], k0, _, _ => simp at k0
  | [_], _, k1, _ => simp at k1
  | [_, _], _, _, k2 => simp at k2
  | a :: b :: c :: t, k0, k1, k2 =>
    simp at k0 k1 k2
    subst k0 k1 k2
    exact ⟨t, _, hl⟩

/-- Removing the middle of a corner of a list without repetitions. -/
theorem eraseIdx_rotated [DecidableEq α] {L : List α} (hn : L.Nodup) {v : Nat} {x y z : α} (hy : L[v]? = some y)
    {t : List α} (h : L ~r (x :: y :: z :: t)) : L.eraseIdx v ~r (x :: z :: t) := by
  obtain ⟨hv, hy'⟩ := List.getElem?_eq_some_iff.1 hy
  have e : L.eraseIdx v = L.filter (fun a => decide (a ≠ y)) := by
    rw [← hn.erase_getElem _ hv, hy', hn.erase_eq_filter]
    apply List.filter_congr
    intro a _
    simp [bne, BEq.beq]
  rw [e]
  refine (isRotated_filter _ h).trans ?_
  have hn' := h.nodup_iff.1 hn
  simp only [List.nodup_cons, List.mem_cons, not_or] at hn'
  have : (x :: y :: z :: t).filter (fun a => decide (a ≠ y)) = x :: z :: t := by
    have ht : t.filter (fun a => decide (a ≠ y)) = t := by
      rw [List.filter_eq_self]
      intro a ha
      simp
      rintro rfl
      exact hn'.2.1.2 ha
    have hx : x ≠ y := hn'.1.1
    have hz : z ≠ y := fun h => hn'.2.1.1 h.symm
    rw [List.filter_cons, if_pos (by simpa using hx), List.filter_cons, if_neg (by simp), List.filter_cons,
      if_pos (by simpa using hz), ht]
  rw [this]

/-- The sum over the edges after the removal of the middle of a corner. -/
theorem closedSum_remove {F : Type} [Field F] [LinearOrder F] [IsStrictOrderedRing F] (f : α → α → F)
    (x y z : α) (t : List α) :
    closedSum f (x :: y :: z :: t) = closedSum f (x :: z :: t) + (f x y + f y z - f x z) := by
  rw [closedSum_cons, closedSum_cons]
  simp only [List.cons_append, pathSum]
  ring

/-- The elements with positions that pass a test. -/
theorem extract_positions [DecidableEq α] (L : List α) (hn : L.Nodup) (q : Nat → Bool) :
    extractPoints L ((List.range L.length).filter q) = Res.ok (L.filter fun a => q (L.idxOf a)) := by
  apply extractPoints_eq
  have gen : ∀ (M : List α) (N : List α), L = N ++ M →
      (((List.range' N.length M.length).filter q).map fun i => L[i]?) =
        (M.filter fun a => q (L.idxOf a)).map some := by
    intro M
    induction M with
    | nil => intro N _; simp
    | cons a M ih =>
      intro N hN
      have h1 := ih (N ++ [a]) (by simp [hN])
      have hget : L[N.length]? = some a := by rw [hN]; simp
      have hidx : L.idxOf a = N.length := by
        obtain ⟨hl, e⟩ := List.getElem?_eq_some_iff.1 hget
        rw [← e]; exact hn.idxOf_getElem _ _
      rw [List.length_cons, List.range'_succ, List.filter_cons, List.filter_cons, hidx]
      rw [List.length_append] at h1
      split
      · rw [List.map_cons, List.map_cons, hget]
        congr 1
      · exact h1
  have := gen L [] rfl
  rwa [List.length_nil, ← List.range_eq_range'] at this

end Verif
