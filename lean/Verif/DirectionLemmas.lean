import Verif.DirectionSpec

/-
Lemmas for the choice of the chord.
-/
namespace Verif

open Res

variable {K : Type} [Field K] [LinearOrder K] [IsStrictOrderedRing K]

theorem nextPos_pos {n k : Nat} (h : 0 < n) : nextPos n k = ok ((k + 1) % n) := by
  unfold nextPos
  rw [if_neg (by omega)]

theorem nextPos_eq_ok {n k v : Nat} (h : nextPos n k = ok v) : 0 < n ∧ v = (k + 1) % n := by
  unfold nextPos at h
  split at h
  · cases h
  · cases h
    exact ⟨by omega, rfl⟩

theorem nearEnd_ok {g : GeoCfg K} {n : Nat} (hn : 0 < n) (h : DirHit K) :
    ∃ v, g.nearEnd n h = ok v ∧ IsNearEnd g n h v := by
  unfold GeoCfg.nearEnd IsNearEnd
  split
  · exact ⟨_, rfl, rfl⟩
  · exact ⟨_, nextPos_pos hn, rfl⟩

theorem nearEnd_eq_ok {g : GeoCfg K} {n : Nat} {h : DirHit K} {v : Nat} (hv : g.nearEnd n h = ok v) :
    IsNearEnd g n h v := by
  unfold GeoCfg.nearEnd at hv
  unfold IsNearEnd
  split at hv
  · cases hv
    rw [if_pos ‹_›]
  · rw [if_neg ‹_›]
    exact (nextPos_eq_ok hv).2

theorem flip_eq_ok {n : Nat} {h : DirHit K} {v w : Nat} (hw : h.flip n v = ok w) :
    w = if v = h.index then (h.index + 1) % n else h.index := by
  unfold DirHit.flip at hw
  split at hw
  · rw [if_pos ‹_›]
    exact (nextPos_eq_ok hw).2
  · cases hw
    rw [if_neg ‹_›]

theorem flip_ok {n : Nat} (hn : 0 < n) (h : DirHit K) (v : Nat) : ∃ w, h.flip n v = ok w := by
  unfold DirHit.flip
  split
  · exact ⟨_, nextPos_pos hn⟩
  · exact ⟨_, rfl⟩

theorem IsNearEnd.isEnd {g : GeoCfg K} {n : Nat} {h : DirHit K} {v : Nat} (hv : IsNearEnd g n h v) :
    EndOfSide n h.index v := by
  unfold IsNearEnd at hv
  split at hv
  · exact Or.inl hv
  · exact Or.inr hv

theorem EndOfSide.lt {n i v : Nat} (h : EndOfSide n i v) (hi : i < n) : v < n := by
  rcases h with rfl | rfl
  · exact hi
  · exact Nat.mod_lt _ (by omega)

theorem isEnd_flip {n : Nat} {h : DirHit K} {v w : Nat} (hw : h.flip n v = ok w) : EndOfSide n h.index w := by
  have := flip_eq_ok hw
  split at this
  · exact Or.inr this
  · exact Or.inl this

theorem verticesAligned_ok {g : GeoCfg K} {sqrt : K → K} {vs : List (V3 K)} {a b : Nat} (ha : a < vs.length)
    (hb : b < vs.length) : ∃ r, g.verticesAligned sqrt vs a b = ok r ∧ (r = true ↔ FlatChord g sqrt vs a b) := by
  have hn : 0 < vs.length := by omega
  unfold GeoCfg.verticesAligned FlatChord
  rw [nextPos_pos hn, nextPos_pos hn]
  simp only [ok_bind]
  by_cases hc : (a + 1) % vs.length = b ∨ (b + 1) % vs.length = a
  · rw [if_pos hc]
    refine ⟨_, rfl, ?_⟩
    rcases hc with hc | hc <;> simp [hc]
  · rw [if_neg hc]
    rw [not_or] at hc
    have e1 := List.getElem?_eq_getElem ha
    have e2 := List.getElem?_eq_getElem hb
    have e3 := List.getElem?_eq_getElem (l := vs) (Nat.mod_lt (a + 1) hn)
    have e4 := List.getElem?_eq_getElem (l := vs) (Nat.mod_lt (b + 1) hn)
    rw [vget_eq_ok.2 e1, vget_eq_ok.2 e2, vget_eq_ok.2 e3, vget_eq_ok.2 e4]
    simp only [ok_bind]
    refine ⟨_, rfl, ?_⟩
    rw [Bool.or_eq_true]
    constructor
    · rintro (h | h)
      · exact Or.inr (Or.inr ⟨_, _, _, e1, e2, Or.inl e3, h⟩)
      · exact Or.inr (Or.inr ⟨_, _, _, e1, e2, Or.inr e4, h⟩)
    · rintro (h | h | ⟨p, q, x, hp, hq, hx, h⟩)
      · exact absurd h hc.1
      · exact absurd h hc.2
      · rw [e1] at hp
        rw [e2] at hq
        cases hp
        cases hq
        rcases hx with hx | hx
        · rw [e3] at hx
          cases hx
          exact Or.inl h
        · rw [e4] at hx
          cases hx
          exact Or.inr h

/-- The vertices after a flip: ends of the two edges; an end on a vertex of the polygon stays. -/
theorem flipped_ok {n : Nat} (hn : 0 < n) (k : DirCheck K) {a b : Nat} (ha : EndOfSide n k.hitOne.index a)
    (hb : EndOfSide n k.hitTwo.index b) :
    ∃ a' b', k.flipped n a b = ok (a', b') ∧ EndOfSide n k.hitOne.index a' ∧ EndOfSide n k.hitTwo.index b' ∧
      (k.sideOne.verdict = .notInside → a' = a) ∧ (k.sideTwo.verdict = .notInside → b' = b) ∧ (a' = a ∨ b' = b) ∧
      (k.sideTwo.verdict ≠ .notInside →
        b' = if b = k.hitTwo.index then (k.hitTwo.index + 1) % n else k.hitTwo.index) ∧
      (k.sideTwo.verdict = .notInside → k.sideOne.verdict ≠ .notInside →
        a' = if a = k.hitOne.index then (k.hitOne.index + 1) % n else k.hitOne.index) := by
  unfold DirCheck.flipped
  obtain ⟨a', hfa⟩ := flip_ok hn k.hitOne a
  obtain ⟨b', hfb⟩ := flip_ok hn k.hitTwo b
  by_cases h1 : k.sideOne.verdict = .notInside <;> by_cases h2 : k.sideTwo.verdict = .notInside
  · exact ⟨a, b, by simp [h1, h2], ha, hb, fun _ => rfl, fun _ => rfl, Or.inl rfl, fun h => absurd h2 h, fun _ h => absurd h1 h⟩
  · exact ⟨a, b', by simp [h1, h2, hfb], ha, isEnd_flip hfb, fun _ => rfl, fun h => absurd h h2, Or.inl rfl,
      fun _ => flip_eq_ok hfb, fun h => absurd h h2⟩
  · exact ⟨a', b, by simp [h1, h2, hfa], isEnd_flip hfa, hb, fun h => absurd h h1, fun _ => rfl, Or.inr rfl,
      fun h => absurd h2 h, fun _ _ => flip_eq_ok hfa⟩
  · exact ⟨a, b', by simp [h1, h2, hfb], ha, isEnd_flip hfb, fun h => absurd h h1, fun h => absurd h h2, Or.inl rfl,
      fun _ => flip_eq_ok hfb, fun h => absurd h h2⟩

end Verif
