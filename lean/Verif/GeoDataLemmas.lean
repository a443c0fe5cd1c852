import Verif.GeoDataSpec
import Verif.GeoDataModel
import Verif.MomentLemmas
import Verif.CheckRunLemmas
import Verif.EarModelLemmas
import Verif.PointBoxProps

/-
Helper lemmas: vertices with a straight angle can be left out of a polygon, and the triangles of the rest.
-/
namespace Verif

open Res

variable {K : Type} [Field K] [LinearOrder K] [IsStrictOrderedRing K]

/-- Points between marked ones go straight on. -/
def Straight : List (V3 K × Bool) → Prop
  | a :: b :: x :: t => (b.2 = false → area2 a.1 b.1 x.1 = 0) ∧ Straight (b :: x :: t)
  | _ => True

/-- Different in the plane. -/
def StepsApart (a b : V3 K) : Prop := a.x ≠ b.x ∨ a.y ≠ b.y

theorem area2_through {a b x y : V3 K} (hn : StepsApart b x) (h1 : area2 a b x = 0) (h2 : area2 b x y = 0) :
    area2 a x y = 0 := by
  simp only [area2] at *
  rcases hn with h | h
  · have : x.x - b.x ≠ 0 := fun h' => h (by linarith)
    apply mul_left_cancel₀ this
    linear_combination (x.x - a.x) * h2 + (y.x - x.x) * h1
  · have : x.y - b.y ≠ 0 := fun h' => h (by linarith)
    apply mul_left_cancel₀ this
    linear_combination (x.y - a.y) * h2 + (y.y - x.y) * h1

theorem path_keep {c : V3 K → V3 K → K} (hc : ∀ a b x, area2 a b x = 0 → c a b + c b x = c a x) :
    ∀ (t : List (V3 K × Bool)) (a b : V3 K) (f : Bool), (f = true → a = b) →
      (∀ x ∈ t.head?, area2 a b x.1 = 0) → Straight ((b, f) :: t) →
      ((b, f) :: t).IsChain (fun p q => StepsApart p.1 q.1) → (∀ q ∈ ((b, f) :: t).getLast?, q.2 = true) →
      c a b + pathSum c (b :: t.map Prod.fst) = pathSum c (a :: (t.filter Prod.snd).map Prod.fst) := by
  have c0 : ∀ a, c a a = 0 := by
    intro a
    have := hc a a a (by simp [area2])
    linarith
  intro t
  induction t with
  | nil =>
    intro a b f hf _ _ _ hl
    have : f = true := hl (b, f) (by simp)
    rw [← hf this]
    simp [pathSum, c0]
  | cons x t ih =>
    intro a b f hf hx hs hd hl
    have e1 := hc a b x.1 (hx x (by simp))
    have hl' : ∀ q ∈ (x :: t).getLast?, q.2 = true := by simpa using hl
    have hd' := (List.isChain_cons_cons.1 hd)
    have hs' : Straight ((x.1, x.2) :: t) := by
      cases t with
      | nil => trivial
      | cons y t => exact hs.2
    simp only [List.map_cons, pathSum]
    rw [← add_assoc, e1]
    cases hx2 : x.2 with
    | true =>
      have := ih x.1 x.1 x.2 (fun _ => rfl) (fun y _ => by simp [area2]) hs' hd'.2 hl'
      rw [c0, zero_add] at this
      rw [this, List.filter_cons, if_pos hx2, List.map_cons, pathSum]
    | false =>
      have := ih a x.1 x.2 (fun h => by rw [hx2] at h; cases h) (by
        intro y hy
        cases t with
        | nil => simp at hy
        | cons z t =>
          simp only [List.head?_cons, Option.mem_def, Option.some.injEq] at hy
          subst hy
          exact area2_through hd'.1 (hx x (by simp)) (hs.1 hx2)) hs' hd'.2 hl'
      rw [this, List.filter_cons, if_neg (by simp [hx2])]

theorem chain_keep {p : V3 K} :
    ∀ (t : List (V3 K × Bool)) (a b : V3 K) (f : Bool), 0 ≤ area2 a b p →
      (∀ x ∈ t.head?, area2 a b x.1 = 0) → Straight ((b, f) :: t) →
      ((b, f) :: t).IsChain (fun p q => StepsApart p.1 q.1) →
      ((b, f) :: t).IsChain (fun q r => 0 ≤ area2 q.1 r.1 p) →
      (a :: (t.filter Prod.snd).map Prod.fst).IsChain (fun q r => 0 ≤ area2 q r p) := by
  intro t
  induction t with
  | nil => intros; simp
  | cons x t ih =>
    intro a b f h0 hx hs hd hp
    have hd' := (List.isChain_cons_cons.1 hd)
    have hp' := (List.isChain_cons_cons.1 hp)
    have hs' : Straight ((x.1, x.2) :: t) := by
      cases t with
      | nil => trivial
      | cons y t => exact hs.2
    have e1 : 0 ≤ area2 a x.1 p := by
      have h1 := hx x (by simp)
      have h2 := hp'.1
      have : area2 a x.1 p = area2 a b p + area2 b x.1 p - area2 a b x.1 := by simp only [area2]; ring
      rw [this, h1]
      simp only at h2
      linarith
    cases hx2 : x.2 with
    | true =>
      rw [List.filter_cons, if_pos hx2, List.map_cons, List.isChain_cons_cons]
      exact ⟨e1, ih x.1 x.1 x.2 (by simp [area2]) (fun y _ => by simp [area2]) hs' hd'.2 hp'.2⟩
    | false =>
      rw [List.filter_cons, if_neg (by simp [hx2])]
      exact ih a x.1 x.2 e1 (by
        intro y hy
        cases t with
        | nil => simp at hy
        | cons z t =>
          simp only [List.head?_cons, Option.mem_def, Option.some.injEq] at hy
          subst hy
          exact area2_through hd'.1 (hx x (by simp)) (hs.1 hx2)) hs' hd'.2 hp'.2

theorem straight_iff (l : List (V3 K × Bool)) : Straight l ↔
    ∀ i a b x, l[i]? = some a → l[i + 1]? = some b → l[i + 2]? = some x → b.2 = false → area2 a.1 b.1 x.1 = 0 := by
  induction l with
  | nil => simp [Straight]
  | cons a l ih =>
    match l with
    | [] => simp [Straight]
    | [b] => simp [Straight]
    | b :: x :: t =>
      rw [Straight, ih]
      constructor
      · rintro ⟨h1, h2⟩ i a' b' x' ha hb hx
        cases i with
        | zero =>
          simp at ha hb hx
          subst ha; subst hb; subst hx
          exact h1
        | succ i => exact h2 i a' b' x' (by simpa using ha) (by simpa using hb) (by simpa using hx)
      · intro h
        exact ⟨h 0 a b x rfl rfl rfl, fun i a' b' x' ha hb hx => h (i + 1) a' b' x' (by simpa using ha)
          (by simpa using hb) (by simpa using hx)⟩

/-- The closed path of a marked polygon from position `k`. -/
def goRound {α : Type} (L : List α) (k : Nat) : List α := L.rotate k ++ (L[k]?).toList

theorem goRound_get {α : Type} {L : List α} {k i : Nat} (hk : k < L.length) (hi : i ≤ L.length) :
    (goRound L k)[i]? = L[(k + i) % L.length]? := by
  unfold goRound
  rcases Nat.lt_or_ge i L.length with h | h
  · rw [List.getElem?_append_left (by simpa using h), List.getElem?_rotate h, Nat.add_comm i k]
  · have : i = L.length := by omega
    subst this
    rw [List.getElem?_append_right (by simp), Nat.add_mod_right, Nat.mod_eq_of_lt hk]
    simp [hk]

theorem goRound_length {α : Type} {L : List α} {k : Nat} (hk : k < L.length) : (goRound L k).length = L.length + 1 := by
  simp [goRound, hk]

theorem goRound_cons {α : Type} {L : List α} {k : Nat} (hk : k < L.length) :
    ∃ t, L.rotate k = L[k] :: t ∧ goRound L k = L[k] :: (t ++ [L[k]]) := by
  have h : (L.rotate k)[0]? = some L[k] := by
    rw [List.getElem?_rotate (by omega), Nat.zero_add, Nat.mod_eq_of_lt hk, List.getElem?_eq_getElem hk]
  match hr : L.rotate k, h with
  | a :: t, h =>
    simp at h
    subst h
    exact ⟨t, rfl, by rw [goRound, hr, List.getElem?_eq_getElem hk]; rfl⟩

theorem filter_rotate {α : Type} (q : α → Bool) (L : List α) (k : Nat) (hk : k ≤ L.length) :
    (L.rotate k).filter q = (L.filter q).rotate ((L.take k).filter q).length := by
  rw [List.rotate_eq_drop_append_take hk, List.filter_append]
  have : L.filter q = (L.take k).filter q ++ (L.drop k).filter q := by
    rw [← List.filter_append, List.take_append_drop]
  rw [this, List.rotate_append_length_eq]

/-- What is needed of a marked polygon: unmarked vertices have a straight angle, neighbours differ. -/
structure MarkedStraight (L : List (V3 K × Bool)) : Prop where
  straight : ∀ i a b x, L[i]? = some a → L[(i + 1) % L.length]? = some b → L[(i + 2) % L.length]? = some x →
    b.2 = false → area2 a.1 b.1 x.1 = 0
  apart : ∀ i a b, L[i]? = some a → L[(i + 1) % L.length]? = some b → StepsApart a.1 b.1

theorem MarkedStraight.goRound {L : List (V3 K × Bool)} (h : MarkedStraight L) {k : Nat} (hk : k < L.length) :
    Straight (goRound L k) ∧ (goRound L k).IsChain (fun p q => StepsApart p.1 q.1) := by
  have hm : ∀ j, (k + j) % L.length < L.length := fun j => Nat.mod_lt _ (by omega)
  have hs : ∀ i j, ((k + i) % L.length + j) % L.length = (k + (i + j)) % L.length := by
    intro i j
    rw [Nat.mod_add_mod, Nat.add_assoc]
  constructor
  · rw [straight_iff]
    intro i a b x ha hb hx
    have hl := (List.getElem?_eq_some_iff.1 hx).1
    rw [goRound_length hk] at hl
    rw [goRound_get hk (by omega)] at ha hb hx
    exact h.straight ((k + i) % L.length) a b x ha (by rw [hs]; exact hb) (by rw [hs]; exact hx)
  · rw [List.isChain_iff_getElem]
    intro i hi
    have hl := goRound_length hk
    have e1 := goRound_get hk (show i ≤ L.length by omega)
    have e2 := goRound_get hk (show i + 1 ≤ L.length by omega)
    rw [List.getElem?_eq_getElem (by omega)] at e1 e2
    exact h.apart ((k + i) % L.length) _ _ e1.symm (by rw [hs]; exact e2.symm)

/-- Left out vertices with a straight angle do not change sums over the edges. -/
theorem closedSum_kept {c : V3 K → V3 K → K} (hc : ∀ a b x, area2 a b x = 0 → c a b + c b x = c a x)
    {L : List (V3 K × Bool)} (h : MarkedStraight L) {k : Nat} (hk : k < L.length) (ht : L[k].2 = true) :
    closedSum c (L.map Prod.fst) = closedSum c ((L.filter Prod.snd).map Prod.fst) := by
  obtain ⟨t, e1, e2⟩ := goRound_cons hk
  obtain ⟨hs, hd⟩ := h.goRound hk
  rw [e2] at hs hd
  have c0 : c L[k].1 L[k].1 = 0 := by
    have := hc L[k].1 L[k].1 L[k].1 (by simp [area2])
    linarith
  have key := path_keep hc (t ++ [L[k]]) L[k].1 L[k].1 L[k].2 (fun _ => rfl) (fun _ _ => by simp [area2]) hs hd
    (by intro q hq; rw [← List.cons_append, List.getLast?_append] at hq; simp at hq; rw [← hq]; exact ht)
  rw [c0, zero_add] at key
  have l1 : closedSum c (L.map Prod.fst) = closedSum c ((L.rotate k).map Prod.fst) := by
    rw [List.map_rotate, closedSum_rotate]
  have l2 : closedSum c ((L.filter Prod.snd).map Prod.fst) =
      closedSum c (((L.rotate k).filter Prod.snd).map Prod.fst) := by
    rw [filter_rotate _ _ _ hk.le, List.map_rotate, closedSum_rotate]
  rw [l1, l2, e1, List.filter_cons, if_pos ht, List.map_cons, List.map_cons, closedSum_cons, closedSum_cons]
  rw [List.map_append, List.filter_append, List.map_append] at key
  simpa [ht] using key

/-- All vertices are to the left of the edges that are left. -/
theorem chain_kept {p : V3 K} {L : List (V3 K × Bool)} (h : MarkedStraight L) {k : Nat} (hk : k < L.length)
    (ht : L[k].2 = true)
    (hp : ∀ i a b, L[i]? = some a → L[(i + 1) % L.length]? = some b → 0 ≤ area2 a.1 b.1 p) :
    ∀ e ∈ cycPairs ((L.filter Prod.snd).map Prod.fst), 0 ≤ area2 e.1 e.2 p := by
  obtain ⟨t, e1, e2⟩ := goRound_cons hk
  obtain ⟨hs, hd⟩ := h.goRound hk
  have hq : (goRound L k).IsChain (fun q r => 0 ≤ area2 q.1 r.1 p) := by
    rw [List.isChain_iff_getElem]
    intro i hi
    have hl := goRound_length hk
    have e1 := goRound_get hk (show i ≤ L.length by omega)
    have e2 := goRound_get hk (show i + 1 ≤ L.length by omega)
    rw [List.getElem?_eq_getElem (by omega)] at e1 e2
    refine hp ((k + i) % L.length) _ _ e1.symm ?_
    rw [Nat.mod_add_mod, Nat.add_assoc]
    exact e2.symm
  rw [e2] at hs hd hq
  have key := chain_keep (t ++ [L[k]]) L[k].1 L[k].1 L[k].2 (by simp [area2]) (fun _ _ => by simp [area2]) hs hd hq
  have l2 : ∀ e, e ∈ cycPairs ((L.filter Prod.snd).map Prod.fst) ↔
      e ∈ cycPairs (((L.rotate k).filter Prod.snd).map Prod.fst) := by
    intro e
    rw [filter_rotate _ _ _ hk.le, List.map_rotate]
    generalize (L.filter Prod.snd).map Prod.fst = M
    generalize ((L.take k).filter Prod.snd).length = j
    unfold cycPairs
    rw [List.rotate_rotate, Nat.add_comm, ← List.rotate_rotate]
    rw [show ((M.rotate j).zip ((M.rotate 1).rotate j)) = (M.zip (M.rotate 1)).rotate j from
      (List.zipWith_rotate_distrib _ _ _ _ (by simp)).symm]
    simp
  intro e he
  rw [l2, e1, List.filter_cons, if_pos ht, List.map_cons] at he
  rw [List.filter_append, List.map_append] at key
  simp only [List.filter_cons, ht, if_true, List.filter_nil, List.map_cons, List.map_nil] at key
  revert he key
  generalize (t.filter Prod.snd).map Prod.fst = M
  generalize L[k].1 = a
  intro he key
  have hz : cycPairs (a :: M) = (a :: M).zip (M ++ [a]) := by simp [cycPairs]
  rw [hz] at he
  have : ∀ (M : List (V3 K)) (b : V3 K), (b :: (M ++ [a])).IsChain (fun q r => 0 ≤ area2 q r p) →
      ∀ e ∈ (b :: M).zip (M ++ [a]), 0 ≤ area2 e.1 e.2 p := by
    intro M
    induction M with
    | nil =>
      intro b hb e he
      simp at he hb
      subst he
      exact hb
    | cons x M ih =>
      intro b hb e he
      rw [List.cons_append, List.isChain_cons_cons] at hb
      rw [List.cons_append, List.zip_cons_cons, List.mem_cons] at he
      rcases he with rfl | he
      · exact hb.1
      · exact ih x hb.2 e he
  exact this M a key e he

/-- The polygon with marks. -/
def marked (ps : List (V3 K)) (f : Nat → Bool) : List (V3 K × Bool) :=
  (List.range ps.length).map fun i => (ps.getD i V3.zero, f i)

theorem marked_length (ps : List (V3 K)) (f : Nat → Bool) : (marked ps f).length = ps.length := by simp [marked]

theorem marked_get (ps : List (V3 K)) (f : Nat → Bool) (i : Nat) (a : V3 K × Bool) :
    (marked ps f)[i]? = some a ↔ ps[i]? = some a.1 ∧ f i = a.2 := by
  unfold marked
  rw [List.getElem?_map, Option.map_eq_some_iff]
  constructor
  · rintro ⟨j, hj, rfl⟩
    obtain ⟨hl, rfl⟩ := List.getElem?_eq_some_iff.1 hj
    simp only [List.length_range] at hl
    simp [hl]
  · rintro ⟨h, h'⟩
    have hl := (List.getElem?_eq_some_iff.1 h).1
    refine ⟨i, by simp [hl], ?_⟩
    rw [h', List.getD_eq_getElem?_getD, h]
    rfl

theorem marked_fst (ps : List (V3 K)) (f : Nat → Bool) : (marked ps f).map Prod.fst = ps := by
  apply List.ext_getElem?
  intro i
  rw [List.getElem?_map]
  rcases Nat.lt_or_ge i ps.length with h | h
  · have : (marked ps f)[i]? = some (ps[i], f i) := (marked_get ps f i _).2 ⟨List.getElem?_eq_getElem h, rfl⟩
    rw [this, List.getElem?_eq_getElem h]
    rfl
  · rw [List.getElem?_eq_none (by rw [marked_length]; exact h), List.getElem?_eq_none h]
    rfl

theorem marked_straight {ps : List (V3 K)} {f : Nat → Bool} (hm : MovesOn ps)
    (h : ∀ i a b x, ps[i]? = some a → ps[(i + 1) % ps.length]? = some b → ps[(i + 2) % ps.length]? = some x →
      f ((i + 1) % ps.length) = false → area2 a b x = 0) : MarkedStraight (marked ps f) := by
  constructor
  · intro i a b x ha hb hx hf
    rw [marked_length] at hb hx
    rw [marked_get] at ha hb hx
    exact h i _ _ _ ha.1 hb.1 hx.1 (by rw [hb.2, hf])
  · intro i a b ha hb
    rw [marked_length] at hb
    rw [marked_get] at ha hb
    exact hm i _ _ ha.1 hb.1

theorem marked_kept {ps us : List (V3 K)} {ids : List Nat} (h1 : ids.Pairwise (· < ·))
    (hs : IsSelection ps ids us) :
    ((marked ps fun i => decide (i ∈ ids)).filter Prod.snd).map Prod.fst = us := by
  have hlt : ∀ i ∈ ids, i < ps.length := by
    intro i hi
    have : ps[i]? ∈ us.map some := by rw [← hs]; exact List.mem_map.2 ⟨i, hi, rfl⟩
    obtain ⟨u, -, hu⟩ := List.mem_map.1 this
    exact (List.getElem?_eq_some_iff.1 hu.symm).1
  have e : (List.range ps.length).filter (fun i => decide (i ∈ ids)) = ids := by
    apply List.Perm.eq_of_pairwise (le := (· < ·)) (fun a b _ _ h1 h2 => by omega)
      (List.Pairwise.filter _ List.pairwise_lt_range) h1
    refine (List.perm_ext_iff_of_nodup (List.nodup_range.filter _) (h1.imp (fun h => Nat.ne_of_lt h))).2 ?_
    intro i
    rw [List.mem_filter, List.mem_range]
    constructor
    · rintro ⟨-, h⟩; exact of_decide_eq_true h
    · intro h; exact ⟨hlt i h, decide_eq_true h⟩
  unfold marked
  rw [List.filter_map, List.map_map]
  have : (Prod.snd ∘ fun i => (ps.getD i V3.zero, decide (i ∈ ids))) = fun i => decide (i ∈ ids) := rfl
  rw [this, e]
  apply List.map_injective_iff.2 (Option.some_injective _)
  rw [List.map_map, ← hs]
  apply List.map_congr_left
  intro i hi
  have := hlt i hi
  simp [this]

section polygon

variable {g : GeoCfg K} {sqrt : K → K} {ps us : List (V3 K)}

theorem unaligned_marks (hm : MovesOn ps) (he : AlignedExact g sqrt ps) (h2 : 2 < ps.length)
    (hu : IsUnaligned g sqrt ps us) : ∃ ids : List Nat, ids.Pairwise (· < ·) ∧ IsSelection ps ids us ∧
      (∀ f : Nat → Bool, (∀ i ∈ ids, f i = true) → MarkedStraight (marked ps f)) := by
  obtain ⟨ids, h1, hs, hi⟩ := hu
  refine ⟨ids, h1, hs, fun f hf => marked_straight hm ?_⟩
  intro i a b x ha hb hx hfi
  have hil := (List.getElem?_eq_some_iff.1 ha).1
  have hne : (i + 1) % ps.length ∉ ids := by
    intro h
    rw [hf _ h] at hfi
    cases hfi
  rw [hi] at hne
  by_contra hc
  apply hne
  refine ⟨a, b, x, ?_, hb, ?_, ?_⟩
  · rw [← ha]
    congr 1
    rcases Nat.lt_or_ge (i + 1) ps.length with h | h
    · rw [Nat.mod_eq_of_lt h, show i + 1 + ps.length - 1 = i + ps.length by omega, Nat.add_mod_right,
        Nat.mod_eq_of_lt hil]
    · have : i + 1 = ps.length := by omega
      rw [this, Nat.mod_self, Nat.zero_add, Nat.mod_eq_of_lt (by omega)]
      omega
  · rw [← hx, Nat.mod_add_mod]
  · by_contra h
    rw [Bool.not_eq_false] at h
    exact hc (he a (List.mem_of_getElem? ha) b (List.mem_of_getElem? hb) x (List.mem_of_getElem? hx) h)

/-- The aligned vertices do not count for sums over the edges. -/
theorem closedSum_unaligned {c : V3 K → V3 K → K} (hc : ∀ a b x, area2 a b x = 0 → c a b + c b x = c a x)
    (hm : MovesOn ps) (he : AlignedExact g sqrt ps) (h2 : 2 < ps.length) (hu : IsUnaligned g sqrt ps us) :
    closedSum c ps = closedSum c us := by
  obtain ⟨ids, h1, hs, hf⟩ := unaligned_marks hm he h2 hu
  cases ids with
  | nil =>
    have hus : us = [] := by
      unfold IsSelection at hs
      simpa using hs.symm
    let f : Nat → Bool := fun i => decide (i ∈ [0])
    have hk : (0 : Nat) < (marked ps f).length := by rw [marked_length]; omega
    have hg := (marked_get ps f 0 _).1 (List.getElem?_eq_getElem hk)
    have := closedSum_kept hc (hf f (by simp)) hk (by rw [← hg.2]; rfl)
    have h0 : 0 < ps.length := by omega
    rw [marked_fst, marked_kept (us := [ps[0]]) (by simp) (by
      unfold IsSelection
      simp [h0])] at this
    rw [this, hus]
    have c0 : c ps[0] ps[0] = 0 := by
      have := hc ps[0] ps[0] ps[0] (by simp [area2])
      linarith
    simp [closedSum, cycPairs, c0]
  | cons k ids =>
    have hkl : k < ps.length := by
      have : ps[k]? ∈ us.map some := by rw [← hs]; simp
      obtain ⟨u, -, hu⟩ := List.mem_map.1 this
      exact (List.getElem?_eq_some_iff.1 hu.symm).1
    let f : Nat → Bool := fun i => decide (i ∈ k :: ids)
    have hk : k < (marked ps f).length := by rw [marked_length]; omega
    have hg := (marked_get ps f k _).1 (List.getElem?_eq_getElem hk)
    have := closedSum_kept hc (hf f (fun i hi => decide_eq_true hi)) hk (by rw [← hg.2]; simp [f])
    rwa [marked_fst, marked_kept h1 hs] at this

/-- The vertices are to the left of the edges between the vertices that are not aligned. -/
theorem convex_unaligned (hm : MovesOn ps) (he : AlignedExact g sqrt ps) (h2 : 2 < ps.length)
    (hu : IsUnaligned g sqrt ps us) (hcx : ConvexCcw ps) {p : V3 K} (hp : p ∈ ps) :
    ∀ e ∈ cycPairs us, 0 ≤ area2 e.1 e.2 p := by
  obtain ⟨ids, h1, hs, hf⟩ := unaligned_marks hm he h2 hu
  cases ids with
  | nil =>
    have hus : us = [] := by
      unfold IsSelection at hs
      simpa using hs.symm
    rw [hus]
    simp [cycPairs]
  | cons k ids =>
    have hkl : k < ps.length := by
      have : ps[k]? ∈ us.map some := by rw [← hs]; simp
      obtain ⟨u, -, hu⟩ := List.mem_map.1 this
      exact (List.getElem?_eq_some_iff.1 hu.symm).1
    let f : Nat → Bool := fun i => decide (i ∈ k :: ids)
    have hk : k < (marked ps f).length := by rw [marked_length]; omega
    have hg := (marked_get ps f k _).1 (List.getElem?_eq_getElem hk)
    have := chain_kept (p := p) (hf f (fun i hi => decide_eq_true hi)) hk (by rw [← hg.2]; simp [f]) (by
      intro i a b ha hb
      rw [marked_length] at hb
      rw [marked_get] at ha hb
      exact hcx i _ _ p ha.1 hb.1 hp)
    rwa [marked_kept h1 hs] at this

theorem closedSum_short {c : V3 K → V3 K → K} (h0 : ∀ a, c a a = 0) (h1 : ∀ a b, c a b + c b a = 0)
    (h : us.length ≤ 2) : closedSum c us = 0 := by
  match us, h with
  | [], _ => simp [closedSum, cycPairs]
  | [a], _ => simp [closedSum, cycPairs, h0]
  | [a, b], _ => simp [closedSum, cycPairs, h1]

theorem crossZ_through (a b x : V3 K) (h : area2 a b x = 0) : crossZ a b + crossZ b x = crossZ a x := by
  simp only [area2] at h
  simp only [crossZ]
  linear_combination h

theorem momentX_through (a b x : V3 K) (h : area2 a b x = 0) : momentX a b + momentX b x = momentX a x := by
  simp only [area2] at h
  simp only [momentX, crossZ]
  linear_combination (a.x + b.x + x.x) * h

theorem momentY_through (a b x : V3 K) (h : area2 a b x = 0) : momentY a b + momentY b x = momentY a x := by
  simp only [area2] at h
  simp only [momentY, crossZ]
  linear_combination (a.y + b.y + x.y) * h

/-- A polygon whose area is not zero has three vertices that are not aligned. -/
theorem unaligned_gt_two (hm : MovesOn ps) (he : AlignedExact g sqrt ps) (h2 : 2 < ps.length)
    (hu : IsUnaligned g sqrt ps us) (ha : shoelace ps ≠ 0) : 2 < us.length := by
  by_contra h
  apply ha
  have : shoelace ps = closedSum crossZ ps := rfl
  rw [this, closedSum_unaligned crossZ_through hm he h2 hu]
  exact closedSum_short (fun a => by simp [crossZ, mul_comm]) (fun a b => by simp only [crossZ]; ring) (by omega)

/-- Sums over the fan of the first vertex. -/
theorem fan_sum (d : V3 K → V3 K → V3 K → K) (h0 : ∀ v b, d v v b = 0) (h1 : ∀ v b, d v b v = 0)
    (hcyc : ∀ v (vs : List (V3 K)), closedSum (d v) vs = closedSum (d V3.zero) vs) (h3 : 2 < us.length) :
    ((List.range (us.length - 2)).map fun i =>
      d (us.getD 0 V3.zero) (us.getD (i + 1) V3.zero) (us.getD (i + 2) V3.zero)).sum =
      closedSum (d V3.zero) us := by
  match us, h3 with
  | v :: t, h3 =>
    rw [← hcyc v, closedSum_cons]
    have hp : pathSum (d v) (v :: (t ++ [v])) = pathSum (d v) t := by
      cases t with
      | nil => simp at h3
      | cons b t =>
        simp only [List.cons_append, pathSum]
        rw [h0, zero_add, ← List.cons_append]
        rcases List.eq_nil_or_concat (b :: t) with h | ⟨l, z, h⟩
        · simp at h
        · rw [h, List.concat_eq_append, List.append_assoc, List.singleton_append, pathSum_append]
          simp [pathSum, h1]
    rw [hp, ← zip_range_pathSum]
    congr 1
    apply List.ext_getElem
    · simp
    · intro i h1 h2
      simp only [List.length_map, List.length_range, List.length_cons] at h1
      have a1 : i < t.length := by omega
      have a2 : i + 1 < t.length := by omega
      simp [a1, a2]

/-- The triangles with corners among the vertices that are not aligned. -/
def GeoCfg.fanTriangles (g : GeoCfg K) (sqrt : K → K) (us : List (V3 K)) : List (V3 K × V3 K × V3 K) :=
  (g.fanKept sqrt us (List.range (us.length - 2))).map (corners us)

theorem mapRes_flat3 {ids : List Nat} {L : List (Nat × Nat × Nat)}
    (h : ∀ t ∈ L, t.1 < ids.length ∧ t.2.1 < ids.length ∧ t.2.2 < ids.length) :
    mapRes (vget ids) (flat3 L) =
      ok (flat3 (L.map fun t => (ids.getD t.1 0, ids.getD t.2.1 0, ids.getD t.2.2 0))) := by
  have e : flat3 (L.map fun t => (ids.getD t.1 0, ids.getD t.2.1 0, ids.getD t.2.2 0)) =
      (flat3 L).map fun i => ids.getD i 0 := by
    simp only [flat3, List.flatMap_map, List.map_flatMap, List.map_cons, List.map_nil]
  rw [e]
  apply mapRes_eq_map
  intro i hi
  simp only [flat3, List.mem_flatMap, List.mem_cons, List.not_mem_nil, or_false] at hi
  obtain ⟨t, ht, hi⟩ := hi
  obtain ⟨h1, h2, h3⟩ := h t ht
  have hl : i < ids.length := by rcases hi with rfl | rfl | rfl <;> assumption
  rw [vget_of_lt hl]
  simp [hl]

theorem fanKept_lt {t : Nat × Nat × Nat} (h3 : 2 < us.length)
    (ht : t ∈ g.fanKept sqrt us (List.range (us.length - 2))) :
    t.1 < us.length ∧ t.2.1 < us.length ∧ t.2.2 < us.length := by
  simp only [GeoCfg.fanKept, List.mem_map, List.mem_filter, List.mem_range] at ht
  obtain ⟨i, ⟨hi, -⟩, rfl⟩ := ht
  simp only
  omega

theorem convexTriangles_eq (h2 : 2 < ps.length) (hu : IsUnaligned g sqrt ps us) (h3 : 2 < us.length) :
    g.convexTriangles sqrt ps = ok (g.fanTriangles sqrt us) := by
  obtain ⟨ids, e1, e2⟩ := unaligned_ok h2 hu
  obtain ⟨ids', hs1, hsel, hi⟩ := hu
  have hids : ids = ids' := by
    obtain ⟨ids'', f1, f2⟩ := unaligned_ok h2 ⟨ids', hs1, hsel, hi⟩
    obtain ⟨r, all, q1, q2, q3, q4⟩ := (c72_unaligned g sqrt ps 0).2.2 h2
    rw [if_pos rfl] at q2
    subst q2
    rw [e1] at q1
    cases q1
    exact List.Perm.eq_of_pairwise (le := (· < ·)) (fun a b _ _ h1 h2 => by omega) q3 hs1
      ((List.perm_ext_iff_of_nodup (q3.imp (fun h => Nat.ne_of_lt h)) (hs1.imp (fun h => Nat.ne_of_lt h))).2
        (fun i => (q4 i).trans (hi i).symm))
  subst hids
  have hlen : ids.length = us.length := by simpa using congrArg List.length hsel
  have hget : ∀ i, i < us.length → ps[ids.getD i 0]? = some (us.getD i V3.zero) := by
    intro i hi
    have := congrArg (fun l => l[i]?) hsel
    simp only [List.getElem?_map, List.getElem?_eq_getElem (show i < ids.length by omega),
      List.getElem?_eq_getElem hi, Option.map_some, Option.some.injEq] at this
    have f1 : ids.getD i 0 = ids[i]'(by omega) := by simp [show i < ids.length by omega]
    have f2 : us.getD i V3.zero = us[i] := by simp [hi]
    rw [f1, f2]
    exact this
  simp only [GeoCfg.convexTriangles, e1, ok_bind, e2, g.triangulationByFirstVertex_eq sqrt us h3]
  rw [mapRes_flat3 (fun t ht => by rw [hlen]; exact fanKept_lt h3 ht), ok_bind,
    extractTriangulationPoints_eq ps _ (fun t => (ps.getD t.1 V3.zero, ps.getD t.2.1 V3.zero, ps.getD t.2.2 V3.zero))]
  · unfold GeoCfg.fanTriangles
    rw [List.map_map]
    congr 1
    apply List.map_congr_left
    intro t ht
    obtain ⟨l1, l2, l3⟩ := fanKept_lt h3 ht
    simp only [Function.comp_apply, corners]
    rw [List.getD_eq_getElem?_getD (l := ps), List.getD_eq_getElem?_getD (l := ps),
      List.getD_eq_getElem?_getD (l := ps), hget _ l1, hget _ l2, hget _ l3]
    rfl
  · intro t ht
    obtain ⟨t, ht', rfl⟩ := List.mem_map.1 ht
    obtain ⟨l1, l2, l3⟩ := fanKept_lt h3 ht'
    simp only [List.getD_eq_getElem?_getD (l := ps), hget _ l1, hget _ l2, hget _ l3, Option.getD_some, and_self]

theorem selection_sub {ids : List Nat} (h : IsSelection ps ids us) {u : V3 K} (hu : u ∈ us) : u ∈ ps := by
  have : some u ∈ us.map some := List.mem_map.2 ⟨u, hu, rfl⟩
  rw [← h] at this
  obtain ⟨i, -, hi⟩ := List.mem_map.1 this
  exact List.mem_of_getElem? hi

theorem getD_mem_of_lt {i : Nat} (h : i < us.length) : us.getD i V3.zero ∈ us := by
  rw [List.getD_eq_getElem?_getD, List.getElem?_eq_getElem h]
  exact List.getElem_mem h

theorem fanTriangles_mem {t : V3 K × V3 K × V3 K} (h3 : 2 < us.length) (ht : t ∈ g.fanTriangles sqrt us) :
    ∃ i, i < us.length - 2 ∧ t = (us.getD 0 V3.zero, us.getD (i + 1) V3.zero, us.getD (i + 2) V3.zero) ∧
      g.pointIsAligned sqrt t.1 t.2.1 t.2.2 = false := by
  unfold GeoCfg.fanTriangles GeoCfg.fanKept at ht
  rw [List.map_map, List.mem_map] at ht
  obtain ⟨i, hi, rfl⟩ := ht
  rw [List.mem_filter, List.mem_range] at hi
  refine ⟨i, hi.1, rfl, ?_⟩
  have h := hi.2
  have e : ∀ j, j < us.length → us[j]? = some (us.getD j V3.zero) := fun j hj => getElem?_getD _ _ _ hj
  simp only [GeoCfg.fanSkips, e 0 (by omega), e (i + 1) (by omega), e (i + 2) (by omega)] at h
  simpa [corners] using h

/-- Sums over the triangles that are kept. -/
theorem fanTriangles_sum (f : V3 K × V3 K × V3 K → K) (h3 : 2 < us.length) (he : AlignedExact g sqrt us)
    (hf : ∀ t, area2 t.1 t.2.1 t.2.2 = 0 → f t = 0) :
    ((g.fanTriangles sqrt us).map f).sum = ((List.range (us.length - 2)).map fun i =>
      f (us.getD 0 V3.zero, us.getD (i + 1) V3.zero, us.getD (i + 2) V3.zero)).sum := by
  unfold GeoCfg.fanTriangles GeoCfg.fanKept
  rw [List.map_map, List.map_map, sum_filter_zero]
  · rfl
  · intro i hi hs
    rw [List.mem_range] at hi
    apply hf
    have e : ∀ j, j < us.length → us[j]? = some (us.getD j V3.zero) := fun j hj => getElem?_getD _ _ _ hj
    simp only [GeoCfg.fanSkips, e 0 (by omega), e (i + 1) (by omega), e (i + 2) (by omega), Bool.not_eq_false'] at hs
    exact he _ (getD_mem_of_lt (i := 0) (by omega)) _ (getD_mem_of_lt (i := i + 1) (by omega)) _
      (getD_mem_of_lt (i := i + 2) (by omega)) hs

theorem fan_area (h3 : 2 < us.length) (he : AlignedExact g sqrt us) :
    ((g.fanTriangles sqrt us).map fun t => area2 t.1 t.2.1 t.2.2).sum = closedSum crossZ us := by
  rw [fanTriangles_sum _ h3 he (fun t h => h)]
  exact fan_all us h3

theorem fan_momentX (h3 : 2 < us.length) (he : AlignedExact g sqrt us) :
    ((g.fanTriangles sqrt us).map fun t => area2 t.1 t.2.1 t.2.2 * (t.1.x + t.2.1.x + t.2.2.x)).sum =
      closedSum momentX us := by
  rw [fanTriangles_sum _ h3 he (fun t h => by rw [h, zero_mul])]
  have hcyc : ∀ v (vs : List (V3 K)), closedSum (fun a b => area2 v a b * (v.x + a.x + b.x)) vs =
      closedSum momentX vs := by
    intro c vs
    apply closedSum_congr_exact _ _ (fun p => (p.x * p.x * c.y - p.x * p.y * c.x + c.x * c.y * p.x - c.x * c.x * p.y))
    intro a b
    simp only [area2, momentX, crossZ]; ring
  rw [fan_sum (fun v a b => area2 v a b * (v.x + a.x + b.x)) (fun v b => by simp [area2])
    (fun v b => by simp [area2]) (fun v vs => by rw [hcyc, hcyc]) h3, hcyc]

theorem fan_momentY (h3 : 2 < us.length) (he : AlignedExact g sqrt us) :
    ((g.fanTriangles sqrt us).map fun t => area2 t.1 t.2.1 t.2.2 * (t.1.y + t.2.1.y + t.2.2.y)).sum =
      closedSum momentY us := by
  rw [fanTriangles_sum _ h3 he (fun t h => by rw [h, zero_mul])]
  have hcyc : ∀ v (vs : List (V3 K)), closedSum (fun a b => area2 v a b * (v.y + a.y + b.y)) vs =
      closedSum momentY vs := by
    intro c vs
    apply closedSum_congr_exact _ _ (fun p => (p.x * p.y * c.y - p.y * p.y * c.x + c.y * c.y * p.x - c.x * c.y * p.y))
    intro a b
    simp only [area2, momentY, crossZ]; ring
  rw [fan_sum (fun v a b => area2 v a b * (v.y + a.y + b.y)) (fun v b => by simp [area2])
    (fun v b => by simp [area2]) (fun v vs => by rw [hcyc, hcyc]) h3, hcyc]

theorem aligned_of_area2 (h0 : 0 ≤ g.minTolerance) (hs : IsSqrt sqrt) {a b c : V3 K} (ha : a.z = 0) (hb : b.z = 0)
    (hc : c.z = 0) (h : area2 a b c = 0) : g.pointIsAligned sqrt a b c = true := by
  rw [GeoCfg.pointIsAligned, g.zero_1D h0]
  have hsm : ∀ v : V3 K, ∃ k, v.normalized sqrt = V3.smul k v := by
    intro v
    unfold V3.normalized
    split
    · exact ⟨_, rfl⟩
    · exact ⟨1, by ext <;> simp [V3.smul]⟩
  obtain ⟨k1, e1⟩ := hsm (b.sub a)
  obtain ⟨k2, e2⟩ := hsm (c.sub a)
  have hcr : ((b.sub a).normalized sqrt).cross ((c.sub a).normalized sqrt) = V3.zero := by
    rw [e1, e2]
    simp only [area2] at h
    ext
    · simp [V3.cross, V3.smul, V3.sub, V3.zero, ha, hb, hc]
    · simp [V3.cross, V3.smul, V3.sub, V3.zero, ha, hb, hc]
    · simp only [V3.cross, V3.smul, V3.sub, V3.zero]
      linear_combination k1 * k2 * h
  rw [hcr]
  have : (V3.zero : V3 K).norm sqrt = 0 := by
    have h1 : sqrt (0 : K) = 0 := by
      have := (hs 0 le_rfl).2
      simpa using this
    simp [V3.norm, V3.dot, V3.zero, h1]
  rw [this, abs_zero]
  exact g.tol1D_nonneg h0

/-- The triangles of a convex polygon are counter clockwise. -/
theorem fan_positive (h0 : 0 ≤ g.minTolerance) (hs : IsSqrt sqrt) (hz : ∀ q ∈ ps, q.z = 0) (hm : MovesOn ps)
    (he : AlignedExact g sqrt ps) (h2 : 2 < ps.length) (hu : IsUnaligned g sqrt ps us) (h3 : 2 < us.length)
    (hcx : ConvexCcw ps) {t : V3 K × V3 K × V3 K} (ht : t ∈ g.fanTriangles sqrt us) :
    0 < area2 t.1 t.2.1 t.2.2 := by
  have hsub : ∀ u ∈ us, u ∈ ps := by
    obtain ⟨ids, -, hsel, -⟩ := hu
    exact fun u hu => selection_sub hsel hu
  obtain ⟨i, hi, rfl, hal⟩ := fanTriangles_mem h3 ht
  have m0 := hsub _ (getD_mem_of_lt (us := us) (i := 0) (by omega))
  have m1 := hsub _ (getD_mem_of_lt (us := us) (i := i + 1) (by omega))
  have m2 := hsub _ (getD_mem_of_lt (us := us) (i := i + 2) (by omega))
  have hmem : (us.getD (i + 1) V3.zero, us.getD (i + 2) V3.zero) ∈ cycPairs us := by
    have hl : i + 1 < (cycPairs us).length := by rw [cycPairs_length]; omega
    have := cycPairs_getElem us (i + 1) hl
    rw [List.mem_iff_getElem]
    refine ⟨i + 1, hl, ?_⟩
    rw [this]
    have e : (i + 1 + 1) % us.length = i + 2 := Nat.mod_eq_of_lt (by omega)
    simp only [e]
    simp [show i + 1 < us.length by omega, show i + 2 < us.length by omega]
  have hge := convex_unaligned hm he h2 hu hcx m0 _ hmem
  simp only at hge hal ⊢
  have e : area2 (us.getD (i + 1) V3.zero) (us.getD (i + 2) V3.zero) (us.getD 0 V3.zero) =
      area2 (us.getD 0 V3.zero) (us.getD (i + 1) V3.zero) (us.getD (i + 2) V3.zero) := by
    simp only [area2]; ring
  rw [e] at hge
  refine lt_of_le_of_ne hge fun h => ?_
  rw [aligned_of_area2 h0 hs (hz _ m0) (hz _ m1) (hz _ m2) h.symm] at hal
  cases hal

theorem exact_unaligned (he : AlignedExact g sqrt ps) (hu : IsUnaligned g sqrt ps us) : AlignedExact g sqrt us := by
  obtain ⟨ids, -, hsel, -⟩ := hu
  exact fun a ha b hb c hc h => he a (selection_sub hsel ha) b (selection_sub hsel hb) c (selection_sub hsel hc) h

theorem triangle_area (g : GeoCfg K) (h1 : 0 ≤ g.tolerance1D) {t : V3 K × V3 K × V3 K} (ha : t.1.z = 0)
    (hb : t.2.1.z = 0) (hc : t.2.2.z = 0) :
    g.polygonArea [t.1, t.2.1, t.2.2] = ok (area2 t.1 t.2.1 t.2.2 / 2) := by
  rw [g.polygonArea_eq _ (by simp) (by
    intro p hp
    simp only [List.mem_cons, List.not_mem_nil, or_false] at hp
    rcases hp with rfl | rfl | rfl <;> simpa [ha, hb, hc] using h1)]
  congr 1
  simp only [closedSum, cycPairs, List.rotate_cons_succ, List.rotate_zero, List.cons_append, List.nil_append,
    List.zip_cons_cons, List.zip_nil_right, List.map_cons, List.map_nil, List.sum_cons, List.sum_nil, crossZ, area2]
  ring

/-- The points that are not aligned exist. -/
theorem unaligned_exists (g : GeoCfg K) (sqrt : K → K) (h2 : 2 < ps.length) : ∃ us, IsUnaligned g sqrt ps us := by
  obtain ⟨r, all, -, e2, e3, e4⟩ := (c72_unaligned g sqrt ps 0).2.2 h2
  rw [if_pos rfl] at e2
  subst e2
  refine ⟨r.map fun i => ps.getD i V3.zero, r, e3, ?_, e4⟩
  unfold IsSelection
  rw [List.map_map]
  apply List.map_congr_left
  intro i hi
  obtain ⟨a, b, c, -, hb, -⟩ := (e4 i).1 hi
  rw [hb, Function.comp_apply, List.getD_eq_getElem?_getD, hb]
  rfl

end polygon

theorem isLength_dist2 {a b : V3 K} {d : K} : IsLength a b d ↔ 0 ≤ d ∧ d * d = dist2 a b := by
  unfold IsLength dist2
  constructor
  · rintro ⟨h0, h⟩
    exact ⟨h0, by rw [← sq, h]; ring⟩
  · rintro ⟨h0, h⟩
    exact ⟨h0, by rw [sq, h]; ring⟩

/-- The directions of the edges. -/
theorem edgeDirection_ok {g : GeoCfg K} {sqrt : K → K} {m : Mesh K} (hw : m.WF) {c : Nat} {vs es : List Nat}
    {ps : List (V3 K)} (h : CellReady g sqrt m c vs es ps) {k : Nat} (hk : k < es.length) :
    ∃ b, m.edgeDirection c es.length k = ok b ∧ ∀ e x y, es[k]? = some e → vs[k]? = some x →
      vs[(k + 1) % vs.length]? = some y → (b = true ↔ m.extremes e = ok (x, y)) := by
  have hkv : k < vs.length := by rw [h.count]; exact hk
  have hk' : (k + 1) % es.length < vs.length := by rw [h.count]; exact Nat.mod_lt _ (by omega)
  obtain ⟨q, hq⟩ := findEdge_exists (a := vs[k]) (b := vs[(k + 1) % es.length]) hw h.edges h.known
  obtain ⟨f1, f2, f3⟩ := findEdge_found hw h.edges hq
  refine ⟨decide (q = k), ?_, ?_⟩
  · unfold Mesh.edgeDirection
    rw [entry_of_row hw h.vertices (List.getElem?_eq_getElem hkv), ok_bind,
      entry_of_row hw h.vertices (List.getElem?_eq_getElem hk'), ok_bind, hq, ok_bind]
  · intro e x y he hx hy
    rw [h.count, List.getElem?_eq_getElem hk'] at hy
    rw [List.getElem?_eq_getElem hkv] at hx
    obtain rfl := Option.some.inj hx
    obtain rfl := Option.some.inj hy
    rw [decide_eq_true_iff]
    constructor
    · rintro rfl
      obtain ⟨e', h1, h2⟩ := f3 hk
      rw [he] at h1
      obtain rfl := Option.some.inj h1
      exact h2
    · intro hx
      have hle : q ≤ k := by
        by_contra hc
        exact f2 k e (by omega) he hx
      obtain ⟨e', h1, h2⟩ := f3 (by omega)
      exact h.differ q k e' e _ h1 he h2 hx

/-- The data of a polygon. -/
theorem cellGeo_ok {g : GeoCfg K} {sqrt : K → K} (hs : IsSqrt sqrt) (h0 : 0 ≤ g.minTolerance)
    (h1 : 0 ≤ g.tolerance1D) {m : Mesh K} (hw : m.WF) {c : Nat} {vs es : List Nat} {ps : List (V3 K)}
    (h : CellReady g sqrt m c vs es ps) : ∃ d, g.cellGeo sqrt m c = ok d ∧ GeoOf g m vs es ps d := by
  have hpts : m.cellPoints c = ok ps := cellPoints_ok.2 ⟨vs, h.vertices, h.points⟩
  have hf : g.Flat ps := fun p hp => by rw [h.flat p hp, abs_zero]; exact h1
  obtain ⟨us, hu⟩ := unaligned_exists g sqrt h.three
  have h3 := unaligned_gt_two h.moves h.exact h.three hu h.area
  have heu := exact_unaligned h.exact hu
  have hsub : ∀ u ∈ us, u ∈ ps := by
    obtain ⟨ids, -, hsel, -⟩ := hu
    exact fun u hu => selection_sub hsel hu
  have hts := convexTriangles_eq h.three hu h3
  generalize hT : g.fanTriangles sqrt us = ts at hts
  have tmem : ∀ t ∈ ts, t.1 ∈ ps ∧ t.2.1 ∈ ps ∧ t.2.2 ∈ ps := by
    intro t ht
    rw [← hT] at ht
    obtain ⟨i, hi, rfl, -⟩ := fanTriangles_mem h3 ht
    exact ⟨hsub _ (getD_mem_of_lt (i := 0) (by omega)), hsub _ (getD_mem_of_lt (i := i + 1) (by omega)),
      hsub _ (getD_mem_of_lt (i := i + 2) (by omega))⟩
  have tz : ∀ t ∈ ts, t.1.z = 0 ∧ t.2.1.z = 0 ∧ t.2.2.z = 0 := fun t ht =>
    ⟨h.flat _ (tmem t ht).1, h.flat _ (tmem t ht).2.1, h.flat _ (tmem t ht).2.2⟩
  have hareas : mapRes (fun t => g.polygonArea [t.1, t.2.1, t.2.2]) ts =
      ok (ts.map fun t => area2 t.1 t.2.1 t.2.2 / 2) :=
    mapRes_eq_map fun t ht => triangle_area g h1 (tz t ht).1 (tz t ht).2.1 (tz t ht).2.2
  have hsum : (ts.map fun t => area2 t.1 t.2.1 t.2.2).sum = shoelace ps := by
    rw [← hT, fan_area h3 heu, ← closedSum_unaligned crossZ_through h.moves h.exact h.three hu]
    rfl
  have hhalf : (ts.map fun t => area2 t.1 t.2.1 t.2.2 / 2).sum = shoelace ps / 2 := by
    rw [← hsum]
    simp only [div_eq_mul_inv]
    rw [List.sum_map_mul_right]
  have hne : ts ≠ [] := by
    rintro rfl
    simp at hsum
    exact h.area hsum.symm
  have hpos : 0 < ts.length := List.length_pos_iff.2 hne
  have dot : ∀ f : V3 K → K, dotL ((ts.map triangleBarycenter).map f)
      (ts.map fun t => area2 t.1 t.2.1 t.2.2 / 2) =
        (ts.map fun t => area2 t.1 t.2.1 t.2.2 / 2 * f (triangleBarycenter t)).sum := by
    intro f
    rw [List.map_map, dotL_map]
    rfl
  have mx : (ts.map fun t => area2 t.1 t.2.1 t.2.2 / 2 * (triangleBarycenter t).x).sum = firstMoment V3.x ps / 6 := by
    have e : firstMoment V3.x ps = (ts.map fun t => area2 t.1 t.2.1 t.2.2 * (t.1.x + t.2.1.x + t.2.2.x)).sum := by
      rw [← hT, fan_momentX h3 heu, ← closedSum_unaligned momentX_through h.moves h.exact h.three hu]
      rfl
    rw [e, div_eq_mul_inv, ← List.sum_map_mul_right]
    congr 1
    apply List.map_congr_left
    intro t _
    simp only [triangleBarycenter]
    ring
  have my : (ts.map fun t => area2 t.1 t.2.1 t.2.2 / 2 * (triangleBarycenter t).y).sum = firstMoment V3.y ps / 6 := by
    have e : firstMoment V3.y ps = (ts.map fun t => area2 t.1 t.2.1 t.2.2 * (t.1.y + t.2.1.y + t.2.2.y)).sum := by
      rw [← hT, fan_momentY h3 heu, ← closedSum_unaligned momentY_through h.moves h.exact h.three hu]
      rfl
    rw [e, div_eq_mul_inv, ← List.sum_map_mul_right]
    congr 1
    apply List.map_congr_left
    intro t _
    simp only [triangleBarycenter]
    ring
  have mz : (ts.map fun t => area2 t.1 t.2.1 t.2.2 / 2 * (triangleBarycenter t).z).sum = 0 := by
    rw [List.map_congr_left (g := fun _ => (0 : K)) (by
      intro t ht
      obtain ⟨e1, e2, e3⟩ := tz t ht
      simp [triangleBarycenter, e1, e2, e3])]
    simp
  obtain ⟨lo, hi, hbox, b1, b2⟩ := (c72_box ps).2 (by
    rintro rfl
    exact absurd h.three (by simp))
  obtain ⟨dm, hdm, d0, d1, d2⟩ := c72_max_distance sqrt hs g h0 ps
  have hnum := rowSize_of_row hw h.edges
  obtain ⟨dirs, hdirs, hdr⟩ := mapRes_forall₂ (f := m.edgeDirection c es.length)
    (R := fun k b => ∀ e x y, es[k]? = some e → vs[k]? = some x →
      vs[(k + 1) % vs.length]? = some y → (b = true ↔ m.extremes e = ok (x, y)))
    (l := List.range es.length) (fun k hk => edgeDirection_ok hw h (List.mem_range.1 hk))
  refine ⟨_, by
    simp only [GeoCfg.cellGeo, hpts, ok_bind, hts, hareas, centroidOfParts, List.length_map, and_true,
      assert_true hpos, hbox, hdm, hnum, hdirs, edgesCentroid_eq h.three, edgeLengths_eq sqrt h.three,
      edgeTangents_eq h.three, edgeNormals_eq g sqrt h.three hf, dot, mx, my, mz, hhalf]
    rfl, ?_⟩
  have hlen := hdr.length_eq
  rw [List.length_range] at hlen
  refine ⟨rfl, ⟨b1, b2⟩, tmem, hsum, ?_, by ring, ?_, ⟨d0, ?_, ?_⟩, ⟨hlen.symm, ?_⟩, ?_, ?_, ?_, ?_⟩
  · intro hcx t ht
    rw [← hT] at ht
    exact fan_positive h0 hs h.flat h.moves h.exact h.three hu h3 hcx ht
  · have := h.area
    refine ⟨?_, ?_, by simp⟩
    · field_simp
      ring
    · field_simp
      ring
  · rcases d1 with d1 | ⟨a, ha, b, hb, d1⟩
    · exact .inl d1
    · exact .inr ⟨a, ha, b, hb, isLength_dist2.2 ⟨d0, d1⟩⟩
  · intro a ha b hb l hl
    exact d2 a ha b hb l (isLength_dist2.1 hl).1 (isLength_dist2.1 hl).2
  · intro k e x y he hx hy
    have hk := (List.getElem?_eq_some_iff.1 he).1
    have := (List.forall₂_iff_get.1 hdr).2 k (by simpa using hk) (by omega)
    simp only [List.get_eq_getElem, List.getElem_range] at this
    show dirs[k]? = some true ↔ _
    rw [List.getElem?_eq_getElem (by omega), Option.some.injEq]
    exact this e x y he hx hy
  · exact perEdge_map fun _ _ _ _ => rfl
  · exact perEdge_map fun a b _ _ => segmentLength_isLength hs a b
  · exact perEdge_map fun _ _ _ _ => rfl
  · exact perEdge_map fun a b _ _ => edgeNormal_isRight hs a b

/-- Whether a cell is active can be asked. -/
theorem active_exists {m : Mesh K} (hw : m.WF) (d : Dim) {i : Nat} (hi : i < m.num d) : ∃ b, m.active d i = ok b := by
  obtain ⟨A, hA, rfl⟩ := AMesh.exists_conc hw
  unfold Mesh.active
  rw [assert_true hi]
  have : i < (A.act d).length := by rw [hA.act]; exact hi
  exact ⟨(A.act d)[i], by simp only [ok_bind]; exact vget_of_lt this⟩

/-! ### The check -/

theorem testIf_ok {b : Bool} {r : Res Unit} : testIf b r = ok () ↔ (b = true → r = ok ()) := by
  cases b <;> simp [testIf]

theorem bind_unit_ok {r s : Res Unit} : (r >>= fun _ => s) = ok () ↔ r = ok () ∧ s = ok () := by
  rw [bind_eq_ok]
  exact ⟨fun ⟨_, h1, h2⟩ => ⟨h1, h2⟩, fun ⟨h1, h2⟩ => ⟨(), h1, h2⟩⟩

theorem testData_ok {m : Mesh K} {data : List (Option (CellGeo K))} {test : Nat → CellGeo K → Res Unit} (hw : m.WF)
    (hn : m.num .d3 ≤ m.num .d2)
    (hd : ∀ c, c < m.num .d3 → m.active .d2 c = ok true → ∃ d, data[c]? = some (some d)) :
    m.testData data test = ok () ↔ ∀ c d, c < m.num .d3 → m.active .d2 c = ok true → data[c]? = some (some d) →
      test c d = ok () := by
  unfold Mesh.testData
  rw [forEach0_ok]
  constructor
  · intro h c d hc ha hcd
    have := h c hc
    rw [ha, ok_bind, if_pos rfl, vget_eq_ok.2 hcd, ok_bind] at this
    exact this
  · intro h c hc
    obtain ⟨b, hb⟩ := active_exists hw .d2 (show c < m.num .d2 by omega)
    rw [hb, ok_bind]
    cases b with
    | false => rfl
    | true =>
      obtain ⟨d, hcd⟩ := hd c hc hb
      rw [if_pos rfl, vget_eq_ok.2 hcd, ok_bind]
      exact h c d hc hb hcd

theorem testLengths_ok (g : GeoCfg K) {m : Mesh K} {c n : Nat} (hn : m.rowSize .edge2 c = ok n) (d : CellGeo K) :
    g.testLengths m c d = ok () ↔
      ∀ e < n, ∃ l, d.lengths[e]? = some l ∧ max |g.tol1D| g.minTolerance < l := by
  unfold GeoCfg.testLengths
  rw [hn, ok_bind, forEach0_ok]
  refine forall_congr' fun e => forall_congr' fun he => ?_
  rw [bind_eq_ok]
  constructor
  · rintro ⟨l, h1, h2⟩
    exact ⟨l, vget_eq_ok.1 h1, (c27_sign g l g.tol1D).1.1 (assert_eq_ok.1 h2)⟩
  · rintro ⟨l, h1, h2⟩
    exact ⟨l, vget_eq_ok.2 h1, assert_eq_ok.2 ((c27_sign g l g.tol1D).1.2 h2)⟩

theorem closeTo_iff (g : GeoCfg K) (a b tol : K) :
    g.areValuesEqual a b tol = true ↔ CloseTo (max |tol| g.minTolerance) a b := c27_equality_region g a b tol

theorem midRule_area (d : CellGeo K) (h2 : 2 < d.vertices.length) (hl : d.lengths.length = d.vertices.length)
    (ht : d.tangents.length = d.vertices.length) (hn : d.normals.length = d.vertices.length) :
    polygonAreaByBoundaryIntegral d.vertices d.lengths d.tangents d.normals midRule.1 midRule.2 =
      ok (boundaryArea d) := by
  have hq : mapRes (edgeQuadrature d.vertices d.lengths d.tangents d.normals [(1 / 2 : K)] [1])
      (List.range d.vertices.length) = ok ((List.range d.vertices.length).map fun e =>
        [((d.vertices.getD e V3.zero).add (V3.smul (1 / 2) (d.tangents.getD e V3.zero)),
          V3.smul (|d.lengths.getD e 0| * 1) (d.normals.getD e V3.zero))]) := by
    apply mapRes_eq_map
    intro e he
    rw [List.mem_range] at he
    simp only [edgeQuadrature]
    rw [vget_of_lt he, vget_of_lt (by omega), vget_of_lt (by omega), vget_of_lt (by omega)]
    simp only [ok_bind, List.zipWith_cons_cons, List.zipWith_nil_right]
    simp only [List.getD_eq_getElem?_getD, List.getElem?_eq_getElem he,
      List.getElem?_eq_getElem (show e < d.lengths.length by omega),
      List.getElem?_eq_getElem (show e < d.tangents.length by omega),
      List.getElem?_eq_getElem (show e < d.normals.length by omega), Option.getD_some]
  simp only [polygonAreaByBoundaryIntegral, assert_true h2, assert_true hl, assert_true ht, assert_true hn, midRule,
    ok_bind, List.map_cons, List.map_nil, List.length_cons, List.length_nil, assert_true, boundaryQuadrature, hq]
  congr 1
  rw [boundaryArea, sum_flatten_map, List.map_map]
  congr 1
  apply List.map_congr_left
  intro e _
  simp only [Function.comp, List.map_cons, List.map_nil, List.sum_cons, List.sum_nil, V3.add, V3.smul]
  ring

theorem testNormals_ok (g : GeoCfg K) (tol2D : K) (d : CellGeo K) :
    g.testNormals tol2D d = ok () ↔ 2 < d.vertices.length ∧ d.lengths.length = d.vertices.length ∧
      d.tangents.length = d.vertices.length ∧ d.normals.length = d.vertices.length ∧
      CloseTo (max |tol2D| g.minTolerance) d.area (boundaryArea d) := by
  unfold GeoCfg.testNormals
  constructor
  · intro h
    obtain ⟨a, h1, h2⟩ := bind_eq_ok.1 h
    have hs := h1
    unfold polygonAreaByBoundaryIntegral at hs
    obtain ⟨_, e1, hs⟩ := bind_eq_ok.1 hs
    obtain ⟨_, e2, hs⟩ := bind_eq_ok.1 hs
    obtain ⟨_, e3, hs⟩ := bind_eq_ok.1 hs
    obtain ⟨_, e4, -⟩ := bind_eq_ok.1 hs
    rw [assert_eq_ok] at e1 e2 e3 e4
    rw [midRule_area d e1 e2 e3 e4] at h1
    obtain rfl := ok.inj h1
    exact ⟨e1, e2, e3, e4, (closeTo_iff g _ _ _).1 (assert_eq_ok.1 h2)⟩
  · rintro ⟨e1, e2, e3, e4, h⟩
    rw [midRule_area d e1 e2 e3 e4, ok_bind]
    exact assert_eq_ok.2 ((closeTo_iff g _ _ _).2 h)

/-- The divergence theorem for the data of a polygon in the plane. -/
theorem boundaryArea_eq {d : CellGeo K} {ps : List (V3 K)} (hv : d.vertices = ps) (hl : PerEdge IsLength ps d.lengths)
    (ht : PerEdge (fun a b t => t = ⟨b.x - a.x, b.y - a.y, b.z - a.z⟩) ps d.tangents)
    (hn : PerEdge IsRightNormal ps d.normals) : 2 * boundaryArea d = shoelace ps := by
  have hrange : boundaryArea d = closedSum (fun a b => (a.x + b.x) / 2 * (b.y - a.y)) ps := by
    unfold boundaryArea closedSum
    rw [hv]
    congr 1
    apply List.ext_getElem
    · simp [cycPairs_length]
    · intro i h1 h2
      simp only [List.getElem_map, List.getElem_range]
      have hi : i < ps.length := by simpa using h1
      have hb : (i + 1) % ps.length < ps.length := Nat.mod_lt _ (by omega)
      rw [cycPairs_getElem]
      obtain ⟨l, el, hl'⟩ := hl.2 i _ _ (List.getElem?_eq_getElem hi) (List.getElem?_eq_getElem hb)
      obtain ⟨t, et, rfl⟩ := ht.2 i _ _ (List.getElem?_eq_getElem hi) (List.getElem?_eq_getElem hb)
      obtain ⟨n, en, hn'⟩ := hn.2 i _ _ (List.getElem?_eq_getElem hi) (List.getElem?_eq_getElem hb)
      simp only [List.getD_eq_getElem?_getD, el, et, en, List.getElem?_eq_getElem hi, Option.getD_some]
      rw [abs_of_nonneg hl'.1]
      linear_combination (ps[i].x + (ps[(i + 1) % ps.length].x - ps[i].x) / 2) * (hn'.2.1 l hl').1
  have : shoelace ps = closedSum crossZ ps := rfl
  rw [hrange, this, ← closedSum_mul]
  apply closedSum_congr_exact _ _ (fun p => p.x * p.y)
  intro a b
  simp only [crossZ]
  ring

end Verif
