import Verif.ChordModel
import Verif.ChordSpec
import Verif.BisectAreaLemmas

/-
Helper lemmas: the cut of a polygon along a chord.
-/
namespace Verif

open Res

variable {α : Type}

/-- The positions `x, x + 1, …` of a polygon with `n` vertices. -/
def arc (n x k : Nat) : List Nat := (List.range k).map fun j => (x + j) % n

theorem arc_succ (n x k : Nat) : arc n x (k + 1) = x % n :: arc n (x + 1) k := by
  unfold arc
  rw [List.range_succ_eq_map, List.map_cons, List.map_map]
  congr 1
  apply List.map_congr_left
  intro j _
  show (x + (j + 1)) % n = (x + 1 + j) % n
  congr 1
  omega

theorem arc_append {n x k y l : Nat} (h : (x + k) % n = y % n) : arc n x k ++ arc n y l = arc n x (k + l) := by
  unfold arc
  rw [List.range_add, List.map_append, List.map_map]
  congr 1
  apply List.map_congr_left
  intro j _
  show (y + j) % n = (x + (k + j)) % n
  rw [← Nat.add_assoc, Nat.add_mod (x + k), h, ← Nat.add_mod]

theorem arc_eq_range {n x : Nat} : arc n x n = (List.range n).rotate x := by
  apply List.ext_getElem
  · simp [arc]
  · intro i h1 h2
    rw [List.getElem_rotate]
    simp [arc]
    rw [Nat.add_comm]

theorem walkTo_arc {n stop : Nat} (hs : stop < n) :
    ∀ (k fuel x : Nat), k < fuel → (x + k) % n = stop → (∀ j, j < k → (x + j) % n ≠ stop) →
      walkTo n stop fuel x = ok (arc n x k) := by
  intro k
  induction k with
  | zero =>
    intro fuel x hf he _
    obtain ⟨f, rfl⟩ := Nat.exists_eq_add_of_lt hf
    rw [show 0 + f + 1 = f + 1 by omega]
    unfold walkTo
    rw [if_pos (by simpa using he)]
    rfl
  | succ k ih =>
    intro fuel x hf he hne
    obtain ⟨f, rfl⟩ : ∃ f, fuel = f + 1 := ⟨fuel - 1, by omega⟩
    unfold walkTo
    rw [if_neg (by simpa using hne 0 (by omega)), ih f (x + 1) (by omega)
      (by rw [← he]; congr 1; omega)
      (by intro j hj; have := hne (j + 1) (by omega); rwa [show x + 1 + j = x + (j + 1) by omega]), ok_bind, arc_succ]

/-- The number of positions from `x` to `stop`. -/
def gap (n x stop : Nat) : Nat := if x ≤ stop then stop - x else stop + n - x

theorem walkTo_eq {n stop x : Nat} (hs : stop < n) (hx : x ≤ n) :
    walkTo n stop n x = ok (arc n x (gap n x stop)) ∧ (x + gap n x stop) % n = stop := by
  have h1 : (x + gap n x stop) % n = stop := by
    unfold gap
    split
    · rw [Nat.add_sub_cancel' ‹_›]; exact Nat.mod_eq_of_lt hs
    · rw [show x + (stop + n - x) = stop + n by omega, Nat.add_mod_right]; exact Nat.mod_eq_of_lt hs
  refine ⟨walkTo_arc hs _ _ _ ?_ h1 ?_, h1⟩
  · unfold gap; split <;> omega
  · intro j hj
    unfold gap at hj
    split at hj
    · rw [Nat.mod_eq_of_lt (by omega)]; omega
    · by_cases hc : x + j < n
      · rw [Nat.mod_eq_of_lt hc]; omega
      · rw [show x + j = (x + j - n) + n by omega, Nat.add_mod_right, Nat.mod_eq_of_lt (by omega)]; omega

/-- What a position of the polygon contributes to the boundary. -/
def block (vs es : List Nat) (cut : Nat → Option SidePoint) (i : Nat) : List (Nat × Nat) :=
  match cut i with
  | none => [(vs.getD i 0, es.getD i 0)]
  | some s => [(vs.getD i 0, s.before), (s.w, s.after)]

theorem boundary_eq {vs es : List Nat} {cut : Nat → Option SidePoint} {n : Nat} (hv : vs.length = n) (he : es.length = n) :
    boundary vs es cut = (List.range n).flatMap (block vs es cut) := by
  have : (vs.zip es).zipIdx = (List.range n).map fun i => ((vs.getD i 0, es.getD i 0), i) := by
    apply List.ext_getElem
    · simp [hv, he]
    · intro i h1 h2
      have h3 : i < n := by simpa using h2
      have h4 : i < vs.length := by omega
      have h5 : i < es.length := by omega
      simp [h4, h5]
  unfold boundary
  rw [this, List.flatMap_map]
  rfl

theorem flatMap_rotate {β γ : Type} (f : β → List γ) (l : List β) (k : Nat) :
    ((l.rotate k).flatMap f).IsRotated (l.flatMap f) := by
  rw [List.rotate_eq_drop_append_take_mod, List.flatMap_append]
  refine (List.isRotated_append).trans ?_
  rw [← List.flatMap_append, List.take_append_drop]

theorem boundary_arc {vs es : List Nat} {cut : Nat → Option SidePoint} {n : Nat} (hv : vs.length = n)
    (he : es.length = n) (x : Nat) : ((arc n x n).flatMap (block vs es cut)).IsRotated (boundary vs es cut) := by
  rw [boundary_eq hv he, arc_eq_range]
  exact flatMap_rotate _ _ _

/-- Positions without a point on the side contribute one column each. -/
theorem flatMap_plain {vs es : List Nat} {cut : Nat → Option SidePoint} {l : List Nat}
    (h : ∀ i ∈ l, cut i = none) :
    l.flatMap (block vs es cut) = l.map fun i => (vs.getD i 0, es.getD i 0) := by
  induction l with
  | nil => rfl
  | cons i l ih =>
    rw [List.flatMap_cons, ih (fun j hj => h j (List.mem_cons_of_mem _ hj)), List.map_cons]
    unfold block
    rw [h i List.mem_cons_self]
    rfl

theorem mem_arc {n x k i : Nat} (h : i ∈ arc n x k) : ∃ j, j < k ∧ i = (x + j) % n := by
  unfold arc at h
  obtain ⟨j, hj, rfl⟩ := List.mem_map.1 h
  exact ⟨j, List.mem_range.1 hj, rfl⟩

/-- The way from `x` does not meet `stop`. -/
theorem arc_gap_ne {n x stop i : Nat} (hs : stop < n) (hx : x ≤ n) (h : i ∈ arc n x (gap n x stop)) : i ≠ stop := by
  obtain ⟨j, hj, rfl⟩ := mem_arc h
  unfold gap at hj
  split at hj
  · rw [Nat.mod_eq_of_lt (by omega)]; omega
  · by_cases hc : x + j < n
    · rw [Nat.mod_eq_of_lt hc]; omega
    · rw [show x + j = (x + j - n) + n by omega, Nat.add_mod_right, Nat.mod_eq_of_lt (by omega)]; omega

/-- The way from after `k` to `stop` does not meet `k`. -/
theorem arc_gap_ne' {n k stop i : Nat} (hs : stop < n) (hk : k < n) (h : i ∈ arc n (k + 1) (gap n (k + 1) stop)) :
    i ≠ k := by
  obtain ⟨j, hj, rfl⟩ := mem_arc h
  unfold gap at hj
  split at hj
  · rw [Nat.mod_eq_of_lt (by omega)]; omega
  · by_cases hc : k + 1 + j < n
    · rw [Nat.mod_eq_of_lt hc]; omega
    · rw [show k + 1 + j = (k + 1 + j - n) + n by omega, Nat.add_mod_right, Nat.mod_eq_of_lt (by omega)]; omega

namespace ChordEnd

/-- The point that an end puts on a side. -/
def cutAt : ChordEnd → Nat → Option SidePoint
  | corner _, _ => none
  | onEdge k w hs dir, i =>
      if i = k then some ⟨w, hs.getD (if dir then 0 else 1) 0, hs.getD (if dir then 1 else 0) 0⟩ else none

/-- The column of the half after an end. -/
def tail : ChordEnd → List (Nat × Nat)
  | corner _ => []
  | onEdge _ w hs dir => [(w, hs.getD (if dir then 1 else 0) 0)]

/-- The column of the half before an end. -/
def head (vs : List Nat) : ChordEnd → List (Nat × Nat)
  | corner _ => []
  | onEdge k _ hs dir => [(vs.getD k 0, hs.getD (if dir then 0 else 1) 0)]

/-- The end is a position of the polygon; halves and new vertex exist. -/
def Ok (n n0 n1 : Nat) : ChordEnd → Prop
  | corner v => v < n
  | onEdge k w hs _ => k < n ∧ w < n0 ∧ hs.length = 2 ∧ ∀ h ∈ hs, h < n1

/-- Two ends at different places. -/
def Apart : ChordEnd → ChordEnd → Prop
  | corner a, corner b => a ≠ b
  | onEdge a _ _ _, onEdge b _ _ _ => a ≠ b
  | _, _ => True

theorem Ok.stop_lt {n n0 n1 : Nat} {a : ChordEnd} (h : a.Ok n n0 n1) : a.stop < n := by
  cases a with
  | corner v => exact h
  | onEdge k w hs dir => exact h.1

theorem Ok.start_le {n n0 n1 : Nat} {a : ChordEnd} (h : a.Ok n n0 n1) : a.start ≤ n := by
  cases a with
  | corner v => exact Nat.le_of_lt h
  | onEdge k w hs dir => exact h.1

theorem cutAt_ne {a : ChordEnd} {i : Nat} (h : i ≠ a.stop) : a.cutAt i = none := by
  cases a with
  | corner v => rfl
  | onEdge k w hs dir => exact if_neg h

end ChordEnd

theorem cutAt_leaving {n n0 n1 stop i : Nat} {a : ChordEnd} (hstop : stop < n) (ha : a.Ok n n0 n1)
    (h : i ∈ arc n a.start (gap n a.start stop)) : a.cutAt i = none := by
  cases a with
  | corner v => rfl
  | onEdge k w hs dir => exact if_neg (arc_gap_ne' hstop ha.1 h)

/-- The columns of one part of the polygon, without the new edge. -/
def part (vs es : List Nat) (n : Nat) (a b : ChordEnd) : List (Nat × Nat) :=
  a.tail ++ ((arc n a.start (gap n a.start b.stop)).map (fun i => (vs.getD i 0, es.getD i 0)) ++ b.head vs)

/-- The points of both ends on the sides. -/
def bothCuts (a b : ChordEnd) (i : Nat) : Option SidePoint := (a.cutAt i).orElse fun _ => b.cutAt i

theorem parts_whole {vs es : List Nat} {n n0 n1 : Nat} {a b : ChordEnd} (hv : vs.length = n) (he : es.length = n)
    (ha : a.Ok n n0 n1) (hb : b.Ok n n0 n1) (hab : a.Apart b) :
    (part vs es n a b ++ part vs es n b a).IsRotated (boundary vs es (bothCuts a b)) := by
  have hp := ha.stop_lt
  have hq := hb.stop_lt
  obtain ⟨-, w1⟩ := walkTo_eq hq ha.start_le
  obtain ⟨-, w2⟩ := walkTo_eq hp hb.start_le
  have n1 : ∀ i ∈ arc n a.start (gap n a.start b.stop), bothCuts a b i = none := by
    intro i hi
    unfold bothCuts
    rw [cutAt_leaving hq ha hi, ChordEnd.cutAt_ne (arc_gap_ne hq ha.start_le hi)]
    rfl
  have n2 : ∀ i ∈ arc n b.start (gap n b.start a.stop), bothCuts a b i = none := by
    intro i hi
    unfold bothCuts
    rw [cutAt_leaving hp hb hi, ChordEnd.cutAt_ne (arc_gap_ne hp hb.start_le hi)]
    rfl
  unfold part
  rw [← flatMap_plain n1, ← flatMap_plain n2]
  cases a with
  | corner p =>
    cases b with
    | corner q =>
      simp only [ChordEnd.tail, ChordEnd.head, ChordEnd.start, ChordEnd.stop, List.nil_append, List.append_nil] at *
      rw [← List.flatMap_append, arc_append (by rw [w1, Nat.mod_eq_of_lt hq])]
      have : gap n p q + gap n q p = n := by
        have : p ≠ q := hab
        unfold gap; split <;> split <;> omega
      rw [this]
      exact boundary_arc hv he p
    | onEdge q w hs dir =>
      simp only [ChordEnd.tail, ChordEnd.head, ChordEnd.start, ChordEnd.stop, List.nil_append, List.append_nil] at *
      have hbl : [(vs.getD q 0, hs.getD (if dir = true then 0 else 1) 0), (w, hs.getD (if dir = true then 1 else 0) 0)] =
          [q].flatMap (block vs es (bothCuts (.corner p) (.onEdge q w hs dir))) := by
        simp [block, bothCuts, ChordEnd.cutAt]
      have hq1 : arc n q 1 = [q] := by simp [arc, Nat.mod_eq_of_lt hq]
      rw [List.append_assoc, ← List.append_assoc [_] [_]]
      rw [show [(vs.getD q 0, hs.getD (if dir = true then 0 else 1) 0)] ++ [(w, hs.getD (if dir = true then 1 else 0) 0)]
        = [(vs.getD q 0, hs.getD (if dir = true then 0 else 1) 0), (w, hs.getD (if dir = true then 1 else 0) 0)] from rfl,
        hbl, ← List.flatMap_append, ← List.flatMap_append, ← hq1, arc_append (y := q + 1) rfl,
        arc_append (by rw [w1, Nat.mod_eq_of_lt hq])]
      have : gap n p q + (1 + gap n (q + 1) p) = n := by
        unfold gap; split <;> split <;> omega
      rw [this]
      exact boundary_arc hv he p
  | onEdge p w hs dir =>
    have hp' : p < n := hp
    have hn : n = n - 1 + 1 := by omega
    have hp1 : arc n (p + (n - 1) + 1) 1 = [p] := by
      simp only [arc, List.range_one, List.map_cons, List.map_nil, Nat.add_zero]
      rw [show p + (n - 1) + 1 = p + n by omega, Nat.add_mod_right, Nat.mod_eq_of_lt hp']
    cases b with
    | corner q =>
      simp only [ChordEnd.tail, ChordEnd.head, ChordEnd.start, ChordEnd.stop, List.nil_append, List.append_nil] at *
      rw [List.append_assoc, ← List.append_assoc (List.flatMap _ _), ← List.flatMap_append,
        arc_append (by rw [w1, Nat.mod_eq_of_lt hq])]
      have hbl : [(vs.getD p 0, hs.getD (if dir = true then 0 else 1) 0)] ++ [(w, hs.getD (if dir = true then 1 else 0) 0)] =
          [p].flatMap (block vs es (bothCuts (.onEdge p w hs dir) (.corner q))) := by
        simp [block, bothCuts, ChordEnd.cutAt]
      have hk : gap n (p + 1) q + gap n q p = n - 1 := by
        unfold gap; split <;> split <;> omega
      rw [hk]
      refine (List.isRotated_append).trans ?_
      rw [List.append_assoc, hbl, ← List.flatMap_append, ← hp1, arc_append (by congr 1; omega), ← hn]
      exact boundary_arc hv he (p + 1)
    | onEdge q w' hs' dir' =>
      have hpq : p ≠ q := hab
      simp only [ChordEnd.tail, ChordEnd.head, ChordEnd.start, ChordEnd.stop] at *
      have hbp : [(vs.getD p 0, hs.getD (if dir = true then 0 else 1) 0)] ++ [(w, hs.getD (if dir = true then 1 else 0) 0)] =
          [p].flatMap (block vs es (bothCuts (.onEdge p w hs dir) (.onEdge q w' hs' dir'))) := by
        simp [block, bothCuts, ChordEnd.cutAt]
      have hbq : [(vs.getD q 0, hs'.getD (if dir' = true then 0 else 1) 0)] ++
          [(w', hs'.getD (if dir' = true then 1 else 0) 0)] =
          [q].flatMap (block vs es (bothCuts (.onEdge p w hs dir) (.onEdge q w' hs' dir'))) := by
        simp [block, bothCuts, ChordEnd.cutAt, hpq.symm]
      have hq1 : arc n q 1 = [q] := by simp [arc, Nat.mod_eq_of_lt hq]
      have hk : gap n (p + 1) q + (1 + gap n (q + 1) p) = n - 1 := by
        unfold gap; split <;> split <;> omega
      rw [List.append_assoc]
      refine (List.isRotated_append).trans ?_
      have : ∀ (A B C D E F : List (Nat × Nat)), ((A ++ B) ++ (C ++ (D ++ E))) ++ F = (A ++ ((B ++ C) ++ D)) ++ (E ++ F) := by
        intros; simp
      rw [this, hbp, hbq, ← List.flatMap_append, ← List.flatMap_append, ← List.flatMap_append, ← hq1,
        arc_append (y := q + 1) rfl, arc_append (by rw [w1, Nat.mod_eq_of_lt hq]), hk, ← hp1,
        arc_append (by congr 1; omega), ← hn]
      exact boundary_arc hv he (p + 1)

theorem part_head {vs es : List Nat} {n n0 n1 : Nat} {a b : ChordEnd} (ha : a.Ok n n0 n1) (hab : a.Apart b) :
    ((part vs es n a b).map Prod.fst).head? = some (a.vertex (vs.getD a.stop 0)) := by
  cases a with
  | onEdge k w hs dir => rfl
  | corner p =>
    have hp : p < n := ha
    show (((arc n p (gap n p b.stop)).map (fun i => (vs.getD i 0, es.getD i 0)) ++ b.head vs).map Prod.fst).head? =
      some (vs.getD p 0)
    cases hg : gap n p b.stop with
    | succ k => rw [arc_succ]; simp [Nat.mod_eq_of_lt hp]
    | zero =>
      have hpq : p = b.stop := by
        unfold gap at hg
        by_cases h : p ≤ b.stop
        · rw [if_pos h] at hg; omega
        · rw [if_neg h] at hg; omega
      cases b with
      | corner q => exact absurd hpq hab
      | onEdge q w hs dir =>
        have hpq' : p = q := hpq
        subst hpq'
        rfl

theorem mapRes_pure {β γ : Type} (f : β → Res γ) (h : β → γ) : ∀ l : List β, (∀ x ∈ l, f x = ok (h x)) →
    mapRes f l = ok (l.map h)
  | [], _ => rfl
  | x :: l, hl => by
      simp only [mapRes]
      rw [hl x List.mem_cons_self, ok_bind, mapRes_pure f h l (fun y hy => hl y (List.mem_cons_of_mem _ hy)), ok_bind]
      rfl

theorem arc_lt {n x k i : Nat} (hn : 0 < n) (h : i ∈ arc n x k) : i < n := by
  obtain ⟨j, -, rfl⟩ := mem_arc h
  exact Nat.mod_lt _ hn

theorem entry_getD {m : Mesh α} (h : m.WF) {l : Lst} {c i : Nat} {r : List Nat} (hr : m.row l c = ok r)
    (hi : i < r.length) : m.entry l c i = ok (r.getD i 0) :=
  entry_of_row h hr (by simp [hi])

theorem part_fst (vs es : List Nat) (n : Nat) (a b : ChordEnd) :
    a.fresh ++ ((arc n a.start (gap n a.start b.stop)).map (vs.getD · 0) ++ vs.getD b.stop 0 :: b.fresh) =
      (part vs es n a b).map Prod.fst ++ [b.vertex (vs.getD b.stop 0)] := by
  have h : (arc n a.start (gap n a.start b.stop)).map (vs.getD · 0) =
      ((arc n a.start (gap n a.start b.stop)).map (fun i => (vs.getD i 0, es.getD i 0))).map Prod.fst := by
    rw [List.map_map]; rfl
  unfold part
  rw [h]
  cases a <;> cases b <;>
    simp [ChordEnd.fresh, ChordEnd.tail, ChordEnd.head, ChordEnd.vertex, ChordEnd.stop]

/-- The edges of the halves. -/
def ChordEnd.tailEdges : ChordEnd → List Nat
  | corner _ => []
  | onEdge _ _ hs dir => [hs.getD (if dir then 1 else 0) 0]

/-- The edges of the halves. -/
def ChordEnd.headEdges : ChordEnd → List Nat
  | corner _ => []
  | onEdge _ _ hs dir => [hs.getD (if dir then 0 else 1) 0]

theorem part_snd (vs es : List Nat) (n : Nat) (a b : ChordEnd) (e : Nat) :
    a.tailEdges ++ ((arc n a.start (gap n a.start b.stop)).map (es.getD · 0) ++ (b.headEdges ++ [e])) =
      (part vs es n a b).map Prod.snd ++ [e] := by
  have h : (arc n a.start (gap n a.start b.stop)).map (es.getD · 0) =
      ((arc n a.start (gap n a.start b.stop)).map (fun i => (vs.getD i 0, es.getD i 0))).map Prod.snd := by
    rw [List.map_map]; rfl
  unfold part
  rw [h]
  cases a <;> cases b <;>
    simp [ChordEnd.tail, ChordEnd.head, ChordEnd.tailEdges, ChordEnd.headEdges]

theorem ChordEnd.Ok.after_eq {n n0 n1 : Nat} {a : ChordEnd} (h : a.Ok n n0 n1) : a.after = ok a.tailEdges := by
  cases a with
  | corner v => rfl
  | onEdge k w hs dir =>
    obtain ⟨-, -, hl, -⟩ := h
    obtain ⟨x, y, rfl⟩ := List.length_eq_two.1 hl
    cases dir <;> rfl

theorem ChordEnd.Ok.before_eq {n n0 n1 : Nat} {a : ChordEnd} (h : a.Ok n n0 n1) : a.before = ok a.headEdges := by
  cases a with
  | corner v => rfl
  | onEdge k w hs dir =>
    obtain ⟨-, -, hl, -⟩ := h
    obtain ⟨x, y, rfl⟩ := List.length_eq_two.1 hl
    cases dir <;> rfl

theorem part_lt {vs es : List Nat} {n n0 n1 : Nat} {a b : ChordEnd} (hv : vs.length = n) (he : es.length = n)
    (hv0 : ∀ v ∈ vs, v < n0) (he1 : ∀ e ∈ es, e < n1) (ha : a.Ok n n0 n1) (hb : b.Ok n n0 n1) :
    ∀ p ∈ part vs es n a b, p.1 < n0 ∧ p.2 < n1 := by
  have gv : ∀ i, i < n → vs.getD i 0 < n0 := by
    intro i hi
    have : i < vs.length := by omega
    simp only [List.getD_eq_getElem?_getD, List.getElem?_eq_getElem this, Option.getD_some]
    exact hv0 _ (List.getElem_mem this)
  have ge : ∀ i, i < n → es.getD i 0 < n1 := by
    intro i hi
    have : i < es.length := by omega
    simp only [List.getD_eq_getElem?_getD, List.getElem?_eq_getElem this, Option.getD_some]
    exact he1 _ (List.getElem_mem this)
  have gh : ∀ (hs : List Nat) (i : Nat), hs.length = 2 → (∀ h ∈ hs, h < n1) → i < 2 → hs.getD i 0 < n1 := by
    intro hs i hl hh hi
    have : i < hs.length := by omega
    simp only [List.getD_eq_getElem?_getD, List.getElem?_eq_getElem this, Option.getD_some]
    exact hh _ (List.getElem_mem this)
  intro p hp
  unfold part at hp
  rw [List.mem_append, List.mem_append] at hp
  rcases hp with hp | hp | hp
  · cases a with
    | corner v => simp [ChordEnd.tail] at hp
    | onEdge k w hs dir =>
      simp only [ChordEnd.tail, List.mem_singleton] at hp
      subst hp
      exact ⟨ha.2.1, gh hs _ ha.2.2.1 ha.2.2.2 (by split <;> omega)⟩
  · obtain ⟨i, hi, rfl⟩ := List.mem_map.1 hp
    have := arc_lt (by have := ha.stop_lt; omega) hi
    exact ⟨gv i this, ge i this⟩
  · cases b with
    | corner v => simp [ChordEnd.head] at hp
    | onEdge k w hs dir =>
      simp only [ChordEnd.head, List.mem_singleton] at hp
      subst hp
      exact ⟨gv _ hb.1, gh hs _ hb.2.2.1 hb.2.2.2 (by split <;> omega)⟩

variable {K : Type} [Field K] [LinearOrder K] [IsStrictOrderedRing K]

theorem vertex_lt {vs : List Nat} {n n0 n1 : Nat} {a : ChordEnd} (hv : vs.length = n)
    (hv0 : ∀ v ∈ vs, v < n0) (ha : a.Ok n n0 n1) : a.vertex (vs.getD a.stop 0) < n0 := by
  cases a with
  | onEdge k w hs dir => exact ha.2.1
  | corner v =>
    have h : v < vs.length := by have : v < n := ha; omega
    simp only [ChordEnd.vertex, ChordEnd.stop, List.getD_eq_getElem?_getD, List.getElem?_eq_getElem h, Option.getD_some]
    exact hv0 _ (List.getElem_mem h)

/-- What the functions do to a polygon: the checks, then the cut. -/
theorem splitChord_eq (G : GeoCfg K) (sqrt : K → K) (tol2D : K) {m : Mesh K} (h : m.WF) {c n : Nat} {a b : ChordEnd}
    (rotation : M3 K) (translation : V3 K) {vs es : List Nat} (hvs : m.row .vert2 c = ok vs)
    (hes : m.row .edge2 c = ok es) (hv : vs.length = n) (he : es.length = n) (hv0 : ∀ v ∈ vs, v < m.num .d0)
    (he1 : ∀ e ∈ es, e < m.num .d1) (ha : a.Ok n (m.num .d0) (m.num .d1)) (hb : b.Ok n (m.num .d0) (m.num .d1))
    {p q : Nat} (hp : a.vertex (vs.getD a.stop 0) = p) (hq : b.vertex (vs.getD b.stop 0) = q)
    {X Y : List (Nat × Nat)} (hX : part vs es n a b = X) (hY : part vs es n b a = Y) :
    ∃ m', IsCutAlong m m' c p q X Y ∧
      G.splitChord sqrt tol2D m c n a b rotation translation = (do
        let good0 ← G.isAreaPositive sqrt tol2D m (X.map Prod.fst ++ [q]) rotation translation
        if !good0 then ok (m, none)
        else do
          let good1 ← G.isAreaPositive sqrt tol2D m (Y.map Prod.fst ++ [p]) rotation translation
          if !good1 then ok (m, none)
          else do
            let u ← m.point q
            let v ← m.point p
            if G.isValueZero ((v.sub u).norm sqrt) G.tol1D then ok (m, none)
            else ok (m', some (m.num .d1, [m.num .d2, m.num .d2 + 1]))) := by
  have hn : 0 < n := by have := ha.stop_lt; omega
  have ht : c < m.num .d2 := lt_of_row hvs
  have hp0 : p < m.num .d0 := by rw [← hp]; exact vertex_lt hv hv0 ha
  have hq0 : q < m.num .d0 := by rw [← hq]; exact vertex_lt hv hv0 hb
  have hXlt := part_lt hv he hv0 he1 ha hb
  have hYlt := part_lt hv he hv0 he1 hb ha
  have x1 := part_fst vs es n a b
  have x2 := part_snd vs es n a b (m.num .d1)
  have y1 := part_fst vs es n b a
  have y2 := part_snd vs es n b a (m.num .d1)
  rw [hX] at hXlt x1 x2
  rw [hY] at hYlt y1 y2
  rw [hq] at x1
  rw [hp] at y1
  have hzip : ∀ (X : List (Nat × Nat)) (q e : Nat), (X.map Prod.fst ++ [q]).zip (X.map Prod.snd ++ [e]) = X ++ [(q, e)] := by
    intro X q e
    rw [List.zip_append (by simp), List.zip_map', List.map_congr_left (g := id) (by intro a _; rfl), List.map_id]
    rfl
  obtain ⟨m1, hK, wf1, n1, nd, xN, aN, kN, rN, hrun⟩ := newEdge_spec h q p hq0 hp0
  obtain ⟨⟨z1, k1⟩, s1, hrun⟩ := bind_eq_ok.1 hrun
  obtain ⟨z2, s2, hrun⟩ := bind_eq_ok.1 hrun
  obtain ⟨z3, s3, hrun⟩ := bind_eq_ok.1 hrun
  obtain ⟨z4, s4, hrun⟩ := bind_eq_ok.1 hrun
  obtain ⟨z5, s5, hrun⟩ := bind_eq_ok.1 hrun
  cases hrun
  have te := (hK.rows .edge2 c ht).trans hes
  have hz : ∀ s ∈ [X ++ [(q, m.num .d1)], Y ++ [(p, m.num .d1)]],
      ∀ p ∈ s, p.1 < m1.num .d0 ∧ p.2 < m1.num .d1 := by
    rw [nd _ (by simp), n1]
    intro s hs u hu
    simp only [List.mem_cons, List.not_mem_nil, or_false] at hs
    rcases hs with rfl | rfl <;> rw [List.mem_append, List.mem_singleton] at hu
    · rcases hu with hu | rfl
      · have := hXlt u hu; omega
      · constructor <;> (dsimp only; omega)
    · rcases hu with hu | rfl
      · have := hYlt u hu; omega
      · constructor <;> (dsimp only; omega)
  obtain ⟨y, hy, wfy, others, parent, sub, rep0, rep⟩ := c39_split_partial m1 wf1 c
    (by rw [nd _ (by simp)]; exact ht) [X ++ [(q, m.num .d1)], Y ++ [(p, m.num .d1)]] hz
  have n2 : m1.num .d2 = m.num .d2 := nd _ (by simp)
  have hl : ((List.range 2).map (m1.num .d2 + ·)) = [m.num .d2, m.num .d2 + 1] := by
    rw [n2]; rfl
  change m1.splitCell2D c _ = ok (y, (List.range 2).map (m1.num .d2 + ·)) at hy
  rw [hl] at hy
  have hn' : y.num = (fun d => if d = .d2 then m.num .d2 + 2 else m1.num d) := by
    funext d
    by_cases hd : d = .d2
    · subst hd; rw [others.num2, n2]; rfl
    · rw [others.num d hd, if_neg hd]
  have hvr : vresize ([] : List Nat) 2 Lst.nb12.fillOne = [Lst.nb12.fillOne, Lst.nb12.fillOne] := by
    decide
  have hNr := rep _ _ (rN.trans (by rw [hvr]))
  obtain ⟨z, hz1, wfz, zn, zc, zx, za, zm, zo, zu, zr, zN⟩ := insertTwo_spec wfy hNr
    (a := m.num .d2 + 1) (b := m.num .d2) (by rw [hn']; simp) (by rw [hn']; simp)
  obtain ⟨z', hz2, hz3⟩ := bind_eq_ok.1 hz1
  refine ⟨z, ?_, ?_⟩
  rotate_left
  · unfold GeoCfg.splitChord
    rw [if_neg (by omega), (walkTo_eq hb.stop_lt ha.start_le).1, ok_bind, (walkTo_eq ha.stop_lt hb.start_le).1, ok_bind,
      mapRes_pure (m.entry .vert2 c) (vs.getD · 0) _ (fun i hi => entry_getD h hvs (by rw [hv]; exact arc_lt hn hi)), ok_bind,
      entry_getD h hvs (by rw [hv]; exact hb.stop_lt), ok_bind, x1, hq]
    congr 1
    funext good0
    split
    · rfl
    · rw [mapRes_pure (m.entry .vert2 c) (vs.getD · 0) _ (fun i hi => entry_getD h hvs (by rw [hv]; exact arc_lt hn hi)),
        ok_bind, entry_getD h hvs (by rw [hv]; exact ha.stop_lt), ok_bind, y1, hp]
      congr 1
      funext good1
      split
      · rfl
      · congr 1
        funext u
        congr 1
        funext v
        split
        · rfl
        · rw [s1, ok_bind]
          dsimp only
          rw [s2, ok_bind, s3, ok_bind, s4, ok_bind, s5, ok_bind, ha.after_eq, ok_bind,
            mapRes_pure (m1.entry .edge2 c) (es.getD · 0) _
              (fun i hi => entry_getD wf1 te (by rw [he]; exact arc_lt hn hi)), ok_bind, hb.before_eq, ok_bind,
            hb.after_eq, ok_bind, mapRes_pure (m1.entry .edge2 c) (es.getD · 0) _
              (fun i hi => entry_getD wf1 te (by rw [he]; exact arc_lt hn hi)), ok_bind, ha.before_eq, ok_bind,
            x2, y2, hzip, hzip, hy, ok_bind]
          dsimp only
          rw [show vget [m.num .d2, m.num .d2 + 1] 1 = ok (m.num .d2 + 1) from rfl, ok_bind, hz2,
            ok_bind, show vget [m.num .d2, m.num .d2 + 1] 0 = ok (m.num .d2) from rfl, ok_bind,
            hz3, ok_bind]
  have s0 := sub 0 _ rfl
  have s1 := sub 1 _ rfl
  rw [n2] at s0 s1
  have lt1 : ∀ {i}, i < m.num .d1 → i < m1.num .d1 := by intro i hi; omega
  have lt0 : ∀ {i}, i < m.num .d0 → i < m1.num .d0 := by
    intro i hi; rw [nd _ (by simp)]; exact hi
  have lt2 : ∀ {i}, i < m.num .d2 → i < m1.num .d2 := by
    intro i hi; rw [nd _ (by simp)]; exact hi
  have hlt1 : m.num .d1 < m1.num .d1 := by omega
  have k2 : ∀ {P : Nat → Prop}, P 0 → P 1 → ∀ k, k < 2 → P k := by
    intro P h0 h1 k hk
    interval_cases k
    · exact h0
    · exact h1
  constructor
  · exact wfz
  · rw [zn, others.num _ (by simp), n1]
  · rw [zn, hn']; simp
  · intro d h1 h2; rw [zn, others.num d h2, nd d h1]
  · intro i hi; rw [zc, others.coordinates i (lt0 hi), hK.coordinates i hi]
  · intro i hi; rw [zx, others.extremes i (lt1 hi), hK.extremes i hi]
  · rw [zx, others.extremes _ hlt1, xN]
  · rw [za, others.active .d1 _ hlt1 (by simp), aN]
  · rw [zm, others.marker .d1 _ hlt1, kN]
  · exact zN
  · rw [zr _ _ (by simp), show m.num .d2 = m.num .d2 + 0 from rfl, s0.vertices]; simp
  · rw [zr _ _ (by simp), show m.num .d2 = m.num .d2 + 0 from rfl, s0.edges]; simp
  · rw [zr _ _ (by simp), s1.vertices]; simp
  · rw [zr _ _ (by simp), s1.edges]; simp
  · exact k2 (by rw [za]; exact s0.active) (by rw [za]; exact s1.active)
  · exact k2 (by rw [zm, ← hK.marker .d2 c ht]; exact s0.marker) (by rw [zm, ← hK.marker .d2 c ht]; exact s1.marker)
  · exact k2 (by rw [zo]; exact s0.original) (by rw [zo]; exact s1.original)
  · exact k2 (by rw [zu]; exact s0.updated) (by rw [zu]; exact s1.updated)
  · rw [za]; exact parent.inactive
  · obtain ⟨old, new, h1, h2, h3⟩ := parent.updated
    refine ⟨old, new, ?_, by rw [zu]; exact h2, ?_⟩
    · rw [← h1]; exact (hK.updated .d2 c ht).symm
    · intro j
      rw [h3 j, n2]
      simp only [List.length_cons, List.length_nil]
      constructor
      · rintro (h | h)
        · exact Or.inl h
        · right; omega
      · rintro (h | h | h)
        · exact Or.inl h
        · right; omega
        · right; omega
  · intro d i hi hne
    rw [za, others.active d i (lt_of_lt_of_le hi (hK.num d)) hne, hK.active d i hi]
  · intro d i hi
    rw [zm, others.marker d i (lt_of_lt_of_le hi (hK.num d)), hK.marker d i hi]
  · intro i hi hne
    rw [zu, others.updated .d2 i (lt2 hi) (by simpa using hne), hK.updated .d2 i hi]
  · intro i hi
    rw [zo, others.original .d2 i (lt2 hi), hK.original i hi]
  · intro l i hi h1 h2
    rw [zr _ _ (by simp [h2]), others.rows l i (lt_of_lt_of_le hi (hK.num _)) h1 h2, hK.rows l i hi]
  · intro x r hx hr
    have hx' : x ≠ m.num .d1 := by omega
    rw [zr _ _ (by simpa using hx'), rep x r ((hK.rows .nb12 x hx).trans hr)]
    congr 1
    apply List.map_congr_left
    intro u _
    by_cases hu : u = c
    · rw [if_pos hu, if_pos hu, n2]
      simp only [List.map_cons, List.map_nil, AMesh.heir_cons, List.map_append, List.mem_append, List.mem_singleton, hx', or_false]
      rfl
    · rw [if_neg hu, if_neg hu]
  · intro x r hr
    have hx : x < m.num .d0 := lt_of_row hr
    rw [zr _ _ (by simp), rep0 x r ((hK.rows .nb02 x hx).trans hr)]
    congr 1
    apply List.map_congr_left
    intro u _
    by_cases hu : u = c
    · rw [if_pos hu, if_pos hu, n2]
      simp only [List.map_cons, List.map_nil, AMesh.heir_cons, List.map_append]
      rfl
    · rw [if_neg hu, if_neg hu]

theorem bind_bind {β γ δ : Type} (x : Res β) (f : β → Res γ) (g : γ → Res δ) :
    ((x >>= f) >>= g) = (x >>= fun a => f a >>= g) := by
  cases x <;> rfl

/-- The function with a new vertex at the end is an instance of the common shape. -/
theorem splitNewVertexTo_chord (G : GeoCfg K) (sqrt : K → K) (tol2D : K) (m : Mesh K) (c n i j : Nat) (rotation : M3 K)
    (translation : V3 K) (w : Nat) (hs : List Nat) (dir : Bool) :
    G.splitNewVertexTo sqrt tol2D m c n i j rotation translation w hs dir =
      G.splitChord sqrt tol2D m c n (.corner i) (.onEdge j w hs dir) rotation translation := by
  unfold GeoCfg.splitNewVertexTo GeoCfg.splitChord
  simp only [ChordEnd.start, ChordEnd.stop, ChordEnd.fresh, ChordEnd.after, ChordEnd.before, ChordEnd.vertex,
    List.nil_append, List.cons_append, ok_bind, bind_bind]

theorem boundary_none (vs es : List Nat) : boundary vs es (fun _ => none) = vs.zip es := by
  have : ∀ (l : List (Nat × Nat)) (k : Nat), (l.zipIdx k).flatMap (fun p => [p.1]) = l := by
    intro l
    induction l with
    | nil => intro k; rfl
    | cons a l ih => intro k; rw [List.zipIdx_cons, List.flatMap_cons, ih]; rfl
  exact this _ 0

/-- The outcome of the functions. -/
theorem splitChord_spec (G : GeoCfg K) (sqrt : K → K) (tol2D : K) {m : Mesh K} (h : m.WF) {c n : Nat} {a b : ChordEnd}
    (rotation : M3 K) (translation : V3 K) {vs es : List Nat} (hvs : m.row .vert2 c = ok vs)
    (hes : m.row .edge2 c = ok es) (hv : vs.length = n) (he : es.length = n) (hv0 : ∀ v ∈ vs, v < m.num .d0)
    (he1 : ∀ e ∈ es, e < m.num .d1) (ha : a.Ok n (m.num .d0) (m.num .d1)) (hb : b.Ok n (m.num .d0) (m.num .d1))
    (hab : a.Apart b) (hba : b.Apart a) {p q : Nat} (hp : a.vertex (vs.getD a.stop 0) = p)
    (hq : b.vertex (vs.getD b.stop 0) = q) {cut : Nat → Option SidePoint} (hcut : bothCuts a b = cut) :
    ∃ X Y m', Halves (boundary vs es cut) X Y p q ∧ IsCutAlong m m' c p q X Y ∧
      ChordOutcome G sqrt tol2D m m' rotation translation p q X Y
        (G.splitChord sqrt tol2D m c n a b rotation translation) := by
  obtain ⟨m', h1, h2⟩ := splitChord_eq G sqrt tol2D h rotation translation hvs hes hv he hv0 he1 ha hb hp hq rfl rfl
  refine ⟨part vs es n a b, part vs es n b a, m', ⟨?_, ?_, ?_⟩, h1, ?_⟩
  · rw [← hcut]; exact parts_whole hv he ha hb hab
  · rw [part_head ha hab, hp]
  · rw [part_head hb hba, hq]
  obtain ⟨u, hu⟩ : ∃ u, m.point q = ok u := point_exists h (by rw [← hq]; exact vertex_lt hv hv0 hb)
  obtain ⟨v, hv⟩ : ∃ v, m.point p = ok v := point_exists h (by rw [← hp]; exact vertex_lt hv hv0 ha)
  rw [h2]
  constructor
  · intro g0 g1 hlen
    rw [g0, ok_bind]
    simp only [Bool.not_true, Bool.false_eq_true, if_false]
    rw [g1, ok_bind]
    simp only [Bool.not_true, Bool.false_eq_true, if_false]
    rw [hu, ok_bind, hv, ok_bind, if_neg (by rw [hlen u v hu hv]; simp)]
  · intro m'' r hrun
    obtain ⟨good0, e0, hrun⟩ := bind_eq_ok.1 hrun
    cases good0 with
    | false => left; simp at hrun; exact ⟨hrun.2.symm, hrun.1.symm, Or.inl e0⟩
    | true =>
      simp only [Bool.not_true, Bool.false_eq_true, if_false] at hrun
      obtain ⟨good1, e1, hrun⟩ := bind_eq_ok.1 hrun
      cases good1 with
      | false => left; simp at hrun; exact ⟨hrun.2.symm, hrun.1.symm, Or.inr (Or.inl e1)⟩
      | true =>
        simp only [Bool.not_true, Bool.false_eq_true, if_false] at hrun
        rw [hu, ok_bind, hv, ok_bind] at hrun
        split at hrun
        · rename_i hz
          left; simp at hrun; exact ⟨hrun.2.symm, hrun.1.symm, Or.inr (Or.inr ⟨u, v, hu, hv, hz⟩)⟩
        · right
          cases hrun
          exact ⟨rfl, rfl⟩
  · rintro ⟨b0, g0⟩ ⟨b1, g1⟩
    rw [g0, ok_bind]
    cases b0 with
    | false => exact ⟨_, rfl⟩
    | true =>
      simp only [Bool.not_true, Bool.false_eq_true, if_false]
      rw [g1, ok_bind]
      cases b1 with
      | false => exact ⟨_, rfl⟩
      | true =>
        simp only [Bool.not_true, Bool.false_eq_true, if_false]
        rw [hu, ok_bind, hv, ok_bind]
        split <;> exact ⟨_, rfl⟩

end Verif
