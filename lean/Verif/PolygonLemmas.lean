import Verif.PolygonModel
import Verif.MapLemmas
import Verif.PolygonSpec
import Mathlib.Data.List.Rotate
import Mathlib.Tactic.Linarith
import Mathlib.Tactic.NormNum

namespace Verif

open Res

variable {K : Type} [Field K]

theorem foldRes_index {σ α : Type} {f : σ → Nat → Res σ} {g : σ → α → σ} (L : List α)
    (h : ∀ s i (hi : i < L.length), f s i = ok (g s L[i])) (s : σ) :
    foldRes f s (List.range L.length) = ok (L.foldl g s) := by
  have gen : ∀ (k : Nat) (s : σ) (M : List α), L.drop k = M →
      foldRes f s (List.range' k M.length) = ok (M.foldl g s) := by
    intro k s M
    induction M generalizing k s with
    | nil => intro _; rfl
    | cons a M ih =>
      intro hM
      have hk : k < L.length := by
        by_contra hk
        rw [List.drop_eq_nil_of_le (by omega)] at hM
        simp at hM
      rw [List.drop_eq_getElem_cons hk] at hM
      injection hM with h1 h2
      simp only [List.length_cons, List.range'_succ, foldRes_cons, h s k hk, ok_bind, h1,
        List.foldl_cons]
      exact ih (k + 1) _ h2
  have := gen 0 s L (by simp)
  rwa [← List.range_eq_range'] at this

/-- Consecutive pairs of vertices, the last one with the first. -/
def cycPairs {α : Type} (vs : List α) : List (α × α) := vs.zip (vs.rotate 1)

/-- Sum over the edges of a polygon. -/
def closedSum {α : Type} (c : α → α → K) (vs : List α) : K :=
  ((cycPairs vs).map fun p => c p.1 p.2).sum

/-- Sum over the edges of an open path. -/
def pathSum {α : Type} (c : α → α → K) : List α → K
  | [] => 0
  | [_] => 0
  | a :: b :: l => c a b + pathSum c (b :: l)

theorem cycPairs_length {α : Type} (vs : List α) : (cycPairs vs).length = vs.length := by
  simp [cycPairs]

theorem cycPairs_getElem {α : Type} (vs : List α) (i : Nat) (h : i < (cycPairs vs).length) :
    (cycPairs vs)[i] = (vs[i]'(by simpa [cycPairs] using h),
      vs[(i + 1) % vs.length]'(Nat.mod_lt _ (by simp [cycPairs] at h; omega))) := by
  simp [cycPairs, List.getElem_rotate]

theorem zip_pathSum {α : Type} (c : α → α → K) (a w : α) (t : List α) :
    (((a :: t).zip (t ++ [w])).map fun p => c p.1 p.2).sum = pathSum c (a :: (t ++ [w])) := by
  induction t generalizing a with
  | nil => simp [pathSum]
  | cons b t ih =>
    simp only [List.cons_append, List.zip_cons_cons, List.map_cons, List.sum_cons, pathSum]
    rw [ih b]

theorem closedSum_cons {α : Type} (c : α → α → K) (a : α) (t : List α) :
    closedSum c (a :: t) = pathSum c (a :: (t ++ [a])) := by
  rw [closedSum, cycPairs, ← zip_pathSum]
  simp

theorem pathSum_append {α : Type} (c : α → α → K) (l : List α) (a : α) (m : List α) :
    pathSum c (l ++ a :: m) = pathSum c (l ++ [a]) + pathSum c (a :: m) := by
  induction l with
  | nil => simp [pathSum]
  | cons b l ih =>
    cases l with
    | nil => simp [pathSum]
    | cons d l =>
      simp only [List.cons_append, pathSum] at ih ⊢
      rw [ih]; ring

theorem closedSum_rotate_one {α : Type} (c : α → α → K) (vs : List α) :
    closedSum c (vs.rotate 1) = closedSum c vs := by
  match vs with
  | [] => rfl
  | [a] => simp
  | a :: b :: t =>
    have : (a :: b :: t).rotate 1 = b :: (t ++ [a]) := by simp
    rw [this, closedSum_cons, closedSum_cons]
    simp only [List.cons_append, List.append_assoc, List.nil_append, pathSum]
    have := pathSum_append c (b :: t) a [b]
    simp only [List.cons_append, pathSum] at this
    rw [this]; ring

theorem closedSum_rotate {α : Type} (c : α → α → K) (vs : List α) (k : Nat) :
    closedSum c (vs.rotate k) = closedSum c vs := by
  induction k with
  | zero => simp
  | succ k ih => rw [← ih, ← List.rotate_rotate, closedSum_rotate_one]

theorem pathSum_add {α : Type} (c d : α → α → K) (l : List α) :
    pathSum (fun a b => c a b + d a b) l = pathSum c l + pathSum d l := by
  induction l with
  | nil => simp [pathSum]
  | cons a l ih =>
    cases l with
    | nil => simp [pathSum]
    | cons b l => simp only [pathSum] at ih ⊢; rw [ih]; ring

theorem pathSum_mul {α : Type} (k : K) (c : α → α → K) (l : List α) :
    pathSum (fun a b => k * c a b) l = k * pathSum c l := by
  induction l with
  | nil => simp [pathSum]
  | cons a l ih =>
    cases l with
    | nil => simp [pathSum]
    | cons b l => simp only [pathSum] at ih ⊢; rw [ih]; ring

theorem pathSum_telescope {α : Type} (f : α → K) (a z : α) (l : List α) :
    pathSum (fun a b => f b - f a) (a :: (l ++ [z])) = f z - f a := by
  induction l generalizing a with
  | nil => simp [pathSum]
  | cons b l ih => simp only [List.cons_append, pathSum] at ih ⊢; rw [ih]; ring

theorem closedSum_add {α : Type} (c d : α → α → K) (vs : List α) :
    closedSum (fun a b => c a b + d a b) vs = closedSum c vs + closedSum d vs := by
  cases vs with
  | nil => simp [closedSum, cycPairs]
  | cons a t => simp only [closedSum_cons, pathSum_add]

theorem closedSum_mul {α : Type} (k : K) (c : α → α → K) (vs : List α) :
    closedSum (fun a b => k * c a b) vs = k * closedSum c vs := by
  cases vs with
  | nil => simp [closedSum, cycPairs]
  | cons a t => simp only [closedSum_cons, pathSum_mul]

theorem closedSum_telescope {α : Type} (f : α → K) (vs : List α) :
    closedSum (fun a b => f b - f a) vs = 0 := by
  cases vs with
  | nil => simp [closedSum, cycPairs]
  | cons a t => rw [closedSum_cons, pathSum_telescope, sub_self]

theorem closedSum_sub {α : Type} (c d : α → α → K) (vs : List α) :
    closedSum (fun a b => c a b - d a b) vs = closedSum c vs - closedSum d vs := by
  have := closedSum_add (fun a b => c a b - d a b) d vs
  simp only [sub_add_cancel] at this
  rw [this]; ring

/-- Two edge functions that differ by an exact term have the same closed sum. -/
theorem closedSum_congr_exact {α : Type} (c d : α → α → K) (f : α → K)
    (h : ∀ a b, c a b = d a b + (f b - f a)) (vs : List α) : closedSum c vs = closedSum d vs := by
  have : c = fun a b => d a b + (f b - f a) := by funext a b; exact h a b
  rw [this, closedSum_add, closedSum_telescope, add_zero]

theorem closedSum_map {α β : Type} (c : β → β → K) (g : α → β) (vs : List α) :
    closedSum c (vs.map g) = closedSum (fun a b => c (g a) (g b)) vs := by
  simp only [closedSum, cycPairs, ← List.map_rotate, List.zip_map, List.map_map]
  rfl

theorem pathSum_reverse {α : Type} (c : α → α → K) (l : List α) :
    pathSum c l.reverse = pathSum (fun a b => c b a) l := by
  induction l with
  | nil => rfl
  | cons a l ih =>
    cases l with
    | nil => rfl
    | cons b l =>
      simp only [List.reverse_cons, List.append_assoc, List.cons_append, List.nil_append] at ih ⊢
      rw [pathSum_append, ih]
      simp only [pathSum]; ring

/-- The polygon run backwards from the same first vertex. -/
theorem closedSum_reverse {α : Type} (c : α → α → K) (a : α) (t : List α) :
    closedSum c (a :: t.reverse) = closedSum (fun a b => c b a) (a :: t) := by
  rw [closedSum_cons, closedSum_cons, ← pathSum_reverse]
  simp

theorem foldl_add_sum {α : Type} (f : α → K) (l : List α) (s : K) :
    l.foldl (fun s a => s + f a) s = s + (l.map f).sum := by
  induction l generalizing s with
  | nil => simp
  | cons a l ih => simp only [List.foldl_cons, ih, List.map_cons, List.sum_cons]; ring

/-- Twice the signed area of the triangle of the origin and an edge. -/
def crossZ (a b : V3 K) : K := a.x * b.y - b.x * a.y

theorem dotL_zip {α : Type} (f g : α → K) (a b : List α) :
    dotL (a.map f) (b.map g) = ((a.zip b).map fun p => f p.1 * g p.2).sum := by
  simp only [dotL, List.zipWith_map, List.zip, List.map_zipWith]

theorem dotL_zip' {α : Type} (f g : α → K) (a b : List α) :
    dotL (b.map f) (a.map g) = ((a.zip b).map fun p => f p.2 * g p.1).sum := by
  rw [dotL_zip]
  induction a generalizing b with
  | nil => simp
  | cons x a ih =>
    cases b with
    | nil => simp
    | cons y b => simp [ih b]

theorem sum_map_sub {α : Type} (f g : α → K) (l : List α) :
    (l.map f).sum - (l.map g).sum = (l.map fun a => f a - g a).sum := by
  induction l with
  | nil => simp
  | cons a l ih => simp only [List.map_cons, List.sum_cons, ← ih]; ring

section ordered
variable [LinearOrder K] [IsStrictOrderedRing K]

/-- All vertices are in the plane `z = 0` up to the tolerance. -/
def GeoCfg.Flat (g : GeoCfg K) (vs : List (V3 K)) : Prop := ∀ p ∈ vs, |p.z| ≤ g.tolerance1D

theorem GeoCfg.polygonArea_eq (g : GeoCfg K) (vs : List (V3 K)) (h2 : 2 < vs.length)
    (hf : g.Flat vs) : g.polygonArea vs = ok (1 / 2 * closedSum crossZ vs) := by
  have hall : (vs.all fun p => decide (|p.z| ≤ g.tolerance1D)) = true := by
    simpa [List.all_eq_true, GeoCfg.Flat] using hf
  match vs, h2 with
  | v :: t, h2 =>
    have h0 : vget (v :: t) 0 = ok v := rfl
    simp only [GeoCfg.polygonArea, GeoCfg.pointsAre2D, assert_true (show 0 < (v :: t).length by simp),
      ok_bind, hall, true_and, assert_true h2, h0]
    congr 2
    have e1 : ((v :: t).map V3.x ++ [v.x]).take (v :: t).length = (v :: t).map V3.x := by
      rw [List.take_append_of_le_length (by simp), List.take_of_length_le (by simp)]
    have e2 : ((v :: t).map V3.y ++ [v.y]).take (v :: t).length = (v :: t).map V3.y := by
      rw [List.take_append_of_le_length (by simp), List.take_of_length_le (by simp)]
    have e3 : (((v :: t).map V3.x ++ [v.x]).drop 1).take (v :: t).length =
        ((v :: t).rotate 1).map V3.x := by
      simp only [List.map_cons, List.cons_append, List.drop_succ_cons, List.drop_zero]
      rw [List.take_of_length_le (by simp)]
      simp
    have e4 : (((v :: t).map V3.y ++ [v.y]).drop 1).take (v :: t).length =
        ((v :: t).rotate 1).map V3.y := by
      simp only [List.map_cons, List.cons_append, List.drop_succ_cons, List.drop_zero]
      rw [List.take_of_length_le (by simp)]
      simp
    rw [e1, e2, e3, e4, dotL_zip, dotL_zip', sum_map_sub]
    rfl

theorem GeoCfg.polygonArea_abort (g : GeoCfg K) (vs : List (V3 K))
    (h : ¬(2 < vs.length ∧ g.Flat vs)) : g.polygonArea vs = abort := by
  by_cases h0 : 0 < vs.length
  · have : ¬((vs.all fun p => decide (|p.z| ≤ g.tolerance1D)) = true ∧ 2 < vs.length) := by
      intro hc
      apply h
      refine ⟨hc.2, ?_⟩
      have := hc.1
      simpa [List.all_eq_true, GeoCfg.Flat] using this
    simp only [GeoCfg.polygonArea, GeoCfg.pointsAre2D, assert_true h0, ok_bind, assert_false this]
    rfl
  · simp only [GeoCfg.polygonArea, GeoCfg.pointsAre2D, assert_false h0]
    rfl

end ordered

/-! ### Index lists -/

theorem foldRes_vset {α : Type} (h : Nat → α) (l : List α) (a k : Nat) (hk : a + k ≤ l.length) :
    foldRes (fun l i => vset l i (h i)) l (List.range' a k) =
      ok (l.take a ++ (List.range' a k).map h ++ l.drop (a + k)) := by
  induction k generalizing a l with
  | zero => simp
  | succ k ih =>
    have ha : a < l.length := by omega
    rw [List.range'_succ, foldRes_cons, vset_of_lt _ ha, ok_bind, ih _ _ (by simp; omega)]
    congr 1
    have e1 : (l.set a (h a)).take (a + 1) = l.take a ++ [h a] := by
      rw [List.take_add_one, List.take_set_of_le (le_refl a)]
      simp [ha]
    have e2 : (l.set a (h a)).drop (a + 1 + k) = l.drop (a + (k + 1)) := by
      rw [List.drop_set_of_lt (by omega)]; congr 1; omega
    rw [e1, e2]
    simp

theorem changePolygonOrientation_eq (n : Nat) (hn : 0 < n) :
    changePolygonOrientation n = ok (0 :: (List.range' 1 (n - 1)).map (n - ·)) := by
  have h0 : vset (List.replicate n 0) 0 0 = ok (List.replicate n 0) := by
    rw [vset_of_lt _ (by simpa using hn)]
    congr 1
    apply List.ext_getElem
    · simp
    · intro i h1 h2
      simp [List.getElem_set]
  simp only [changePolygonOrientation, h0, ok_bind]
  rw [foldRes_vset (fun i => n - i) _ 1 (n - 1) (by simp; omega)]
  congr 1
  have e1 : (List.replicate n 0).take 1 = [0] := by
    rw [List.take_replicate, show min 1 n = 1 by omega]; rfl
  rw [e1, List.drop_eq_nil_of_le (by simp; omega)]
  simp

theorem extractPoints_eq {α : Type} (ps : List α) (l : List Nat) (qs : List α)
    (h : l.map (fun i => ps[i]?) = qs.map some) : extractPoints ps l = ok qs := by
  induction l generalizing qs with
  | nil =>
    cases qs with
    | nil => rfl
    | cons q qs => simp at h
  | cons i l ih =>
    cases qs with
    | nil => simp at h
    | cons q qs =>
      simp only [List.map_cons, List.cons.injEq] at h
      have hv : vget ps i = ok q := vget_eq_ok.2 h.1
      simp only [extractPoints, hv, ok_bind, ih qs h.2]

theorem extractPoints_reversed {α : Type} (v : α) (t : List α) :
    (do let l ← changePolygonOrientation (v :: t).length
        extractPoints (v :: t) l) = ok (v :: t.reverse) := by
  rw [changePolygonOrientation_eq _ (by simp), ok_bind]
  apply extractPoints_eq
  simp only [List.map_cons, List.length_cons, List.getElem?_cons_zero, List.cons.injEq, true_and,
    Nat.add_sub_cancel]
  apply List.ext_getElem
  · simp
  · intro i h1 h2
    simp only [List.length_map, List.length_range'] at h1
    simp only [List.getElem_map, List.getElem_range', one_mul]
    rw [show t.length + 1 - (1 + i) = (t.length - 1 - i) + 1 by omega, List.getElem?_cons_succ,
      List.getElem?_eq_getElem (by omega), List.getElem_reverse]

/-- Triangles one after the other. -/
def flat3 (L : List (Nat × Nat × Nat)) : List Nat := L.flatMap fun t => [t.1, t.2.1, t.2.2]

theorem flat3_length (L : List (Nat × Nat × Nat)) : (flat3 L).length = 3 * L.length := by
  induction L with
  | nil => rfl
  | cons t L ih =>
    simp only [flat3, List.flatMap_cons, List.length_append, List.length_cons] at ih ⊢
    rw [ih]; simp; omega

theorem flat3_get (L : List (Nat × Nat × Nat)) (i : Nat) (hi : i < L.length) :
    vget (flat3 L) (3 * i) = ok L[i].1 ∧ vget (flat3 L) (3 * i + 1) = ok L[i].2.1 ∧
      vget (flat3 L) (3 * i + 2) = ok L[i].2.2 := by
  induction L generalizing i with
  | nil => simp at hi
  | cons t L ih =>
    have e : flat3 (t :: L) = t.1 :: t.2.1 :: t.2.2 :: flat3 L := rfl
    cases i with
    | zero => rw [e]; exact ⟨rfl, rfl, rfl⟩
    | succ i =>
      obtain ⟨h1, h2, h3⟩ := ih i (by simpa using hi)
      rw [vget_eq_ok] at h1 h2 h3
      rw [e, vget_eq_ok, vget_eq_ok, vget_eq_ok]
      have : ∀ j, (t.1 :: t.2.1 :: t.2.2 :: flat3 L)[j + 3]? = (flat3 L)[j]? := fun _ => rfl
      rw [show 3 * (i + 1) = 3 * i + 3 by omega, show 3 * i + 3 + 1 = (3 * i + 1) + 3 by omega,
        show 3 * i + 3 + 2 = (3 * i + 2) + 3 by omega, this, this, this]
      exact ⟨h1, h2, h3⟩

theorem mapRes_range_eq {α β : Type} (f : Nat → Res α) (g : β → α) (L : List β)
    (h : ∀ i (hi : i < L.length), f i = ok (g L[i])) :
    mapRes f (List.range L.length) = ok (L.map g) := by
  have gen : ∀ (k : Nat) (M : List β), L.drop k = M →
      mapRes f (List.range' k M.length) = ok (M.map g) := by
    intro k M
    induction M generalizing k with
    | nil => intro _; rfl
    | cons a M ih =>
      intro hM
      have hk : k < L.length := by
        by_contra hk
        rw [List.drop_eq_nil_of_le (by omega)] at hM
        simp at hM
      rw [List.drop_eq_getElem_cons hk] at hM
      injection hM with h1 h2
      simp only [List.length_cons, List.range'_succ, mapRes, h k hk, ok_bind, h1, List.map_cons,
        ih (k + 1) h2]
  have := gen 0 L (by simp)
  rwa [← List.range_eq_range'] at this

theorem extractTriangulationPoints_eq {α : Type} (ps : List α) (L : List (Nat × Nat × Nat))
    (c : Nat × Nat × Nat → α × α × α)
    (h : ∀ t ∈ L, ps[t.1]? = some (c t).1 ∧ ps[t.2.1]? = some (c t).2.1 ∧
      ps[t.2.2]? = some (c t).2.2) :
    extractTriangulationPoints ps (flat3 L) = ok (L.map c) := by
  rw [extractTriangulationPoints, flat3_length, Nat.mul_div_cancel_left _ (by omega)]
  apply mapRes_range_eq
  intro i hi
  obtain ⟨g1, g2, g3⟩ := flat3_get L i hi
  obtain ⟨h1, h2, h3⟩ := h _ (List.getElem_mem hi)
  rw [← vget_eq_ok] at h1 h2 h3
  simp only [g1, g2, g3, ok_bind, h1, h2, h3]

theorem extractTriangulationPointsByInternalPoint_eq {α : Type} (ps : List α) (p : α)
    (L : List (Nat × Nat × Nat)) (c : Nat × Nat × Nat → α × α)
    (h : ∀ t ∈ L, ps[t.2.1]? = some (c t).1 ∧ ps[t.2.2]? = some (c t).2) :
    extractTriangulationPointsByInternalPoint ps p (flat3 L) =
      ok (L.map fun t => (p, (c t).1, (c t).2)) := by
  rw [extractTriangulationPointsByInternalPoint, flat3_length,
    Nat.mul_div_cancel_left _ (by omega)]
  apply mapRes_range_eq
  intro i hi
  obtain ⟨g1, g2, g3⟩ := flat3_get L i hi
  obtain ⟨h2, h3⟩ := h _ (List.getElem_mem hi)
  rw [← vget_eq_ok] at h2 h3
  simp only [g2, g3, ok_bind, h2, h3]

section triangulations
variable [LinearOrder K] [IsStrictOrderedRing K]

/-- The `i`-th triangle of the fan is left out. -/
def GeoCfg.fanSkips (g : GeoCfg K) (sqrt : K → K) (vs : List (V3 K)) (i : Nat) : Bool :=
  match vs[0]?, vs[i + 1]?, vs[i + 2]? with
  | some a, some b, some c => g.pointIsAligned sqrt a b c
  | _, _, _ => false

/-- The triangles of the fan that are kept. -/
def GeoCfg.fanKept (g : GeoCfg K) (sqrt : K → K) (vs : List (V3 K)) (l : List Nat) :
    List (Nat × Nat × Nat) :=
  (l.filter fun i => !g.fanSkips sqrt vs i).map fun i => (0, i + 1, i + 2)

theorem flat3_append (L M : List (Nat × Nat × Nat)) : flat3 (L ++ M) = flat3 L ++ flat3 M := by
  simp [flat3]

theorem GeoCfg.fanLoop_eq (g : GeoCfg K) (sqrt : K → K) (vs : List (V3 K)) (h3 : 2 < vs.length)
    (k v : Nat) (acc : List Nat) (hk : v + k = vs.length) (hv : v + 2 ≤ vs.length) :
    g.fanLoop sqrt vs (List.range' v k) acc =
      ok (acc ++ flat3 (g.fanKept sqrt vs (List.range' v (k - 2)))) := by
  induction k generalizing v acc with
  | zero => omega
  | succ k ih =>
    rw [List.range'_succ, GeoCfg.fanLoop]
    by_cases h2 : v + 2 = vs.length
    · have : (v + 2) % vs.length = 0 := by rw [h2, Nat.mod_self]
      have hk2 : k + 1 - 2 = 0 := by omega
      simp [this, hk2, GeoCfg.fanKept, flat3]
    · have e1 : (v + 1) % vs.length = v + 1 := Nat.mod_eq_of_lt (by omega)
      have e2 : (v + 2) % vs.length = v + 2 := Nat.mod_eq_of_lt (by omega)
      have ek : k + 1 - 2 = (k - 2) + 1 := by omega
      have l0 : 0 < vs.length := by omega
      have l1 : v + 1 < vs.length := by omega
      have l2 : v + 2 < vs.length := by omega
      have hs : g.fanSkips sqrt vs v = g.pointIsAligned sqrt vs[0] vs[v + 1] vs[v + 2] := by
        simp only [GeoCfg.fanSkips, List.getElem?_eq_getElem l0, List.getElem?_eq_getElem l1,
          List.getElem?_eq_getElem l2]
      simp only [e1, e2, Nat.add_eq_zero_iff, OfNat.ofNat_ne_zero, and_false, if_false,
        vget_of_lt l0, vget_of_lt l1, vget_of_lt l2, ok_bind, ek, List.range'_succ,
        GeoCfg.fanKept, List.filter_cons, hs]
      cases hal : g.pointIsAligned sqrt vs[0] vs[v + 1] vs[v + 2] with
      | true =>
        simp only [if_true]
        rw [ih (v + 1) acc (by omega) (by omega)]
        simp [GeoCfg.fanKept]
      | false =>
        simp only [Bool.false_eq_true, if_false, Bool.not_false, if_true]
        rw [ih (v + 1) _ (by omega) (by omega)]
        simp [GeoCfg.fanKept, flat3]

theorem GeoCfg.triangulationByFirstVertex_eq (g : GeoCfg K) (sqrt : K → K) (vs : List (V3 K))
    (h3 : 2 < vs.length) : g.triangulationByFirstVertex sqrt vs =
      ok (flat3 (g.fanKept sqrt vs (List.range (vs.length - 2)))) := by
  have := g.fanLoop_eq sqrt vs h3 vs.length 0 [] (by omega) (by omega)
  rw [← List.range_eq_range', ← List.range_eq_range', List.nil_append] at this
  have h0 : (flat3 (g.fanKept sqrt vs (List.range (vs.length - 2)))).length % 3 = 0 := by
    rw [flat3_length]; omega
  simp only [GeoCfg.triangulationByFirstVertex, assert_true h3, ok_bind, this, assert_true h0]

theorem zip_range_pathSum {α : Type} (c : α → α → K) (t : List α) :
    ((t.zip t.tail).map fun p => c p.1 p.2).sum = pathSum c t := by
  induction t with
  | nil => rfl
  | cons a t ih =>
    cases t with
    | nil => rfl
    | cons b t =>
      simp only [List.tail_cons, List.zip_cons_cons, List.map_cons, List.sum_cons, pathSum] at ih ⊢
      rw [ih]

theorem closedSum_area2 (c : V3 K) (vs : List (V3 K)) :
    closedSum (area2 c) vs = closedSum crossZ vs := by
  apply closedSum_congr_exact _ _ (fun p => p.x * c.y - c.x * p.y)
  intro a b
  simp only [area2, crossZ]; ring

theorem closedSum_fan (v : V3 K) (t : List (V3 K)) :
    closedSum crossZ (v :: t) = pathSum (area2 v) t := by
  rw [← closedSum_area2 v, closedSum_cons]
  cases t with
  | nil => simp [pathSum, area2]
  | cons b t =>
    simp only [List.cons_append, pathSum]
    have h0 : area2 v v b = 0 := by simp [area2]
    rw [h0, zero_add, ← List.cons_append]
    rcases List.eq_nil_or_concat (b :: t) with h | ⟨l, z, h⟩
    · simp at h
    · rw [h, List.concat_eq_append, List.append_assoc, List.singleton_append, pathSum_append]
      simp [pathSum, area2]

theorem sum_filter_zero {α : Type} (p : α → Bool) (f : α → K) (l : List α)
    (h : ∀ a ∈ l, p a = false → f a = 0) : ((l.filter p).map f).sum = (l.map f).sum := by
  induction l with
  | nil => rfl
  | cons a l ih =>
    rw [List.filter_cons]
    have := ih fun b hb => h b (List.mem_cons_of_mem _ hb)
    cases hp : p a with
    | true => simp [this]
    | false => simp [this, h a List.mem_cons_self hp]

/-- The corners of the triangle with the given indices. -/
def corners (vs : List (V3 K)) (t : Nat × Nat × Nat) : V3 K × V3 K × V3 K :=
  (vs.getD t.1 V3.zero, vs.getD t.2.1 V3.zero, vs.getD t.2.2 V3.zero)

theorem getElem?_getD {α : Type} (vs : List α) (i : Nat) (d : α) (h : i < vs.length) :
    vs[i]? = some (vs.getD i d) := by
  rw [List.getElem?_eq_getElem h]; simp [h]

theorem fan_points (g : GeoCfg K) (sqrt : K → K) (vs : List (V3 K)) (h3 : 2 < vs.length) :
    extractTriangulationPoints vs (flat3 (g.fanKept sqrt vs (List.range (vs.length - 2)))) =
      ok ((g.fanKept sqrt vs (List.range (vs.length - 2))).map (corners vs)) := by
  apply extractTriangulationPoints_eq
  intro t ht
  simp only [GeoCfg.fanKept, List.mem_map, List.mem_filter, List.mem_range] at ht
  obtain ⟨i, ⟨hi, _⟩, rfl⟩ := ht
  exact ⟨getElem?_getD _ _ _ (by simp; omega), getElem?_getD _ _ _ (by simp; omega),
    getElem?_getD _ _ _ (by simp; omega)⟩

theorem fan_all (vs : List (V3 K)) (h3 : 2 < vs.length) :
    ((List.range (vs.length - 2)).map fun i =>
      area2 (vs.getD 0 V3.zero) (vs.getD (i + 1) V3.zero) (vs.getD (i + 2) V3.zero)).sum =
      closedSum crossZ vs := by
  match vs, h3 with
  | v :: t, h3 =>
    rw [closedSum_fan, ← zip_range_pathSum]
    congr 1
    apply List.ext_getElem
    · simp
    · intro i h1 h2
      simp only [List.length_map, List.length_range, List.length_cons] at h1
      have a1 : i < t.length := by omega
      have a2 : i + 1 < t.length := by omega
      simp [a1, a2]

/-- The triangles around an inner point. -/
def wheel (n : Nat) : List (Nat × Nat × Nat) :=
  (List.range n).map fun v => (n, v, (v + 1) % n)

theorem triangulationByInternalPoint_eq (vs : List (V3 K)) (h3 : 2 < vs.length) :
    triangulationByInternalPoint vs = ok (flat3 (wheel vs.length)) := by
  have gen : ∀ (n k v : Nat) (l : List Nat), v + k = n → l.length = 3 * n →
      l.take (3 * v) = flat3 ((List.range v).map fun v => (n, v, (v + 1) % n)) →
      foldRes (fun l v => do
        let l ← vset l (3 * v) n
        let l ← vset l (3 * v + 1) v
        vset l (3 * v + 2) ((v + 1) % n)) l (List.range' v k) = ok (flat3 (wheel n)) := by
    intro n k
    induction k with
    | zero =>
      intro v l hv hl hi
      have : v = n := by omega
      subst this
      simp only [List.range'_zero, foldRes_nil]
      rw [← hl, List.take_length] at hi
      rw [hi]; rfl
    | succ k ih =>
      intro v l hv hl hi
      rw [List.range'_succ, foldRes_cons]
      simp only [vset_of_lt _ (show 3 * v < l.length by omega), ok_bind]
      rw [vset_of_lt _ (by simp; omega), ok_bind, vset_of_lt _ (by simp; omega), ok_bind]
      apply ih (v + 1) _ (by omega) (by simp [hl])
      rw [List.range_succ, List.map_append, flat3_append, ← hi]
      apply List.ext_getElem
      · simp [flat3]; omega
      · intro i h1 h2
        have hi3 : i < 3 * v + 3 := by
          simp only [List.length_take] at h1; omega
        by_cases c : i < 3 * v
        · rw [List.getElem_append_left (by simp; omega)]
          simp [List.getElem_set, show 3 * v ≠ i by omega, show 3 * v + 1 ≠ i by omega,
            show 3 * v + 2 ≠ i by omega]
        · rw [List.getElem_append_right (by simp; omega)]
          have hl3 : min (3 * v) l.length = 3 * v := by omega
          rcases (show i = 3 * v ∨ i = 3 * v + 1 ∨ i = 3 * v + 2 by omega) with h | h | h <;>
            subst h <;> simp [hl3, flat3, List.getElem_set]
  simp only [triangulationByInternalPoint, assert_true h3, ok_bind, List.range_eq_range']
  exact gen _ _ 0 _ (by omega) (by simp) rfl

theorem wheel_points (vs : List (V3 K)) (p : V3 K) :
    extractTriangulationPointsByInternalPoint vs p (flat3 (wheel vs.length)) =
      ok ((cycPairs vs).map fun e => (p, e.1, e.2)) := by
  rw [extractTriangulationPointsByInternalPoint_eq vs p (wheel vs.length)
    (fun t => (vs.getD t.2.1 V3.zero, vs.getD t.2.2 V3.zero))]
  · congr 1
    apply List.ext_getElem
    · simp [wheel, cycPairs]
    · intro i h1 h2
      simp only [wheel, List.length_map, List.length_range] at h1
      have h0 : (i + 1) % vs.length < vs.length := Nat.mod_lt _ (by omega)
      rw [List.getElem_map, List.getElem_map, cycPairs_getElem]
      simp [wheel, h1, h0]
  · intro t ht
    simp only [wheel, List.mem_map, List.mem_range] at ht
    obtain ⟨i, hi, rfl⟩ := ht
    exact ⟨getElem?_getD _ _ _ hi, getElem?_getD _ _ _ (Nat.mod_lt _ (by omega))⟩

end triangulations

section vectors
variable [LinearOrder K] [IsStrictOrderedRing K]

theorem foldl_V3_add {α : Type} (f : α → V3 K) (l : List α) (s : V3 K) :
    l.foldl (fun s a => s.add (f a)) s =
      ⟨s.x + (l.map fun a => (f a).x).sum, s.y + (l.map fun a => (f a).y).sum,
       s.z + (l.map fun a => (f a).z).sum⟩ := by
  induction l generalizing s with
  | nil => simp
  | cons a l ih =>
    rw [List.foldl_cons, ih]
    simp only [V3.add, List.map_cons, List.sum_cons]
    ext <;> ring

/-- Twice the area vector of a polygon. -/
def areaVector (vs : List (V3 K)) : V3 K :=
  ⟨closedSum (fun a b => (a.cross b).x) vs, closedSum (fun a b => (a.cross b).y) vs,
   closedSum (fun a b => (a.cross b).z) vs⟩

theorem polygonArea3D_eq (sqrt : K → K) (vs : List (V3 K)) (h2 : 2 < vs.length) :
    polygonArea3D sqrt vs = ok (1 / 2 * (areaVector vs).norm sqrt) := by
  have hf := foldRes_index (f := fun (s : V3 K) v => do
      let a ← vget vs v
      let b ← vget vs ((v + 1) % vs.length)
      ok (s.add (a.cross b))) (g := fun s p => s.add (p.1.cross p.2)) (cycPairs vs)
    (by
      intro s i hi
      have h1 : i < vs.length := by rwa [cycPairs_length] at hi
      have h0 : (i + 1) % vs.length < vs.length := Nat.mod_lt _ (by omega)
      simp only [vget_of_lt h1, vget_of_lt h0, ok_bind, cycPairs_getElem]) V3.zero
  rw [cycPairs_length] at hf
  simp only [polygonArea3D, assert_true h2, ok_bind, hf]
  congr 3
  rw [foldl_V3_add]
  simp only [V3.zero, zero_add]
  rfl

theorem polygonArea3D_abort (sqrt : K → K) (vs : List (V3 K)) (h2 : ¬2 < vs.length) :
    polygonArea3D sqrt vs = abort := by
  simp only [polygonArea3D, assert_false h2]; rfl

theorem areaVector_rotate (vs : List (V3 K)) (k : Nat) :
    areaVector (vs.rotate k) = areaVector vs := by
  simp only [areaVector, closedSum_rotate]

theorem areaVector_shift (d : V3 K) (vs : List (V3 K)) :
    areaVector (vs.map d.shift) = areaVector vs := by
  simp only [areaVector, closedSum_map]
  congr 1
  · apply closedSum_congr_exact _ _ (fun p => d.y * p.z - d.z * p.y)
    intro a b; simp only [V3.shift, V3.cross]; ring
  · apply closedSum_congr_exact _ _ (fun p => d.z * p.x - d.x * p.z)
    intro a b; simp only [V3.shift, V3.cross]; ring
  · apply closedSum_congr_exact _ _ (fun p => d.x * p.y - d.y * p.x)
    intro a b; simp only [V3.shift, V3.cross]; ring

theorem closedSum_neg {α : Type} (c : α → α → K) (vs : List α) :
    closedSum (fun a b => -c a b) vs = -closedSum c vs := by
  have := closedSum_mul (-1) c vs
  simpa using this

theorem closedSum_reverse_anti {α : Type} (c : α → α → K) (h : ∀ a b, c b a = -c a b) (v : α)
    (t : List α) : closedSum c (v :: t.reverse) = -closedSum c (v :: t) := by
  rw [closedSum_reverse, ← closedSum_neg]
  congr 1
  funext a b
  exact h a b

theorem areaVector_reverse (v : V3 K) (t : List (V3 K)) :
    areaVector (v :: t.reverse) = V3.smul (-1) (areaVector (v :: t)) := by
  have h := fun (c : V3 K → V3 K → K) (h : ∀ a b, c b a = -c a b) =>
    closedSum_reverse_anti c h v t
  simp only [areaVector, V3.smul, neg_one_mul]
  congr 1
  · exact h _ fun a b => by simp only [V3.cross]; ring
  · exact h _ fun a b => by simp only [V3.cross]; ring
  · exact h _ fun a b => by simp only [V3.cross]; ring

theorem norm_neg_one (sqrt : K → K) (v : V3 K) : (V3.smul (-1) v).norm sqrt = v.norm sqrt := by
  simp only [V3.norm, V3.dot, V3.smul]
  congr 1; ring

theorem closedSum_zero {α : Type} (c : α → α → K) (vs : List α)
    (h : ∀ a ∈ vs, ∀ b ∈ vs, c a b = 0) : closedSum c vs = 0 := by
  apply List.sum_eq_zero
  intro x hx
  simp only [List.mem_map] at hx
  obtain ⟨p, hp, rfl⟩ := hx
  have := List.of_mem_zip (show (p.1, p.2) ∈ vs.zip (vs.rotate 1) from hp)
  exact h _ this.1 _ (List.mem_rotate.1 this.2)

theorem areaVector_flat (vs : List (V3 K)) (h : ∀ v ∈ vs, v.z = 0) :
    areaVector vs = ⟨0, 0, closedSum crossZ vs⟩ := by
  have e : closedSum (fun a b => (V3.cross a b).z) vs = closedSum crossZ vs := by
    congr 1; funext a b; simp only [V3.cross, crossZ]; ring
  rw [areaVector, e, closedSum_zero, closedSum_zero]
  · intro a ha b hb; simp [V3.cross, h a ha, h b hb]
  · intro a ha b hb; simp [V3.cross, h a ha, h b hb]

theorem sqrt_sq_abs {sqrt : K → K} (hs : IsSqrt sqrt) (a : K) : sqrt (a * a) = |a| := by
  obtain ⟨h1, h2⟩ := hs (a * a) (mul_self_nonneg a)
  have := abs_eq_abs.2 (mul_self_eq_mul_self_iff.1 h2)
  rwa [abs_of_nonneg h1] at this

/-- The contribution of an edge to the centroid. -/
def momentX (a b : V3 K) : K := (a.x + b.x) * crossZ a b
/-- The contribution of an edge to the centroid. -/
def momentY (a b : V3 K) : K := (a.y + b.y) * crossZ a b

theorem GeoCfg.polygonCentroid_eq (g : GeoCfg K) (vs : List (V3 K)) (area : K)
    (h2 : 2 < vs.length) (hf : g.Flat vs) : g.polygonCentroid vs area =
      ok ⟨closedSum momentX vs / (6 * area), closedSum momentY vs / (6 * area), 0⟩ := by
  have hall : (vs.all fun p => decide (|p.z| ≤ g.tolerance1D)) = true := by
    simpa [List.all_eq_true, GeoCfg.Flat] using hf
  have hfold := foldRes_index (f := fun (s : V3 K) v => do
      let a ← vget vs v
      let b ← vget vs ((v + 1) % vs.length)
      ok (⟨s.x + (a.x + b.x) * (a.x * b.y - b.x * a.y),
           s.y + (a.y + b.y) * (a.x * b.y - b.x * a.y), s.z⟩ : V3 K))
    (g := fun s p => s.add ⟨momentX p.1 p.2, momentY p.1 p.2, 0⟩) (cycPairs vs)
    (by
      intro s i hi
      have h1 : i < vs.length := by rwa [cycPairs_length] at hi
      have h0 : (i + 1) % vs.length < vs.length := Nat.mod_lt _ (by omega)
      simp only [vget_of_lt h1, vget_of_lt h0, ok_bind, cycPairs_getElem, V3.add, momentX, momentY,
        crossZ, add_zero]) V3.zero
  rw [cycPairs_length] at hfold
  simp only [GeoCfg.polygonCentroid, GeoCfg.pointsAre2D,
    assert_true (show 0 < vs.length by omega), ok_bind, hall, true_and, assert_true h2, hfold]
  rw [foldl_V3_add]
  simp only [V3.zero, zero_add, List.map_const', List.sum_replicate, smul_zero, zero_div]
  rfl

theorem GeoCfg.polygonCentroid_abort (g : GeoCfg K) (vs : List (V3 K)) (area : K)
    (h : ¬(2 < vs.length ∧ g.Flat vs)) : g.polygonCentroid vs area = abort := by
  by_cases h0 : 0 < vs.length
  · have : ¬((vs.all fun p => decide (|p.z| ≤ g.tolerance1D)) = true ∧ 2 < vs.length) := by
      intro hc
      apply h
      refine ⟨hc.2, ?_⟩
      have := hc.1
      simpa [List.all_eq_true, GeoCfg.Flat] using this
    simp only [GeoCfg.polygonCentroid, GeoCfg.pointsAre2D, assert_true h0, ok_bind,
      assert_false this]
    rfl
  · simp only [GeoCfg.polygonCentroid, GeoCfg.pointsAre2D, assert_false h0]
    rfl

/-- The value of a corner in `PolygonNormal`. -/
def cornerAt (vs : List (V3 K)) (i : Nat) : V3 K :=
  let here := vs.getD i V3.zero
  ((vs.getD ((i + 1) % vs.length) V3.zero).sub here).cross
    ((vs.getD (usub i 1 % vs.length) V3.zero).sub here)

theorem vget_getD {α : Type} (vs : List α) (i : Nat) (d : α) (h : i < vs.length) :
    vget vs i = ok (vs.getD i d) := vget_eq_ok.2 (getElem?_getD vs i d h)

theorem polygonNormal_eq (sqrt : K → K) (vs : List (V3 K)) (h2 : 2 < vs.length) :
    polygonNormal sqrt vs = ok (V3.normalized sqrt
      ⟨((List.range vs.length).map fun i => (cornerAt vs i).x).sum,
       ((List.range vs.length).map fun i => (cornerAt vs i).y).sum,
       ((List.range vs.length).map fun i => (cornerAt vs i).z).sum⟩) := by
  have hf := foldRes_index (f := fun (s : V3 K) i => do
      let next ← vget vs ((i + 1) % vs.length)
      let here ← vget vs i
      let prev ← vget vs (usub i 1 % vs.length)
      ok (s.add ((next.sub here).cross (prev.sub here))))
      (g := fun s i => s.add (cornerAt vs i)) (List.range vs.length)
    (by
      intro s i hi
      have h1 : i < vs.length := by simpa using hi
      have h0 : (i + 1) % vs.length < vs.length := Nat.mod_lt _ (by omega)
      have h3 : usub i 1 % vs.length < vs.length := Nat.mod_lt _ (by omega)
      simp only [vget_getD _ _ V3.zero h1, vget_getD _ _ V3.zero h0, vget_getD _ _ V3.zero h3,
        ok_bind, List.getElem_range]
      rfl) V3.zero
  rw [List.length_range] at hf
  simp only [polygonNormal, assert_true h2, ok_bind, hf]
  rw [foldl_V3_add]
  simp only [V3.zero, zero_add]

/-- A vector product in a plane is a multiple of the unit normal. -/
theorem cross_in_plane (N a b : V3 K) (hN : N.dot N = 1) (ha : N.dot a = 0) (hb : N.dot b = 0) :
    a.cross b = V3.smul (N.dot (a.cross b)) N := by
  simp only [V3.dot] at hN ha hb
  ext
  · simp only [V3.cross, V3.smul, V3.dot]
    linear_combination (-(a.y * b.z - a.z * b.y)) * hN - (N.y * a.z - N.z * a.y) * hb +
      (N.y * b.z - N.z * b.y) * ha
  · simp only [V3.cross, V3.smul, V3.dot]
    linear_combination (-(a.z * b.x - a.x * b.z)) * hN - (N.z * a.x - N.x * a.z) * hb +
      (N.z * b.x - N.x * b.z) * ha
  · simp only [V3.cross, V3.smul, V3.dot]
    linear_combination (-(a.x * b.y - a.y * b.x)) * hN - (N.x * a.y - N.y * a.x) * hb +
      (N.x * b.y - N.y * b.x) * ha

theorem normalized_smul {sqrt : K → K} (hs : IsSqrt sqrt) (N : V3 K) (hN : N.dot N = 1) (s : K)
    (h : 0 < s) : (V3.smul s N).normalized sqrt = N := by
  have e : (V3.smul s N).dot (V3.smul s N) = s * s := by
    simp only [V3.dot, V3.smul] at hN ⊢
    linear_combination s * s * hN
  rw [V3.normalized, e, if_pos (mul_pos h h), sqrt_sq_abs hs, abs_of_pos h]
  have : s ≠ 0 := ne_of_gt h
  ext <;> simp only [V3.smul] <;> field_simp

end vectors

section simple
variable [LinearOrder K] [IsStrictOrderedRing K]

theorem area2_onSegment (a b c d p : V3 K) (h : OnSegment c d p) :
    ∃ s, 0 ≤ s ∧ s ≤ 1 ∧ area2 a b p = (1 - s) * area2 a b c + s * area2 a b d := by
  obtain ⟨s, h0, h1, hx, hy, -⟩ := h
  refine ⟨s, h0, h1, ?_⟩
  simp only [area2, hx, hy]; ring

theorem area2_onSegment_self (a b p : V3 K) (h : OnSegment a b p) : area2 a b p = 0 := by
  obtain ⟨s, _, _, e⟩ := area2_onSegment a b a b p h
  rw [e]; simp only [area2]; ring

theorem segments_disjoint {a b c d p : V3 K} (h : 0 < area2 a b c * area2 a b d)
    (h1 : OnSegment a b p) (h2 : OnSegment c d p) : False := by
  obtain ⟨s, h0, hs1, e⟩ := area2_onSegment a b c d p h2
  rw [area2_onSegment_self a b p h1] at e
  have hs : 0 ≤ 1 - s := by linarith
  rcases pos_and_pos_or_neg_and_neg_of_mul_pos h with ⟨hc, hd⟩ | ⟨hc, hd⟩
  · rcases eq_or_lt_of_le h0 with h | h
    · rw [← h] at e; linarith
    · nlinarith [mul_pos h hd, mul_nonneg hs hc.le]
  · rcases eq_or_lt_of_le h0 with h | h
    · rw [← h] at e; linarith
    · nlinarith [mul_pos h (neg_pos.2 hd), mul_nonneg hs (neg_pos.2 hc).le]

theorem segments_next {a b d p : V3 K} (h : area2 a b d ≠ 0) (h1 : OnSegment a b p)
    (h2 : OnSegment b d p) : p = b := by
  obtain ⟨s, h0, hs1, hx, hy, hz⟩ := h2
  have e : area2 a b p = s * area2 a b d := by simp only [area2, hx, hy]; ring
  rw [area2_onSegment_self a b p h1] at e
  have : s = 0 := by
    rcases mul_eq_zero.1 e.symm with h' | h'
    · exact h'
    · exact absurd h' h
  subst this
  ext
  · rw [hx]; ring
  · rw [hy]; ring
  · rw [hz]; ring

theorem segments_prev {a b c p : V3 K} (h : area2 a b c ≠ 0) (h1 : OnSegment a b p)
    (h2 : OnSegment c a p) : p = a := by
  obtain ⟨s, h0, hs1, hx, hy, hz⟩ := h2
  have e : area2 a b p = (1 - s) * area2 a b c := by simp only [area2, hx, hy]; ring
  rw [area2_onSegment_self a b p h1] at e
  have : s = 1 := by
    rcases mul_eq_zero.1 e.symm with h' | h'
    · linarith
    · exact absurd h' h
  subst this
  ext
  · rw [hx]; ring
  · rw [hy]; ring
  · rw [hz]; ring

/-- A point of the plane with integer coordinates. -/
def ofInts (p : Int × Int) : V3 K := ⟨(p.1 : K), (p.2 : K), 0⟩

/-- Twice the area of a triangle with integer corners. -/
def areaInt (p q r : Int × Int) : Int := (q.1 - p.1) * (r.2 - p.2) - (q.2 - p.2) * (r.1 - p.1)

theorem area2_ofInts (p q r : Int × Int) :
    area2 (ofInts p : V3 K) (ofInts q) (ofInts r) = ((areaInt p q r : Int) : K) := by
  simp [area2, ofInts, areaInt]

/-- Sufficient test for two edges of a simple polygon of `n` vertices. -/
def edgesOk (n i j : Nat) (a b c d : Int × Int) : Prop :=
  0 < areaInt a b c * areaInt a b d ∨ 0 < areaInt c d a * areaInt c d b ∨
  (j = i + 1 ∧ b = c ∧ areaInt a b d ≠ 0) ∨ (i = 0 ∧ j + 1 = n ∧ d = a ∧ areaInt a b c ≠ 0)

instance (n i j : Nat) (a b c d : Int × Int) : Decidable (edgesOk n i j a b c d) :=
  inferInstanceAs (Decidable (_ ∨ _))

theorem simple_of_edgesOk (pts : List (Int × Int)) (h3 : 3 ≤ pts.length)
    (h : ∀ j < pts.length, ∀ i < j, edgesOk pts.length i j (pts.getD i 0) (pts.getD (i + 1) 0)
      (pts.getD j 0) (pts.getD ((j + 1) % pts.length) 0)) :
    SimplePolygon (pts.map (ofInts : _ → V3 K)) := by
  refine ⟨by simpa using h3, ?_, ?_⟩
  · intro v hv
    simp only [List.mem_map] at hv
    obtain ⟨p, _, rfl⟩ := hv
    rfl
  · intro i j a b c d p hij hj ha hb hc hd h1 h2
    simp only [List.length_map] at hj hd ⊢
    have key : ∀ k (v : V3 K), (pts.map (ofInts : _ → V3 K))[k]? = some v →
        v = ofInts (pts.getD k 0) := by
      intro k v hv
      simp only [List.getElem?_map, Option.map_eq_some_iff] at hv
      obtain ⟨q, hq, rfl⟩ := hv
      simp [List.getD, hq]
    have ea := key _ _ ha
    have eb := key _ _ hb
    have ec := key _ _ hc
    have ed := key _ _ hd
    rcases h j hj i hij with hk | hk | ⟨hk, hk1, hk2⟩ | ⟨hk, hk0, hk1, hk2⟩
    · exfalso
      refine segments_disjoint ?_ h1 h2
      rw [ea, eb, ec, ed, area2_ofInts, area2_ofInts]
      exact_mod_cast hk
    · exfalso
      refine segments_disjoint ?_ h2 h1
      rw [ea, eb, ec, ed, area2_ofInts, area2_ofInts]
      exact_mod_cast hk
    · left
      refine ⟨hk, ?_⟩
      have hbc : c = b := by rw [eb, ec, hk1]
      subst hbc
      refine segments_next ?_ h1 h2
      rw [ea, eb, ed, area2_ofInts]
      exact_mod_cast hk2
    · right
      refine ⟨hk, hk0, ?_⟩
      have hda : d = a := by rw [ea, ed, hk1]
      subst hda
      refine segments_prev ?_ h1 h2
      rw [ea, eb, ec, area2_ofInts]
      exact_mod_cast hk2

theorem getD_ofInts (pts : List (Int × Int)) (i : Nat) (hi : i < pts.length) :
    (pts.map (ofInts : _ → V3 K)).getD i V3.zero = ofInts (pts.getD i 0) := by
  simp [hi]

theorem int_cast_sum (l : List Int) : ((l.sum : Int) : K) = (l.map fun i : Int => (i : K)).sum := by
  induction l with
  | nil => simp
  | cons a l ih => simp [ih]

theorem cornerSum_ofInts (pts : List (Int × Int)) :
    ((List.range (pts.map (ofInts : _ → V3 K)).length).map fun i =>
      (cornerAt (pts.map (ofInts : _ → V3 K)) i).z).sum =
    ((((List.range pts.length).map fun i => areaInt (pts.getD i 0)
      (pts.getD ((i + 1) % pts.length) 0) (pts.getD (usub i 1 % pts.length) 0)).sum : Int) : K) := by
  rw [int_cast_sum, List.map_map, List.length_map]
  congr 1
  apply List.map_congr_left
  intro i hi
  rw [List.mem_range] at hi
  have h0 : (i + 1) % pts.length < pts.length := Nat.mod_lt _ (by omega)
  have h3 : usub i 1 % pts.length < pts.length := Nat.mod_lt _ (by omega)
  simp only [cornerAt, List.length_map, getD_ofInts pts _ hi, getD_ofInts pts _ h0,
    getD_ofInts pts _ h3, Function.comp]
  rw [← area2_ofInts]
  simp only [area2, V3.cross, V3.sub]

end simple

section fanError
variable [LinearOrder K] [IsStrictOrderedRing K]

theorem norm_nonneg' {sqrt : K → K} (hs : IsSqrt sqrt) (v : V3 K) : 0 ≤ v.norm sqrt := by
  apply (hs _ _).1
  simp only [V3.dot]
  nlinarith [mul_self_nonneg v.x, mul_self_nonneg v.y, mul_self_nonneg v.z]

theorem norm_sq {sqrt : K → K} (hs : IsSqrt sqrt) (v : V3 K) :
    v.norm sqrt * v.norm sqrt = v.dot v := by
  apply (hs _ _).2
  simp only [V3.dot]
  nlinarith [mul_self_nonneg v.x, mul_self_nonneg v.y, mul_self_nonneg v.z]

theorem abs_z_le_norm {sqrt : K → K} (hs : IsSqrt sqrt) (v : V3 K) : |v.z| ≤ v.norm sqrt := by
  apply abs_le_of_sq_le_sq _ (norm_nonneg' hs v)
  rw [pow_two, pow_two, norm_sq hs]
  simp only [V3.dot]
  nlinarith [mul_self_nonneg v.x, mul_self_nonneg v.y]

theorem smul_norm_normalized {sqrt : K → K} (hs : IsSqrt sqrt) (v : V3 K) :
    V3.smul (v.norm sqrt) (v.normalized sqrt) = v := by
  have hnn : 0 ≤ v.dot v := by
    simp only [V3.dot]
    nlinarith [mul_self_nonneg v.x, mul_self_nonneg v.y, mul_self_nonneg v.z]
  by_cases h : 0 < v.dot v
  · have hn : v.norm sqrt ≠ 0 := by
      intro h0
      have := norm_sq hs v
      rw [h0] at this
      linarith
    rw [V3.normalized, if_pos h]
    change V3.smul (v.norm sqrt) (V3.smul (1 / v.norm sqrt) v) = v
    ext <;> simp only [V3.smul] <;> field_simp
  · have h0 : v.dot v = 0 := le_antisymm (not_lt.1 h) hnn
    have hx : v.x = 0 := by
      simp only [V3.dot] at h0
      nlinarith [mul_self_nonneg v.x, mul_self_nonneg v.y, mul_self_nonneg v.z]
    have hy : v.y = 0 := by
      simp only [V3.dot] at h0
      nlinarith [mul_self_nonneg v.x, mul_self_nonneg v.y, mul_self_nonneg v.z]
    have hz : v.z = 0 := by
      simp only [V3.dot] at h0
      nlinarith [mul_self_nonneg v.x, mul_self_nonneg v.y, mul_self_nonneg v.z]
    rw [V3.normalized, if_neg h]
    ext <;> simp [V3.smul, hx, hy, hz]

/-- A triangle that is taken for aligned has an area small in comparison with its sides. -/
theorem GeoCfg.aligned_area {sqrt : K → K} (hs : IsSqrt sqrt) (g : GeoCfg K) (a b c : V3 K)
    (h : g.pointIsAligned sqrt a b c = true) :
    |area2 a b c| ≤ max |g.tol1D| g.minTolerance *
      ((b.sub a).norm sqrt * (c.sub a).norm sqrt) := by
  rw [GeoCfg.pointIsAligned, GeoCfg.isValueZero_iff] at h
  have hz := (abs_z_le_norm hs _).trans ((le_abs_self _).trans h)
  have e1 := smul_norm_normalized hs (b.sub a)
  have e2 := smul_norm_normalized hs (c.sub a)
  have e : area2 a b c = (((b.sub a).normalized sqrt).cross ((c.sub a).normalized sqrt)).z *
      ((b.sub a).norm sqrt * (c.sub a).norm sqrt) := by
    have : area2 a b c = ((b.sub a).cross (c.sub a)).z := by
      simp only [area2, V3.sub, V3.cross]
    rw [this]
    conv_lhs => rw [← e1, ← e2]
    simp only [V3.smul, V3.cross]; ring
  have hnn : 0 ≤ (b.sub a).norm sqrt * (c.sub a).norm sqrt :=
    mul_nonneg (norm_nonneg' hs _) (norm_nonneg' hs _)
  rw [e, abs_mul, abs_of_nonneg hnn]
  exact mul_le_mul_of_nonneg_right hz hnn

theorem sum_filter_bound {α : Type} (p : α → Bool) (f B : α → K) (l : List α)
    (hB : ∀ a ∈ l, 0 ≤ B a) (h : ∀ a ∈ l, p a = false → |f a| ≤ B a) :
    |(l.map f).sum - ((l.filter p).map f).sum| ≤ (l.map B).sum := by
  induction l with
  | nil => simp
  | cons a l ih =>
    have ih' := ih (fun b hb => hB b (List.mem_cons_of_mem _ hb))
      fun b hb => h b (List.mem_cons_of_mem _ hb)
    have hBa := hB a List.mem_cons_self
    rw [List.filter_cons]
    cases hp : p a with
    | true =>
      simp only [if_true, List.map_cons, List.sum_cons]
      rw [show f a + (l.map f).sum - (f a + ((l.filter p).map f).sum) =
        (l.map f).sum - ((l.filter p).map f).sum by ring]
      linarith
    | false =>
      simp only [Bool.false_eq_true, if_false, List.map_cons, List.sum_cons]
      have ha := h a List.mem_cons_self hp
      rw [show f a + (l.map f).sum - ((l.filter p).map f).sum =
        f a + ((l.map f).sum - ((l.filter p).map f).sum) by ring]
      exact (abs_add_le _ _).trans (add_le_add ha ih')

end fanError

end Verif
