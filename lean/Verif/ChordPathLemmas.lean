import Verif.ChordLemmas

/-
Helper lemmas: closed paths, their rotations and their parts.
-/
namespace Verif

open Res

variable {α β : Type}

theorem pairs_rotate (R : List β) (k : Nat) :
    (R.rotate k).zip ((R.rotate k).rotate 1) = (R.zip (R.rotate 1)).rotate k := by
  have : (R.rotate k).rotate 1 = (R.rotate 1).rotate k := by
    rw [List.rotate_rotate, List.rotate_rotate, Nat.add_comm]
  rw [this]
  exact (List.zipWith_rotate_distrib Prod.mk R (R.rotate 1) k (by simp)).symm

theorem mem_pairs_rotated {R S : List β} (h : R.IsRotated S) (x : β × β) :
    x ∈ R.zip (R.rotate 1) ↔ x ∈ S.zip (S.rotate 1) := by
  obtain ⟨k, rfl⟩ := h
  rw [pairs_rotate, List.mem_rotate]

theorem mem_zip_last {l X : List β} {a b u y : β} (h : (a, b) ∈ l.zip (X ++ [u])) :
    (a, b) ∈ l.zip (X ++ [y]) ∨ (b = u ∧ (a, y) ∈ l.zip (X ++ [y])) := by
  obtain ⟨i, hi, he⟩ := List.mem_iff_getElem.1 h
  have hl : i < l.length := by simp at hi; omega
  have hr : i < X.length + 1 := by simp at hi; omega
  simp only [List.getElem_zip, Prod.mk.injEq] at he
  by_cases hc : i < X.length
  · left
    refine List.mem_iff_getElem.2 ⟨i, by simp; omega, ?_⟩
    simp only [List.getElem_zip, Prod.mk.injEq]
    refine ⟨he.1, ?_⟩
    rw [← he.2, List.getElem_append_left hc, List.getElem_append_left hc]
  · right
    have : i = X.length := by omega
    subst this
    refine ⟨by rw [← he.2]; simp, List.mem_iff_getElem.2 ⟨X.length, by simp; omega, ?_⟩⟩
    simp only [List.getElem_zip, Prod.mk.injEq]
    exact ⟨he.1, by simp⟩

/-- The steps of a closed path that returns along `u`. -/
theorem pairs_snoc (x : β) (X : List β) (u : β) :
    (x :: X ++ [u]).zip ((x :: X ++ [u]).rotate 1) = (x :: X).zip (X ++ [u]) ++ [(u, x)] := by
  rw [List.cons_append, List.rotate_cons_succ, List.rotate_zero, ← List.cons_append, List.zip_append (by simp)]
  rfl

/-- The steps of a closed path of two parts. -/
theorem pairs_append (x : β) (X : List β) (y : β) (Y : List β) :
    (x :: X ++ y :: Y).zip ((x :: X ++ y :: Y).rotate 1) = (x :: X).zip (X ++ [y]) ++ (y :: Y).zip (Y ++ [x]) := by
  rw [List.cons_append, List.rotate_cons_succ, List.rotate_zero, ← List.cons_append,
    show X ++ y :: Y ++ [x] = (X ++ [y]) ++ (Y ++ [x]) by simp, List.zip_append (by simp)]

theorem head_of {R X Y : List (Nat × Nat)} {p q : Nat} (h : Halves R X Y p q) :
    ∃ e X' f Y', X = (p, e) :: X' ∧ Y = (q, f) :: Y' := by
  obtain ⟨-, h1, h2⟩ := h
  cases X with
  | nil => simp at h1
  | cons a X' =>
    cases Y with
    | nil => simp at h2
    | cons b Y' =>
      obtain ⟨a1, a2⟩ := a
      obtain ⟨b1, b2⟩ := b
      simp at h1 h2
      subst h1 h2
      exact ⟨a2, X', b2, Y', rfl, rfl⟩

theorem Halves.symm {R X Y : List (Nat × Nat)} {p q : Nat} (h : Halves R X Y p q) : Halves R Y X q p :=
  ⟨(List.isRotated_append).trans h.whole, h.second, h.first⟩

/-- The steps of one part, closed by a new edge, are steps of the whole boundary. -/
theorem part_pairs {R X Y : List (Nat × Nat)} {p q e : Nat} (h : Halves R X Y p q) {a b : Nat × Nat}
    (hab : (a, b) ∈ (X ++ [(q, e)]).zip ((X ++ [(q, e)]).rotate 1)) :
    (a ∈ X ∧ ∃ b', b'.1 = b.1 ∧ (a, b') ∈ R.zip (R.rotate 1)) ∨ (a = (q, e) ∧ b.1 = p) := by
  obtain ⟨f, X', g, Y', rfl, rfl⟩ := head_of h
  rw [pairs_snoc, List.mem_append, List.mem_singleton] at hab
  rcases hab with hab | hab
  · left
    refine ⟨(List.of_mem_zip hab).1, ?_⟩
    have hin : ∀ c, (a, c) ∈ ((p, f) :: X').zip (X' ++ [(q, g)]) → (a, c) ∈ R.zip (R.rotate 1) := by
      intro c hc
      rw [← mem_pairs_rotated h.whole, pairs_append]
      exact List.mem_append_left _ hc
    rcases mem_zip_last (y := (q, g)) hab with hc | ⟨rfl, hc⟩
    · exact ⟨b, rfl, hin _ hc⟩
    · exact ⟨(q, g), rfl, hin _ hc⟩
  · right
    cases hab
    exact ⟨rfl, rfl⟩

theorem mem_pairs_fst {R : List β} {a b : β} (h : (a, b) ∈ R.zip (R.rotate 1)) : a ∈ R := (List.of_mem_zip h).1

/-- The two polygons after a cut are enclosed by their edges. -/
theorem encloses_parts {m m' : Mesh α} {c p q : Nat} {R X Y : List (Nat × Nat)} (hH : Halves R X Y p q)
    (hC : IsCutAlong m m' c p q X Y) (hR : Encloses m c R) (hn : (R.map Prod.snd).Nodup) :
    Encloses m' (m.num .d2) (X ++ [(q, m.num .d1)]) ∧ Encloses m' (m.num .d2 + 1) (Y ++ [(p, m.num .d1)]) := by
  have hn' : ((X ++ Y).map Prod.snd).Nodup := ((hH.whole.map Prod.snd).nodup_iff).2 hn
  rw [List.map_append, List.nodup_append] at hn'
  obtain ⟨-, -, hd⟩ := hn'
  constructor
  · intro a b hab
    rcases part_pairs hH hab with ⟨ha, b', hb', hr⟩ | ⟨rfl, hb⟩
    · obtain ⟨dir, r, l, h1, h2, h3⟩ := hR a b' hr
      have hlt : a.2 < m.num .d1 := lt_of_row h2
      have hin : a.2 ∈ X.map Prod.snd := List.mem_map_of_mem ha
      refine ⟨dir, _, _, by rw [hC.extremes _ hlt, h1, hb'], hC.polygonsOfEdges _ _ hlt h2, ?_⟩
      · cases dir <;> simp at h3 ⊢ <;> rw [if_pos h3, if_pos (by simpa using hin)]
    · refine ⟨true, m.num .d2 + 1, m.num .d2, ?_, hC.polygonsEdge, rfl⟩
      rw [hC.extremesNew, hb]; rfl
  · intro a b hab
    rcases part_pairs hH.symm hab with ⟨ha, b', hb', hr⟩ | ⟨rfl, hb⟩
    · obtain ⟨dir, r, l, h1, h2, h3⟩ := hR a b' hr
      have hlt : a.2 < m.num .d1 := lt_of_row h2
      have hin : a.2 ∈ Y.map Prod.snd := List.mem_map_of_mem ha
      have hout : a.2 ∉ X.map Prod.snd := fun hc => hd _ hc _ hin rfl
      refine ⟨dir, _, _, by rw [hC.extremes _ hlt, h1, hb'], hC.polygonsOfEdges _ _ hlt h2, ?_⟩
      · cases dir <;> simp at h3 ⊢ <;>
          rw [if_pos h3, if_neg (by simpa using hout), if_pos (by simpa using hin)]
    · refine ⟨false, m.num .d2 + 1, m.num .d2, ?_, hC.polygonsEdge, rfl⟩
      rw [hC.extremesNew, hb]; rfl

variable {K : Type} [Field K] [LinearOrder K] [IsStrictOrderedRing K]

/-- The area over the path through `l` that ends in `e`. -/
def sweepTo : List (V3 K) → V3 K → K
  | [], _ => 0
  | [a], e => a.x * e.y - e.x * a.y
  | a :: b :: l, e => (a.x * b.y - b.x * a.y) + sweepTo (b :: l) e

theorem sweepTo_zip (a : V3 K) (l : List (V3 K)) (e : V3 K) :
    sweepTo (a :: l) e = (((a :: l).zip (l ++ [e])).map fun e => e.1.x * e.2.y - e.2.x * e.1.y).sum := by
  induction l generalizing a with
  | nil => simp [sweepTo]
  | cons b l ih => simp only [sweepTo]; rw [ih b]; simp

theorem shoelace_path (a : V3 K) (l : List (V3 K)) : shoelace (a :: l) = sweepTo (a :: l) a := by
  rw [sweepTo_zip]
  unfold shoelace
  rw [List.rotate_cons_succ, List.rotate_zero]

theorem sweepTo_append (a : V3 K) (l : List (V3 K)) (b : V3 K) (k : List (V3 K)) (e : V3 K) :
    sweepTo (a :: l ++ b :: k) e = sweepTo (a :: l) b + sweepTo (b :: k) e := by
  induction l generalizing a with
  | nil => rfl
  | cons c l ih =>
    show (a.x * c.y - c.x * a.y) + sweepTo (c :: l ++ b :: k) e = (a.x * c.y - c.x * a.y) + sweepTo (c :: l) b + _
    rw [ih c]
    ring

theorem shoelace_rotated {l k : List (V3 K)} (h : l.IsRotated k) : shoelace l = shoelace k := by
  obtain ⟨n, rfl⟩ := h
  unfold shoelace
  rw [pairs_rotate, List.map_rotate]
  exact ((List.rotate_perm _ _).sum_eq).symm

/-- The areas of the parts add up. -/
theorem shoelace_parts {R X Y : List (Nat × Nat)} {p q : Nat} (hH : Halves R X Y p q) (pt : Nat → V3 K) :
    shoelace ((X.map Prod.fst ++ [q]).map pt) + shoelace ((Y.map Prod.fst ++ [p]).map pt) =
      shoelace ((R.map Prod.fst).map pt) := by
  rw [← shoelace_rotated ((hH.whole.map Prod.fst).map pt)]
  obtain ⟨e, X', f, Y', rfl, rfl⟩ := head_of hH
  simp only [List.map_append, List.map_cons, List.map_nil]
  rw [List.cons_append, shoelace_path, List.cons_append, shoelace_path, List.cons_append, shoelace_path,
    ← List.cons_append, ← List.cons_append, ← List.cons_append, sweepTo_append, sweepTo_append, sweepTo_append]
  simp only [sweepTo]
  ring

/-- The vertices of the boundary. -/
def refined (cut : Nat → Option SidePoint) : Nat → List Nat → List Nat
  | _, [] => []
  | k, v :: vs =>
      match cut k with
      | none => v :: refined cut (k + 1) vs
      | some s => v :: s.w :: refined cut (k + 1) vs

theorem boundary_fst (cut : Nat → Option SidePoint) : ∀ (vs es : List Nat) (k : Nat), vs.length = es.length →
    (((vs.zip es).zipIdx k).flatMap fun p =>
      match cut p.2 with
      | none => [p.1]
      | some s => [(p.1.1, s.before), (s.w, s.after)]).map Prod.fst = refined cut k vs
  | [], _, _, _ => rfl
  | v :: vs, [], _, h => by simp at h
  | v :: vs, e :: es, k, h => by
      rw [List.zip_cons_cons, List.zipIdx_cons, List.flatMap_cons, List.map_append,
        boundary_fst cut vs es (k + 1) (by simpa using h)]
      simp only [refined]
      cases cut k <;> rfl

theorem refined_area (pt : Nat → V3 K) (cut : Nat → Option SidePoint) :
    ∀ (vs : List Nat) (k : Nat) (e : V3 K) (v : Nat),
      (∀ i s, i < vs.length + 1 → cut (k + i) = some s → ∃ a b t, ((v :: vs).map pt)[i]? = some a ∧
        (vs.map pt ++ [e])[i]? = some b ∧
        (pt s.w).x = (1 - t) * a.x + t * b.x ∧ (pt s.w).y = (1 - t) * a.y + t * b.y) →
      sweepTo ((refined cut k (v :: vs)).map pt) e = sweepTo ((v :: vs).map pt) e
  | [], k, e, v, h => by
      simp only [refined]
      cases hc : cut k with
      | none => rfl
      | some s =>
        obtain ⟨a, b, t, h1, h2, hx, hy⟩ := h 0 s (by simp) (by simpa using hc)
        simp at h1 h2
        subst h1 h2
        simp only [List.map_cons, List.map_nil, sweepTo]
        rw [hx, hy]
        ring
  | u :: vs, k, e, v, h => by
      have ih := refined_area pt cut vs (k + 1) e u (by
        intro i s hi hc
        obtain ⟨a, b, t, h1, h2, h3⟩ := h (i + 1) s (by simp; omega) (by rw [← hc]; congr 1; omega)
        exact ⟨a, b, t, by simpa using h1, by simpa using h2, h3⟩)
      have hr : ∃ l, refined cut (k + 1) (u :: vs) = u :: l := by
        simp only [refined]
        cases cut (k + 1) <;> exact ⟨_, rfl⟩
      obtain ⟨l, hl⟩ := hr
      rw [hl] at ih
      rw [show refined cut k (v :: u :: vs) = (match cut k with
        | none => v :: refined cut (k + 1) (u :: vs)
        | some s => v :: s.w :: refined cut (k + 1) (u :: vs)) from rfl, hl]
      simp only [List.map_cons] at ih ⊢
      cases hc : cut k with
      | none =>
        simp only [List.map_cons, sweepTo]
        rw [ih]
      | some s =>
        obtain ⟨a, b, t, h1, h2, hx, hy⟩ := h 0 s (by simp) (by simpa using hc)
        simp at h1 h2
        subst h1 h2
        simp only [List.map_cons, sweepTo]
        rw [ih, hx, hy]
        ring

/-- Points on the sides do not change the area. -/
theorem shoelace_boundary (pt : Nat → V3 K) {vs es : List Nat} {cut : Nat → Option SidePoint}
    (hl : vs.length = es.length) (hs : OnSides pt vs cut) :
    shoelace (((boundary vs es cut).map Prod.fst).map pt) = shoelace (vs.map pt) := by
  rw [show (boundary vs es cut).map Prod.fst = refined cut 0 vs from boundary_fst cut vs es 0 hl]
  cases vs with
  | nil => rfl
  | cons v vs =>
    have hr : ∃ l, refined cut 0 (v :: vs) = v :: l := by
      simp only [refined]
      cases cut 0 <;> exact ⟨_, rfl⟩
    obtain ⟨l, hl'⟩ := hr
    have h := refined_area pt cut vs 0 (pt v) v (by
      intro i s hi hc
      obtain ⟨a, b, t, h1, h2, h3⟩ := hs i s (by simpa using hc)
      refine ⟨pt a, pt b, t, by rw [List.getElem?_map, h1]; rfl, ?_, h3⟩
      by_cases hc : i + 1 < vs.length + 1
      · rw [show (v :: vs).length = vs.length + 1 from rfl, Nat.mod_eq_of_lt hc] at h2
        rw [List.getElem?_append_left (by simp; omega), List.getElem?_map]
        simp at h2
        rw [h2]; rfl
      · have hi' : i = vs.length := by omega
        subst hi'
        simp at h2
        subst h2
        simp)
    rw [hl'] at h ⊢
    simp only [List.map_cons] at h ⊢
    rw [shoelace_path, shoelace_path, h]

end Verif
