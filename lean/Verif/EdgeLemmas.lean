import Verif.EdgeModel
import Verif.EdgeSpec
import Verif.PolygonLemmas
import Verif.MeshLemmas

namespace Verif

open Res

/-! ### Triplets -/

theorem side_iff (cell : List Nat) (a b : Nat) : Side cell a b ↔ (a, b) ∈ cycPairs cell := by
  constructor
  · rintro ⟨v, h1, h2⟩
    obtain ⟨hv, rfl⟩ := List.getElem?_eq_some_iff.1 h1
    obtain ⟨hw, rfl⟩ := List.getElem?_eq_some_iff.1 h2
    have h : v < (cycPairs cell).length := by rwa [cycPairs_length]
    have := List.getElem_mem h
    rwa [cycPairs_getElem] at this
  · intro h
    obtain ⟨v, hv, e⟩ := List.getElem_of_mem h
    rw [cycPairs_getElem] at e
    rw [cycPairs_length] at hv
    injection e with e1 e2
    refine ⟨v, ?_, ?_⟩
    · rw [List.getElem?_eq_getElem hv, e1]
    · rw [List.getElem?_eq_getElem (Nat.mod_lt _ (by omega)), e2]

/-- The triplets of the sides of a polygon. -/
def cellTriplets (cell : List Nat) : List (Nat × Nat × Nat) :=
  (cycPairs cell).flatMap fun p => [(p.1, p.2, 1), (p.2, p.1, 1)]

theorem foldl_append_flatMap {α β : Type} (f : α → List β) (l : List α) (s : List β) :
    l.foldl (fun s a => s ++ f a) s = s ++ l.flatMap f := by
  induction l generalizing s with
  | nil => simp
  | cons a l ih => simp [ih]

theorem sideTriplets_eq (cell2Ds : List (List Nat)) :
    sideTriplets cell2Ds = ok (cell2Ds.flatMap cellTriplets) := by
  have inner : ∀ (cell : List Nat) (ts : List (Nat × Nat × Nat)),
      foldRes (fun ts v => do
        let origin ← vget cell v
        let end_ ← vget cell ((v + 1) % cell.length)
        ok (ts ++ [(origin, end_, 1), (end_, origin, 1)])) ts (List.range cell.length) =
      ok (ts ++ cellTriplets cell) := by
    intro cell ts
    have := foldRes_index (f := fun (ts : List (Nat × Nat × Nat)) v => do
        let origin ← vget cell v
        let end_ ← vget cell ((v + 1) % cell.length)
        ok (ts ++ [(origin, end_, 1), (end_, origin, 1)]))
      (g := fun ts p => ts ++ [(p.1, p.2, 1), (p.2, p.1, 1)]) (cycPairs cell)
      (by
        intro s i hi
        have h1 : i < cell.length := by rwa [cycPairs_length] at hi
        have h0 : (i + 1) % cell.length < cell.length := Nat.mod_lt _ (by omega)
        simp only [vget_of_lt h1, vget_of_lt h0, ok_bind, cycPairs_getElem]) ts
    rw [cycPairs_length] at this
    rw [this, foldl_append_flatMap]
    rfl
  have outer : ∀ (cells : List (List Nat)) (ts : List (Nat × Nat × Nat)),
      foldRes (fun ts cell => foldRes (fun ts v => do
        let origin ← vget cell v
        let end_ ← vget cell ((v + 1) % cell.length)
        ok (ts ++ [(origin, end_, 1), (end_, origin, 1)])) ts (List.range cell.length)) ts cells =
      ok (ts ++ cells.flatMap cellTriplets) := by
    intro cells
    induction cells with
    | nil => intro ts; simp
    | cons c cells ih => intro ts; rw [foldRes_cons, inner, ok_bind, ih]; simp
  exact outer cell2Ds []

theorem mem_cellTriplets (cell : List Nat) (a b v : Nat) :
    (a, b, v) ∈ cellTriplets cell ↔ v = 1 ∧ (Side cell a b ∨ Side cell b a) := by
  simp only [cellTriplets, List.mem_flatMap, List.mem_cons, Prod.mk.injEq, List.not_mem_nil,
    or_false, side_iff]
  constructor
  · rintro ⟨⟨p, q⟩, hp, ⟨rfl, rfl, rfl⟩ | ⟨rfl, rfl, rfl⟩⟩
    · exact ⟨rfl, Or.inl hp⟩
    · exact ⟨rfl, Or.inr hp⟩
  · rintro ⟨rfl, h | h⟩
    · exact ⟨_, h, Or.inl ⟨rfl, rfl, rfl⟩⟩
    · exact ⟨_, h, Or.inr ⟨rfl, rfl, rfl⟩⟩

/-! ### The sparse matrix -/

theorem spInsert_mem (r v : Nat) (col : List (Nat × Nat)) (x : Nat) :
    x ∈ (spInsert r v col).map Prod.fst ↔ x = r ∨ x ∈ col.map Prod.fst := by
  induction col with
  | nil => simp [spInsert]
  | cons e col ih =>
    obtain ⟨r', v'⟩ := e
    rw [spInsert]
    split
    · simp
    · split
      · rename_i h; subst h; simp
      · simp only [List.map_cons, List.mem_cons, ih]; tauto

theorem spInsert_sorted (r v : Nat) (col : List (Nat × Nat))
    (h : (col.map Prod.fst).Pairwise (· < ·)) :
    ((spInsert r v col).map Prod.fst).Pairwise (· < ·) := by
  induction col with
  | nil => simp [spInsert]
  | cons e col ih =>
    obtain ⟨r', v'⟩ := e
    simp only [List.map_cons, List.pairwise_cons] at h
    rw [spInsert]
    split
    · rename_i hr
      simp only [List.map_cons, List.pairwise_cons, List.mem_cons]
      refine ⟨?_, h⟩
      rintro a (rfl | ha)
      · exact hr
      · exact hr.trans (h.1 a ha)
    · split
      · simpa using h
      · simp only [List.map_cons, List.pairwise_cons]
        refine ⟨?_, ih h.2⟩
        intro a ha
        rcases (spInsert_mem r v col a).1 ha with rfl | ha
        · omega
        · exact h.1 a ha

theorem setFromTriplets_spec (n : Nat) (ts : List (Nat × Nat × Nat))
    (h : ∀ t ∈ ts, t.1 < n ∧ t.2.1 < n) :
    ∃ m, setFromTriplets n ts = ok m ∧ m.length = n ∧
      ∀ (c : Nat) col, m[c]? = some col → (col.map Prod.fst).Pairwise (· < ·) ∧
        ∀ r, r ∈ col.map Prod.fst ↔ ∃ v, (r, c, v) ∈ ts := by
  have gen : ∀ (ts : List (Nat × Nat × Nat)) (done : List (Nat × Nat × Nat)) (m : SpMat),
      (∀ t ∈ ts, t.1 < n ∧ t.2.1 < n) → m.length = n →
      (∀ (c : Nat) col, m[c]? = some col → (col.map Prod.fst).Pairwise (· < ·) ∧
        ∀ r, r ∈ col.map Prod.fst ↔ ∃ v, (r, c, v) ∈ done) →
      ∃ m', foldRes (fun cols (t : Nat × Nat × Nat) => do
          if t.1 < n then do
            let col ← vget cols t.2.1
            vset cols t.2.1 (spInsert t.1 t.2.2 col)
          else ub) m ts = ok m' ∧ m'.length = n ∧
        ∀ (c : Nat) col, m'[c]? = some col → (col.map Prod.fst).Pairwise (· < ·) ∧
          ∀ r, r ∈ col.map Prod.fst ↔ ∃ v, (r, c, v) ∈ done ++ ts := by
    intro ts
    induction ts with
    | nil =>
      intro done m _ hl hm
      exact ⟨m, rfl, hl, by simpa using hm⟩
    | cons t ts ih =>
      intro done m ht hl hm
      obtain ⟨r, c, v⟩ := t
      obtain ⟨hr, hc⟩ := ht _ List.mem_cons_self
      simp only at hr hc
      have hcl : c < m.length := by omega
      rw [foldRes_cons]
      simp only [if_pos hr, vget_of_lt hcl, ok_bind, vset_of_lt _ hcl]
      have := ih (done ++ [(r, c, v)]) (m.set c (spInsert r v m[c]))
        (fun t ht' => ht t (List.mem_cons_of_mem _ ht')) (by simpa using hl) (by
          intro c' col hcol
          rw [List.getElem?_set] at hcol
          split at hcol
          · rename_i hcc
            subst hcc
            injection hcol with hcol
            subst hcol
            obtain ⟨h1, h2⟩ := hm c _ (List.getElem?_eq_getElem hcl)
            refine ⟨spInsert_sorted _ _ _ h1, ?_⟩
            intro x
            rw [spInsert_mem, h2]
            simp only [List.mem_append, List.mem_singleton, Prod.mk.injEq]
            constructor
            · rintro (rfl | ⟨w, hw⟩)
              · exact ⟨v, Or.inr ⟨rfl, trivial, rfl⟩⟩
              · exact ⟨w, Or.inl hw⟩
            · rintro ⟨w, hw | ⟨rfl, _, rfl⟩⟩
              · exact Or.inr ⟨w, hw⟩
              · exact Or.inl rfl
          · rename_i hcc
            obtain ⟨h1, h2⟩ := hm c' _ hcol
            refine ⟨h1, ?_⟩
            intro x
            rw [h2]
            simp only [List.mem_append, List.mem_singleton, Prod.mk.injEq]
            constructor
            · rintro ⟨w, hw⟩; exact ⟨w, Or.inl hw⟩
            · rintro ⟨w, hw | ⟨_, h, _⟩⟩
              · exact ⟨w, hw⟩
              · exact absurd h.symm hcc)
      simpa using this
  have := gen ts [] (List.replicate n []) h (by simp) (by
    intro c col hcol
    rw [List.getElem?_replicate] at hcol
    split at hcol
    · injection hcol with hcol
      subst hcol
      simp
    · cases hcol)
  simpa [setFromTriplets] using this

/-! ### Numbering -/

/-- The entries above the diagonal, column by column from column `k` on. -/
def upper : Nat → SpMat → List (Nat × Nat)
  | _, [] => []
  | k, c :: m => ((c.filter fun e => decide (e.1 < k)).map fun e => (e.1, k)) ++ upper (k + 1) m

theorem numberColumn_rows (k n : Nat) (c : List (Nat × Nat)) :
    (numberColumn k n c).1.map Prod.fst = c.map Prod.fst ∧
    (numberColumn k n c).2 = n + (c.filter fun e => decide (e.1 < k)).length := by
  induction c generalizing n with
  | nil => simp [numberColumn]
  | cons e c ih =>
    obtain ⟨r, v⟩ := e
    rw [numberColumn]
    split
    · rename_i h
      obtain ⟨h1, h2⟩ := ih (n + 1)
      refine ⟨by simp [h1], ?_⟩
      simp only [h2, h, List.filter_cons, decide_true, if_true, List.length_cons]; omega
    · rename_i h
      obtain ⟨h1, h2⟩ := ih n
      refine ⟨by simp [h1], ?_⟩
      simp only [h2, h, List.filter_cons, decide_false, Bool.false_eq_true, if_false]

theorem numberColumn_val (k n : Nat) (c : List (Nat × Nat)) (r v : Nat)
    (h : (r, v) ∈ (numberColumn k n c).1) (hr : r < k) :
    ∃ t, v = 1 + n + t ∧
      ((c.filter fun e => decide (e.1 < k)).map fun e => (e.1, k))[t]? = some (r, k) := by
  induction c generalizing n with
  | nil => simp [numberColumn] at h
  | cons e c ih =>
    obtain ⟨r', v'⟩ := e
    rw [numberColumn] at h
    split at h
    · rename_i hk
      simp only [List.mem_cons, Prod.mk.injEq] at h
      simp only [List.filter_cons, hk, decide_true, if_true, List.map_cons]
      rcases h with ⟨rfl, rfl⟩ | h
      · exact ⟨0, by omega, by simp⟩
      · obtain ⟨t, ht1, ht2⟩ := ih (n + 1) h
        exact ⟨t + 1, by omega, by simpa using ht2⟩
    · rename_i hk
      simp only [List.mem_cons, Prod.mk.injEq] at h
      simp only [List.filter_cons, hk, decide_false, Bool.false_eq_true, if_false]
      rcases h with ⟨rfl, rfl⟩ | h
      · exact absurd hr hk
      · exact ih n h

theorem numberColumns_spec (k n : Nat) (m : SpMat) :
    (numberColumns k n m).1.map (List.map Prod.fst) = m.map (List.map Prod.fst) ∧
    (numberColumns k n m).2 = n + (upper k m).length ∧
    ∀ i col r v, (numberColumns k n m).1[i]? = some col → (r, v) ∈ col → r < k + i →
      ∃ t, v = 1 + n + t ∧ (upper k m)[t]? = some (r, k + i) := by
  induction m generalizing k n with
  | nil => simp [numberColumns, upper]
  | cons c m ih =>
    obtain ⟨a1, a2⟩ := numberColumn_rows k n c
    obtain ⟨b1, b2, b3⟩ := ih (k + 1) (numberColumn k n c).2
    simp only [numberColumns, upper]
    refine ⟨by simp [a1, b1], ?_, ?_⟩
    · rw [b2, a2]; simp; omega
    · intro i col r v hcol hmem hr
      cases i with
      | zero =>
        simp only [List.getElem?_cons_zero, Option.some.injEq] at hcol
        subst hcol
        obtain ⟨t, h1, h2⟩ := numberColumn_val k n c r v hmem (by simpa using hr)
        refine ⟨t, h1, ?_⟩
        rw [List.getElem?_append_left (List.getElem?_eq_some_iff.1 h2).1]
        simpa using h2
      | succ i =>
        rw [List.getElem?_cons_succ] at hcol
        obtain ⟨t, h1, h2⟩ := b3 i col r v hcol hmem (by omega)
        refine ⟨(c.filter fun e => decide (e.1 < k)).length + t, by rw [h1, a2]; omega, ?_⟩
        rw [List.getElem?_append_right (by simp)]
        simp only [List.length_map, Nat.add_sub_cancel_left]
        rw [h2]
        congr 2
        omega

theorem upper_congr (k : Nat) (m m' : SpMat)
    (h : m'.map (List.map Prod.fst) = m.map (List.map Prod.fst)) : upper k m' = upper k m := by
  induction m generalizing k m' with
  | nil =>
    cases m' with
    | nil => rfl
    | cons c' m' => simp at h
  | cons c m ih =>
    cases m' with
    | nil => simp at h
    | cons c' m' =>
      simp only [List.map_cons, List.cons.injEq] at h
      rw [upper, upper, ih _ _ h.2]
      congr 1
      have e : ∀ c : List (Nat × Nat), ((c.filter fun e => decide (e.1 < k)).map fun e => (e.1, k)) =
          ((c.map Prod.fst).filter fun r => decide (r < k)).map fun r => (r, k) := by
        intro c
        rw [List.filter_map, List.map_map]
        rfl
      rw [e, e, h.1]

theorem mem_upper (k : Nat) (m : SpMat) (r c : Nat) :
    (r, c) ∈ upper k m ↔ r < c ∧ ∃ i col, c = k + i ∧ m[i]? = some col ∧ r ∈ col.map Prod.fst := by
  induction m generalizing k with
  | nil => simp [upper]
  | cons d m ih =>
    rw [upper, List.mem_append, ih]
    constructor
    · rintro (h | ⟨h1, i, col, h2, h3, h4⟩)
      · simp only [List.mem_map, List.mem_filter, decide_eq_true_eq, Prod.mk.injEq] at h
        obtain ⟨e, ⟨h1, h2⟩, rfl, rfl⟩ := h
        exact ⟨h2, 0, d, rfl, rfl, List.mem_map_of_mem h1⟩
      · exact ⟨h1, i + 1, col, by omega, by simpa using h3, h4⟩
    · rintro ⟨h1, i, col, h2, h3, h4⟩
      cases i with
      | zero =>
        simp only [List.getElem?_cons_zero, Option.some.injEq] at h3
        subst h3
        subst h2
        left
        simp only [List.mem_map, List.mem_filter, decide_eq_true_eq, Prod.mk.injEq] at h4 ⊢
        obtain ⟨e, he, rfl⟩ := h4
        exact ⟨e, ⟨he, h1⟩, rfl, trivial⟩
      | succ i =>
        right
        exact ⟨h1, i, col, by omega, by simpa using h3, h4⟩

theorem upper_nodup (k : Nat) (m : SpMat) (h : ∀ col ∈ m, (col.map Prod.fst).Nodup) :
    (upper k m).Nodup := by
  induction m generalizing k with
  | nil => simp [upper]
  | cons c m ih =>
    rw [upper]
    refine List.nodup_append.2 ⟨?_, ih _ fun col hc => h col (List.mem_cons_of_mem _ hc), ?_⟩
    · have hc := h c List.mem_cons_self
      have e : ((c.filter fun e => decide (e.1 < k)).map fun e => (e.1, k)) =
          ((c.map Prod.fst).filter fun r => decide (r < k)).map fun r => (r, k) := by
        rw [List.filter_map, List.map_map]
        rfl
      rw [e]
      exact List.Nodup.map (fun a b hab => by injection hab) (hc.filter _)
    · rintro ⟨a, b⟩ ha ⟨a', b'⟩ hb hab
      injection hab with h1 h2
      subst h1 h2
      simp only [List.mem_map, Prod.mk.injEq] at ha
      obtain ⟨_, _, _, rfl⟩ := ha
      obtain ⟨_, i, _, h3, _⟩ := (mem_upper _ _ _ _).1 hb
      omega

/-! ### The list of edges -/

/-- Overwrite `l` with `X` from position `s` on. -/
def writeAt {α : Type} (l : List α) (s : Nat) (X : List α) : List α :=
  l.take s ++ X ++ l.drop (s + X.length)

theorem writeAt_writeAt {α : Type} (l : List α) (s : Nat) (X Y : List α)
    (h : s + X.length + Y.length ≤ l.length) :
    writeAt (writeAt l s X) (s + X.length) Y = writeAt l s (X ++ Y) := by
  have hs : min s l.length = s := by omega
  have e1 : (writeAt l s X).take (s + X.length) = l.take s ++ X := by
    rw [writeAt, List.take_append_of_le_length (by simp; omega), List.take_of_length_le (by simp)]
  have e2 : (writeAt l s X).drop (s + X.length + Y.length) = l.drop (s + (X ++ Y).length) := by
    rw [writeAt, List.drop_append, List.drop_eq_nil_of_le (by simp; omega), List.nil_append,
      List.drop_drop]
    congr 1
    simp
    omega
  rw [writeAt, e1, e2]
  simp [writeAt]

theorem writeAt_length {α : Type} (l : List α) (s : Nat) (X : List α)
    (h : s + X.length ≤ l.length) : (writeAt l s X).length = l.length := by
  simp [writeAt]; omega

theorem collectColumn (k : Nat) (col : List (Nat × Nat)) (l : List (Nat × Nat)) (s : Nat)
    (h : s + (col.filter fun e => decide (e.1 < k)).length ≤ l.length) :
    foldRes (fun (s : List (Nat × Nat) × Nat) (e : Nat × Nat) =>
      if e.1 < k then do
        let l ← vset s.1 s.2 (e.1, k)
        ok (l, s.2 + 1)
      else ok s) (l, s) col =
    ok (writeAt l s ((col.filter fun e => decide (e.1 < k)).map fun e => (e.1, k)),
      s + (col.filter fun e => decide (e.1 < k)).length) := by
  induction col generalizing l s with
  | nil => simp [writeAt]
  | cons e col ih =>
    rw [foldRes_cons]
    by_cases hk : e.1 < k
    · simp only [hk, List.filter_cons, decide_true, if_true, List.length_cons, List.map_cons] at h ⊢
      have hs : s < l.length := by omega
      rw [vset_of_lt _ hs, ok_bind, ok_bind, ih _ _ (by simp; omega)]
      have e1 : l.set s (e.1, k) = writeAt l s [(e.1, k)] := by
        rw [writeAt, List.set_eq_take_append_cons_drop, if_pos hs]
        simp
      rw [e1]
      have := writeAt_writeAt l s [(e.1, k)]
        ((col.filter fun e => decide (e.1 < k)).map fun e => (e.1, k)) (by simp; omega)
      simp only [List.length_singleton, List.singleton_append] at this
      rw [this]
      congr 2
      omega
    · simp only [hk, List.filter_cons, decide_false, if_false, Bool.false_eq_true, ok_bind] at h ⊢
      exact ih l s h

theorem collectEdges_eq (m : SpMat) : collectEdges (upper 0 m).length m = ok (upper 0 m) := by
  have gen : ∀ (M : SpMat) (k : Nat) (l : List (Nat × Nat)) (s : Nat), m.drop k = M →
      s + (upper k M).length ≤ l.length →
      foldRes (fun (s : List (Nat × Nat) × Nat) k => do
        let col ← vget m k
        foldRes (fun (s : List (Nat × Nat) × Nat) (e : Nat × Nat) =>
          if e.1 < k then do
            let l ← vset s.1 s.2 (e.1, k)
            ok (l, s.2 + 1)
          else ok s) s col) (l, s) (List.range' k M.length) =
      ok (writeAt l s (upper k M), s + (upper k M).length) := by
    intro M
    induction M with
    | nil => intro k l s _ _; simp [upper, writeAt]
    | cons c M ih =>
      intro k l s hM hs
      have hk : k < m.length := by
        by_contra hk
        rw [List.drop_eq_nil_of_le (by omega)] at hM
        simp at hM
      rw [List.drop_eq_getElem_cons hk] at hM
      injection hM with h1 h2
      rw [upper, List.length_append, List.length_map] at hs
      simp only [List.length_cons, List.range'_succ, foldRes_cons, vget_of_lt hk, ok_bind, h1]
      rw [collectColumn k c l s (by omega), ok_bind, ih (k + 1) _ _ h2 (by
        rw [writeAt_length _ _ _ (by simp; omega)]; omega)]
      have := writeAt_writeAt l s ((c.filter fun e => decide (e.1 < k)).map fun e => (e.1, k))
        (upper (k + 1) M) (by simp; omega)
      rw [List.length_map] at this
      rw [this, upper]
      simp only [List.length_append, List.length_map]
      congr 2
      omega
  have := gen m 0 (List.replicate (upper 0 m).length (0, 0)) 0 (by simp) (by simp)
  rw [← List.range_eq_range'] at this
  simp only [collectEdges, this, ok_bind]
  simp [writeAt]

theorem find_row {col : List (Nat × Nat)} {r : Nat} (h : r ∈ col.map Prod.fst) :
    ∃ v, col.find? (fun e => decide (e.1 = r)) = some (r, v) ∧ (r, v) ∈ col := by
  cases hf : col.find? (fun e => decide (e.1 = r)) with
  | none =>
    rw [List.find?_eq_none] at hf
    simp only [List.mem_map] at h
    obtain ⟨e, he, rfl⟩ := h
    have := hf e he
    simp at this
  | some e =>
    have h1 := List.find?_some hf
    have h2 := List.mem_of_find?_eq_some hf
    simp only [decide_eq_true_eq] at h1
    subst h1
    exact ⟨e.2, rfl, h2⟩

theorem spCoeff_numbered (m : SpMat) (a b : Nat) (hab : a < b) (h : (a, b) ∈ upper 0 m) :
    ∃ t, spCoeff (numberColumns 0 0 m).1 a b = ok (1 + t) ∧ (upper 0 m)[t]? = some (a, b) := by
  obtain ⟨h1, h2, h3⟩ := numberColumns_spec 0 0 m
  have h' : (a, b) ∈ upper 0 (numberColumns 0 0 m).1 := by rwa [upper_congr 0 _ _ h1]
  obtain ⟨_, i, col, hb, hcol, hr⟩ := (mem_upper _ _ _ _).1 h'
  have hbi : b = i := by omega
  subst hbi
  obtain ⟨v, hf, hv⟩ := find_row hr
  obtain ⟨t, ht1, ht2⟩ := h3 b col a v hcol hv (by omega)
  refine ⟨t, ?_, by simpa using ht2⟩
  have : vget (numberColumns 0 0 m).1 b = ok col := vget_eq_ok.2 hcol
  simp only [spCoeff, this, ok_bind, hf, ht1]

end Verif
