import Verif.MetisSpec
import Verif.CsrLemmas
import Verif.MeshLemmas
import Verif.GraphProps

/-
Helper lemmas for networks and partitions.
-/
namespace Verif

open Res Relation

/-! ### Offset format -/

theorem map_range_getElem {α : Type} (l : List α) (f : Nat → α)
    (h : ∀ i, ∀ (hi : i < l.length), f i = l[i]) : (List.range l.length).map f = l := by
  apply List.ext_getElem
  · simp
  · intro i h1 h2
    simp [h i h2]

theorem toMetis_eq (G : Graph) : toMetis G = ok (Csr.ofRows G) := by
  have key : ∀ k, k ≤ G.length → foldRes
    (fun (s : List Nat × List Nat) v => do
      let a ← vget s.1 v
      let row ← vget G v
      let rows ← vset s.1 (v + 1) (a + row.length)
      ok (rows, s.2 ++ row))
    (List.replicate (G.length + 1) 0, []) (List.range k) =
    ok ((List.range (G.length + 1)).map (fun i => if i ≤ k then Csr.offsetOf G i else 0),
      (G.take k).flatten) := by
    intro k
    induction k with
    | zero =>
      intro _
      simp only [List.range_zero, foldRes_nil, List.take_zero, List.flatten_nil]
      congr 2
      apply List.ext_getElem
      · simp
      · intro i h1 h2
        simp only [List.getElem_replicate, List.getElem_map, List.getElem_range]
        by_cases hi : i ≤ 0
        · have : i = 0 := by omega
          subst this; simp
        · simp [hi]
    | succ k ih =>
      intro hk
      rw [List.range_succ, foldRes_append, ih (by omega), ok_bind, foldRes_cons]
      rw [vget_of_lt (by simp; omega), vget_of_lt (show k < G.length by omega)]
      simp only [ok_bind, List.getElem_map, List.getElem_range, Nat.le_refl, if_true]
      rw [vset_of_lt _ (by simp; omega)]
      simp only [ok_bind, foldRes_nil]
      congr 2
      · apply List.ext_getElem
        · simp
        · intro i h1 h2
          rw [List.getElem_set]
          simp only [List.getElem_map, List.getElem_range]
          by_cases h : k + 1 = i
          · subst h
            simp [Csr.offsetOf_succ G k (by omega)]
          · rw [if_neg h]
            by_cases h' : i ≤ k
            · rw [if_pos h', if_pos (by omega)]
            · rw [if_neg h', if_neg (by omega)]
      · rw [List.take_succ_eq_append_getElem (show k < G.length by omega), List.flatten_append]
        simp only [List.flatten_cons, List.flatten_nil, List.append_nil]
  unfold toMetis
  rw [key G.length (Nat.le_refl _)]
  simp only [ok_bind, Csr.ofRows, List.take_length]
  congr 2
  apply List.map_congr_left
  intro i hi
  rw [if_pos (by have := List.mem_range.1 hi; omega)]

theorem vat_of_getElem? {α : Type} {l : List α} {i : Nat} {a : α} (h : l[i]? = some a) :
    vat l i = ok a := by simp [vat, h]

/-- Entry `j` of row `v` in the concatenation of the rows. -/
theorem flatten_getElem? {α : Type} {rows : List (List α)} {v j : Nat} (hv : v < rows.length)
    (hj : j < rows[v].length) : rows.flatten[Csr.offsetOf rows v + j]? = some rows[v][j] := by
  rw [Csr.flatten_split rows v hv, List.getElem?_append_right (by simp [Csr.offsetOf])]
  simp only [Csr.offsetOf, Nat.add_sub_cancel_left]
  rw [List.getElem?_append_left hj, List.getElem?_eq_getElem hj]

theorem flatten_index {α : Type} (rows : List (List α)) (k : Nat) (hk : k < rows.flatten.length) :
    ∃ v j, ∃ hv : v < rows.length, j < rows[v].length ∧ k = Csr.offsetOf rows v + j := by
  have key : ∀ n, n ≤ rows.length → k < Csr.offsetOf rows n →
      ∃ v j, ∃ hv : v < rows.length, j < rows[v].length ∧ k = Csr.offsetOf rows v + j := by
    intro n
    induction n with
    | zero => intro _ h; simp at h
    | succ n ih =>
      intro hn h
      by_cases h' : k < Csr.offsetOf rows n
      · exact ih (by omega) h'
      · rw [Csr.offsetOf_succ rows n (by omega)] at h
        exact ⟨n, k - Csr.offsetOf rows n, by omega, by omega, by omega⟩
  exact key rows.length (Nat.le_refl _) (by rw [Csr.offsetOf_length]; exact hk)

theorem metisRow_eq {G : Graph} {v : Nat} (hv : v < G.length) :
    metisRow (Csr.ofRows G) v = ok G[v] := by
  unfold metisRow
  rw [Csr.vget_ofRows_off (by omega : v + 1 ≤ G.length), Csr.vget_ofRows_off (by omega)]
  simp only [ok_bind, Csr.ofRows_el]
  rw [Csr.offsetOf_succ G v hv, usub_of_le (by omega), Nat.add_sub_cancel_left]
  rw [mapRes_eq_map (g := fun k => (G[v][k]?).getD 0)]
  · rw [map_range_getElem]
    intro i hi; simp [hi]
  · intro k hk
    have hk := List.mem_range.1 hk
    rw [vat_of_getElem? (flatten_getElem? hv hk)]
    simp [hk]

theorem fromMetis_eq (G : Graph) : fromMetis (Csr.ofRows G) = ok G := by
  unfold fromMetis
  rw [Csr.ofRows_off_length, usub_of_le (by omega), Nat.add_sub_cancel]
  rw [mapRes_eq_map (g := fun v => (G[v]?).getD [])]
  · rw [map_range_getElem]
    intro i hi; simp [hi]
  · intro v hv
    have hv := List.mem_range.1 hv
    rw [metisRow_eq hv]; simp [hv]

/-! ### Edges with their positions -/

theorem edgeList_eq_flatten (G : Graph) :
    edgeList G = (G.mapIdx fun v row => row.map fun w => (v, w)).flatten := by
  unfold edgeList
  rw [List.flatMap_def]
  congr 1
  apply List.ext_getElem
  · simp
  · intro i h1 h2
    have : i < G.length := by simpa using h1
    simp [this]

theorem offsetOf_mapIdx (G : Graph) (k : Nat) :
    Csr.offsetOf (G.mapIdx fun v row => row.map fun w => (v, w)) k = Csr.offsetOf G k := by
  unfold Csr.offsetOf
  rw [List.length_flatten, List.length_flatten]
  congr 1
  apply List.ext_getElem
  · simp
  · intro i h1 h2; simp

theorem edgeList_getElem? {G : Graph} {v j : Nat} (hv : v < G.length) (hj : j < G[v].length) :
    (edgeList G)[Csr.offsetOf G v + j]? = some (v, G[v][j]) := by
  rw [edgeList_eq_flatten, ← offsetOf_mapIdx]
  have hv' : v < (G.mapIdx fun v row => row.map fun w => (v, w)).length := by simpa using hv
  rw [flatten_getElem? hv' (by simpa using hj)]
  simp

theorem length_edgeList (G : Graph) : (edgeList G).length = G.flatten.length := by
  rw [edgeList_eq_flatten, List.length_flatten, List.length_flatten]
  congr 1
  apply List.ext_getElem
  · simp
  · intro i h1 h2; simp

theorem netEdge_iff {G : Graph} {k v w : Nat} :
    NetEdge (Csr.ofRows G) k v w ↔ (edgeList G)[k]? = some (v, w) := by
  constructor
  · rintro ⟨a, b, ha, hb, hak, hkb, hw⟩
    rw [Csr.ofRows_off_get?] at ha hb
    have hv : v < G.length := by
      by_contra h
      rw [if_neg (by omega)] at hb; cases hb
    rw [if_pos (by omega)] at ha hb
    simp only [Option.some.injEq] at ha hb
    rw [Csr.offsetOf_succ G v hv] at hb
    obtain ⟨j, rfl⟩ : ∃ j, k = Csr.offsetOf G v + j := ⟨k - a, by omega⟩
    have hj : j < G[v].length := by omega
    rw [Csr.ofRows_el, flatten_getElem? hv hj] at hw
    simp only [Option.some.injEq] at hw
    rw [edgeList_getElem? hv hj, hw]
  · intro h
    have hk : k < G.flatten.length := by
      rw [← length_edgeList]; exact (List.getElem?_eq_some_iff.1 h).1
    obtain ⟨v', j, hv, hj, rfl⟩ := flatten_index G k hk
    rw [edgeList_getElem? hv hj] at h
    simp only [Option.some.injEq, Prod.mk.injEq] at h
    obtain ⟨rfl, rfl⟩ := h
    refine ⟨Csr.offsetOf G v', Csr.offsetOf G (v' + 1), ?_, ?_, by omega, ?_, ?_⟩
    · rw [Csr.ofRows_off_get?, if_pos (by omega)]
    · rw [Csr.ofRows_off_get?, if_pos (by omega)]
    · rw [Csr.offsetOf_succ G v' hv]; omega
    · rw [Csr.ofRows_el, flatten_getElem? hv hj]

theorem exists_netEdge {G : Graph} {v w : Nat} :
    (∃ k, NetEdge (Csr.ofRows G) k v w) ↔ Edge G v w := by
  rw [← mem_edgeList, List.mem_iff_getElem?]
  simp only [netEdge_iff]

theorem inRange_of_network {G : Graph} {n : Nat} (h : Network (Csr.ofRows G) n) :
    G.InRange ∧ G.length = n := by
  have hn : G.length = n := by
    have := h.1.length_off
    simpa using this
  refine ⟨?_, hn⟩
  rintro u w ⟨row, hr, hw⟩
  rw [hn]
  exact h.2 w (by rw [Csr.ofRows_el, List.mem_flatten]; exact ⟨row, List.mem_of_getElem? hr, hw⟩)

/-! ### Largest label -/

theorem maxElement_eq {l : List Nat} (h : l ≠ []) :
    ∃ m, maxElement l = ok m ∧ (∀ x ∈ l, x ≤ m) ∧ m ∈ l := by
  cases l with
  | nil => exact absurd rfl h
  | cons x xs =>
    refine ⟨_, rfl, ?_⟩
    have key : ∀ (xs : List Nat) (x : Nat), (∀ y ∈ x :: xs, y ≤ xs.foldl max x) ∧
        xs.foldl max x ∈ x :: xs := by
      intro xs
      induction xs with
      | nil => intro x; simp
      | cons y ys ih =>
        intro x
        obtain ⟨h1, h2⟩ := ih (max x y)
        have h3 := h1 (max x y) (by simp)
        refine ⟨fun z hz => ?_, ?_⟩
        · rw [List.foldl_cons]
          simp only [List.mem_cons] at hz
          rcases hz with rfl | rfl | hz
          · omega
          · omega
          · exact h1 z (by simp [hz])
        · rw [List.foldl_cons]
          simp only [List.mem_cons] at h2 ⊢
          rcases h2 with h2 | h2
          · rw [h2]
            rcases Nat.le_total x y with h | h
            · rw [Nat.max_eq_right h]; simp
            · rw [Nat.max_eq_left h]; simp
          · exact Or.inr (Or.inr h2)
    exact key xs x

/-! ### Constraints -/

/-- One round of the constraint loop, on an edge `(v, w)`. -/
def cstep (constrained : List Bool) (s : List Nat × Nat × Nat) (e : Nat × Nat) :
    Res (List Nat × Nat × Nat) := do
  let b ← vget constrained s.2.2
  if !b then ok (s.1, s.2.1, s.2.2 + 1)
  else do
    let lv ← vat s.1 e.1
    let lw ← vat s.1 e.2
    if lv ≠ lw then ok (s.1, s.2.1, s.2.2 + 1)
    else do
      let p ← vset s.1 e.2 (s.2.1 + 1)
      ok (p, s.2.1 + 1, s.2.2 + 1)

theorem constraints_fold (G : Graph) (constrained : List Bool) (s : List Nat × Nat × Nat) :
    foldRes (fun s v => do
        let b ← vget (Csr.ofRows G).off (v + 1)
        let a ← vget (Csr.ofRows G).off v
        foldRes (constraintStep (Csr.ofRows G) constrained v) s (List.range (usub b a)))
      s (List.range (usub (Csr.ofRows G).off.length 1)) =
    foldRes (cstep constrained) s (edgeList G) := by
  rw [Csr.ofRows_off_length, usub_of_le (by omega), Nat.add_sub_cancel]
  unfold edgeList
  rw [foldRes_flatMap]
  apply foldRes_congr
  intro s v hv
  have hv := List.mem_range.1 hv
  rw [Csr.vget_ofRows_off (by omega : v + 1 ≤ G.length), Csr.vget_ofRows_off (by omega)]
  simp only [ok_bind]
  rw [Csr.offsetOf_succ G v hv, usub_of_le (by omega), Nat.add_sub_cancel_left]
  have hmap : ((G[v]?).getD []).map (fun w => (v, w)) =
      (List.range G[v].length).map fun k => (v, (G[v][k]?).getD 0) := by
    rw [List.getElem?_eq_getElem hv, Option.getD_some]
    apply List.ext_getElem
    · simp
    · intro i h1 h2
      have : i < G[v].length := by simpa using h1
      simp [this]
  rw [hmap, foldRes_map]
  apply foldRes_congr
  intro s k hk
  have hk := List.mem_range.1 hk
  unfold constraintStep cstep
  rw [Csr.vget_ofRows_off (by omega), Csr.ofRows_el]
  simp only [ok_bind]
  rw [vat_of_getElem? (flatten_getElem? hv hk), List.getElem?_eq_getElem hk]
  simp only [ok_bind, Option.getD_some]

/-- Invariant of the constraint loop after the edges `done`. -/
structure CInv (n : Nat) (constrained : List Bool) (part : List Nat) (done : List (Nat × Nat))
    (s : List Nat × Nat × Nat) : Prop where
  length : s.1.length = n
  edge : s.2.2 = done.length
  le : ∀ (u x : Nat), s.1[u]? = some x → x ≤ s.2.1
  sep : ∀ (i v w : Nat), done[i]? = some (v, w) → constrained[i]? = some true → v ≠ w →
    s.1[v]? ≠ s.1[w]?
  old : ∀ (u w : Nat), u < n → w < n → s.1[u]? = s.1[w]? → part[u]? = part[w]?
  keep : ∀ u : Nat, s.1[u]? = part[u]? ∨ ∃ (i v : Nat), done[i]? = some (v, u) ∧ constrained[i]? = some true

theorem cinv_step {n : Nat} {constrained : List Bool} {part : List Nat}
    {done : List (Nat × Nat)} {s : List Nat × Nat × Nat} (h : CInv n constrained part done s)
    {v w : Nat} (hv : v < n) (hw : w < n) (hc : done.length < constrained.length) :
    ∃ s', cstep constrained s (v, w) = ok s' ∧ CInv n constrained part (done ++ [(v, w)]) s' := by
  obtain ⟨p, m, e⟩ := s
  have he : e = done.length := h.edge
  have hlen : p.length = n := h.length
  subst he
  have hmem : ∀ (i : Nat) (q : Nat × Nat), (done ++ [(v, w)])[i]? = some q →
      done[i]? = some q ∨ (i = done.length ∧ q = (v, w)) := by
    intro i q hq
    rcases Nat.lt_trichotomy i done.length with hi | hi | hi
    · rw [List.getElem?_append_left hi] at hq; exact Or.inl hq
    · subst hi; simp at hq; exact Or.inr ⟨rfl, hq.symm⟩
    · rw [List.getElem?_eq_none (by simp; omega)] at hq; cases hq
  have hkeep : ∀ (i : Nat) (q : Nat × Nat), done[i]? = some q → (done ++ [(v, w)])[i]? = some q := by
    intro i q hq
    have := (List.getElem?_eq_some_iff.1 hq).1
    rw [List.getElem?_append_left this, hq]
  unfold cstep
  rw [vget_of_lt hc]
  simp only [ok_bind]
  cases hb : constrained[done.length] with
  | false =>
    refine ⟨_, rfl, h.length, by simp, h.le, ?_, h.old, fun u => ?_⟩
    · intro i a b hi hct hab
      rcases hmem i _ hi with hi | ⟨rfl, _⟩
      · exact h.sep i a b hi hct hab
      · rw [List.getElem?_eq_getElem hc, hb] at hct; cases hct
    · rcases h.keep u with h1 | ⟨i, a, h1, h2⟩
      · exact Or.inl h1
      · exact Or.inr ⟨i, a, hkeep i _ h1, h2⟩
  | true =>
    have hpv : p[v]? = some (p[v]'(by omega)) := List.getElem?_eq_getElem (by omega)
    have hpw : p[w]? = some (p[w]'(by omega)) := List.getElem?_eq_getElem (by omega)
    simp only [Bool.not_true, Bool.false_eq_true, if_false]
    rw [vat_of_getElem? hpv, vat_of_getElem? hpw]
    simp only [ok_bind]
    by_cases hne : p[v]'(by omega) ≠ p[w]'(by omega)
    · rw [if_pos hne]
      refine ⟨_, rfl, h.length, by simp, h.le, ?_, h.old, fun u => ?_⟩
      · intro i a b hi hct hab
        rcases hmem i _ hi with hi | ⟨rfl, hq⟩
        · exact h.sep i a b hi hct hab
        · cases hq
          simp only
          rw [hpv, hpw]; simpa using hne
      · rcases h.keep u with h1 | ⟨i, a, h1, h2⟩
        · exact Or.inl h1
        · exact Or.inr ⟨i, a, hkeep i _ h1, h2⟩
    · rw [if_neg hne, vset_of_lt _ (by omega)]
      have hfresh : ∀ u : Nat, p[u]? ≠ some (m + 1) := by
        intro u hu
        have := h.le u _ hu
        simp only at this
        omega
      have hset : ∀ u : Nat, (p.set w (m + 1))[u]? = if u = w then some (m + 1) else p[u]? := by
        intro u
        rw [List.getElem?_set]
        by_cases hu : w = u
        · subst hu; simp [hlen, hw]
        · rw [if_neg hu, if_neg (fun h => hu h.symm)]
      refine ⟨_, rfl, by simpa using hlen, by simp, ?_, ?_, ?_, ?_⟩
      · intro u x hx
        simp only [hset] at hx
        by_cases hu : u = w
        · rw [if_pos hu] at hx; cases hx; exact Nat.le_refl _
        · rw [if_neg hu] at hx; exact Nat.le_succ_of_le (h.le u x hx)
      · intro i a b hi hct hab
        simp only [hset]
        rcases hmem i _ hi with hi | ⟨rfl, hq⟩
        · by_cases ha : a = w
          · rw [if_pos ha, if_neg (fun hb => hab (ha.trans hb.symm))]
            exact (hfresh b).symm
          · by_cases hbw : b = w
            · rw [if_neg ha, if_pos hbw]; exact hfresh a
            · rw [if_neg ha, if_neg hbw]; exact h.sep i a b hi hct hab
        · cases hq
          rw [if_neg hab, if_pos rfl]; exact hfresh v
      · intro u x hu hx hux
        simp only [hset] at hux
        by_cases h1 : u = w
        · by_cases h2 : x = w
          · rw [h1, h2]
          · rw [if_pos h1, if_neg h2] at hux; exact absurd hux.symm (hfresh x)
        · by_cases h2 : x = w
          · rw [if_neg h1, if_pos h2] at hux; exact absurd hux (hfresh u)
          · rw [if_neg h1, if_neg h2] at hux; exact h.old u x hu hx hux
      · intro u
        simp only [hset]
        by_cases h1 : u = w
        · subst h1
          exact Or.inr ⟨done.length, v, by simp, by rw [List.getElem?_eq_getElem hc, hb]⟩
        · rw [if_neg h1]
          rcases h.keep u with h1 | ⟨i, a, h1, h2⟩
          · exact Or.inl h1
          · exact Or.inr ⟨i, a, hkeep i _ h1, h2⟩

theorem cinv_fold {n : Nat} {constrained : List Bool} {part : List Nat} (es : List (Nat × Nat)) :
    ∀ (done : List (Nat × Nat)) (s : List Nat × Nat × Nat), CInv n constrained part done s →
      (∀ e ∈ es, e.1 < n ∧ e.2 < n) → done.length + es.length ≤ constrained.length →
      ∃ s', foldRes (cstep constrained) s es = ok s' ∧ CInv n constrained part (done ++ es) s' := by
  induction es with
  | nil => intro done s h _ _; exact ⟨s, rfl, by simpa using h⟩
  | cons e es ih =>
    intro done s h he hc
    simp only [List.length_cons] at hc
    obtain ⟨s1, h1, hI⟩ := cinv_step h (he e (by simp)).1 (he e (by simp)).2
      (show done.length < constrained.length by omega)
    obtain ⟨s2, h2, hI2⟩ := ih (done ++ [e]) s1 hI (fun e' h' => he e' (by simp [h']))
      (by simp; omega)
    exact ⟨s2, by rw [foldRes_cons, h1]; exact h2, by simpa using hI2⟩

end Verif
