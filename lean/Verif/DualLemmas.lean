import Verif.DualSpec
import Verif.MetisLemmas
import Verif.GraphLemmas2
import Verif.BisectStepLemmas
import Verif.ExtractLemmas
import Mathlib.Data.List.Duplicate

/-
Helper lemmas for the dual graph of a mesh.
-/
namespace Verif

open Res

/-! ### Rows -/

theorem netRows_eq {α : Type} (L : List (List α)) :
    netRows L = ok ((List.range (L.length + 1)).map (Csr.offsetOf L), L.flatten) := by
  have key : ∀ k, k ≤ L.length → foldRes
    (fun (s : List Nat × List α) v => do
      let row ← vget L v
      let a ← vget s.1 v
      let rows ← vset s.1 (v + 1) (a + row.length)
      ok (rows, s.2 ++ row))
    (List.replicate (L.length + 1) 0, []) (List.range k) =
    ok ((List.range (L.length + 1)).map (fun i => if i ≤ k then Csr.offsetOf L i else 0),
      (L.take k).flatten) := by
    intro k
    induction k with
    | zero =>
      intro _
      simp only [List.range_zero, foldRes_nil, List.take_zero, List.flatten_nil]
      congr 2
      apply List.ext_getElem
      · simp
      · intro i h1 h2
        simp only [List.getElem_replicate, List.getElem_map, List.getElem_range]
        by_cases hi : i ≤ 0
        · have : i = 0 := by omega
          subst this; simp
        · simp [hi]
    | succ k ih =>
      intro hk
      rw [List.range_succ, foldRes_append, ih (by omega), ok_bind, foldRes_cons]
      rw [vget_of_lt (show k < L.length by omega), ok_bind, vget_of_lt (by simp; omega)]
      simp only [ok_bind, List.getElem_map, List.getElem_range, Nat.le_refl, if_true]
      rw [vset_of_lt _ (by simp; omega)]
      simp only [ok_bind, foldRes_nil]
      congr 2
      · apply List.ext_getElem
        · simp
        · intro i h1 h2
          rw [List.getElem_set]
          simp only [List.getElem_map, List.getElem_range]
          by_cases h : k + 1 = i
          · subst h
            simp [Csr.offsetOf_succ L k (by omega)]
          · rw [if_neg h]
            by_cases h' : i ≤ k
            · rw [if_pos h', if_pos (by omega)]
            · rw [if_neg h', if_neg (by omega)]
      · rw [List.take_succ_eq_append_getElem (show k < L.length by omega), List.flatten_append]
        simp only [List.flatten_cons, List.flatten_nil, List.append_nil]
  unfold netRows
  rw [key L.length (Nat.le_refl _), List.take_length]
  congr 2
  apply List.map_congr_left
  intro i hi
  rw [if_pos (by have := List.mem_range.1 hi; omega)]

theorem offsetOf_map {α β : Type} (f : α → β) (L : List (List α)) (k : Nat) :
    Csr.offsetOf (L.map (List.map f)) k = Csr.offsetOf L k := by
  unfold Csr.offsetOf
  rw [← List.map_take, ← List.map_flatten, List.length_map]

/-- The network of lists of connections is the adjacency in offset format. -/
theorem net_ofRows {α : Type} (f : α → Nat) (L : List (List α)) :
    (⟨(List.range (L.length + 1)).map (Csr.offsetOf L), L.flatten.map f⟩ : Csr Nat) =
      Csr.ofRows (L.map (List.map f)) := by
  unfold Csr.ofRows
  rw [List.length_map, List.map_flatten]
  congr 1
  apply List.map_congr_left
  intro i _
  rw [offsetOf_map]

theorem netEdge_row_iff {α : Type} (f : α → Nat) (L : List (List α)) (k v w : Nat) :
    NetEdge (Csr.ofRows (L.map (List.map f))) k v w ↔
      ∃ (row : List α) (j : Nat) (c : α), L[v]? = some row ∧ row[j]? = some c ∧ k = Csr.offsetOf L v + j ∧ f c = w := by
  unfold NetEdge
  constructor
  · rintro ⟨a, b, ha, hb, hak, hkb, hw⟩
    rw [Csr.ofRows_off_get?] at ha hb
    split at hb
    · rename_i hlt
      rw [List.length_map] at hlt
      rw [if_pos (by rw [List.length_map]; omega)] at ha
      have ha := Option.some.inj ha
      have hb := Option.some.inj hb
      rw [offsetOf_map] at ha hb
      have hv : v < L.length := by omega
      rw [Csr.offsetOf_succ L v hv] at hb
      obtain ⟨j, rfl⟩ : ∃ j, k = Csr.offsetOf L v + j := ⟨k - Csr.offsetOf L v, by omega⟩
      have hj : j < L[v].length := by omega
      rw [Csr.ofRows_el, ← List.map_flatten, List.getElem?_map, flatten_getElem? hv hj] at hw
      exact ⟨L[v], j, L[v][j], List.getElem?_eq_getElem hv, List.getElem?_eq_getElem hj, rfl,
        Option.some.inj hw⟩
    · cases hb
  · rintro ⟨row, j, c, hv, hj, rfl, rfl⟩
    obtain ⟨hv', rfl⟩ := List.getElem?_eq_some_iff.1 hv
    obtain ⟨hj', rfl⟩ := List.getElem?_eq_some_iff.1 hj
    refine ⟨Csr.offsetOf L v, Csr.offsetOf L (v + 1), ?_, ?_, by omega, ?_, ?_⟩
    · rw [Csr.ofRows_off_get?, if_pos (by rw [List.length_map]; omega), offsetOf_map]
    · rw [Csr.ofRows_off_get?, if_pos (by rw [List.length_map]; omega), offsetOf_map]
    · rw [Csr.offsetOf_succ L v hv']; omega
    · rw [Csr.ofRows_el, ← List.map_flatten, List.getElem?_map, flatten_getElem? hv' hj']; rfl

theorem flatten_at {α : Type} {L : List (List α)} {v j : Nat} {row : List α} {c : α} (hv : L[v]? = some row)
    (hj : row[j]? = some c) : L.flatten[Csr.offsetOf L v + j]? = some c := by
  obtain ⟨hv', rfl⟩ := List.getElem?_eq_some_iff.1 hv
  obtain ⟨hj', rfl⟩ := List.getElem?_eq_some_iff.1 hj
  exact flatten_getElem? hv' hj'

/-- Counting connections in the network is counting them in the list of the vertex. -/
theorem connections_eq {α : Type} (f g : α → Nat) (L : List (List α)) {v : Nat} {row : List α} (hv : L[v]? = some row)
    (w e : Nat) : connections (Csr.ofRows (L.map (List.map f))) (L.flatten.map g) v w e =
      row.countP fun c => decide (f c = w ∧ g c = e) := by
  classical
  have hset : {k | NetEdge (Csr.ofRows (L.map (List.map f))) k v w ∧ (L.flatten.map g)[k]? = some e} =
      (((Finset.range row.length).filter fun j => ∃ c, row[j]? = some c ∧ f c = w ∧ g c = e).image
        (Csr.offsetOf L v + ·) : Finset Nat) := by
    ext k
    simp only [Set.mem_setOf_eq, Finset.coe_image, Finset.coe_filter, Finset.mem_range, Set.mem_image]
    constructor
    · rintro ⟨hk, he⟩
      obtain ⟨row', j, c, h1, h2, rfl, h3⟩ := (netEdge_row_iff f L k v w).1 hk
      rw [hv] at h1
      obtain rfl := Option.some.inj h1
      rw [List.getElem?_map, flatten_at hv h2] at he
      exact ⟨j, ⟨(List.getElem?_eq_some_iff.1 h2).1, c, h2, h3, Option.some.inj he⟩, rfl⟩
    · rintro ⟨j, ⟨_, c, h2, h3, h4⟩, rfl⟩
      refine ⟨(netEdge_row_iff f L _ v w).2 ⟨row, j, c, hv, h2, rfl, h3⟩, ?_⟩
      rw [List.getElem?_map, flatten_at hv h2]
      exact congrArg some h4
  unfold connections
  rw [hset, Set.ncard_coe_finset, Finset.card_image_of_injective _ (fun a b h => by simpa using h)]
  clear hset hv
  induction row using List.reverseRecOn with
  | nil => simp
  | append_singleton l c ih =>
    rw [List.countP_append, ← ih, List.length_append, List.length_singleton, Finset.range_add_one,
      Finset.filter_insert]
    have hfil : (Finset.range l.length).filter (fun j => ∃ c', (l ++ [c])[j]? = some c' ∧ f c' = w ∧ g c' = e) =
        (Finset.range l.length).filter fun j => ∃ c', l[j]? = some c' ∧ f c' = w ∧ g c' = e := by
      ext j
      simp only [Finset.mem_filter, Finset.mem_range]
      constructor
      · rintro ⟨hj, h⟩
        rw [List.getElem?_append_left hj] at h
        exact ⟨hj, h⟩
      · rintro ⟨hj, h⟩
        rw [List.getElem?_append_left hj]
        exact ⟨hj, h⟩
    rw [hfil]
    have hlast : (l ++ [c])[l.length]? = some c := by simp
    by_cases h : f c = w ∧ g c = e
    · rw [if_pos ⟨c, hlast, h⟩, Finset.card_insert_of_notMem (by simp)]
      simp [h]
    · rw [if_neg (by rintro ⟨c', h1, h2⟩; rw [hlast] at h1; obtain rfl := Option.some.inj h1; exact h h2)]
      simp [h]

/-! ### Pairs of slots -/

/-- The pairs of different positions, the smaller one first. -/
def pairsOf : List Nat → List (Nat × Nat)
  | [] => []
  | a :: r => r.map (fun b => (a, b)) ++ pairsOf r

theorem count_pairsOf (r : List Nat) (v w : Nat) :
    (pairsOf r).countP (fun p => decide (p.1 = v ∧ p.2 = w)) + (pairsOf r).countP (fun p => decide (p.2 = v ∧ p.1 = w)) =
      slotPairs r v w := by
  have hmap : ∀ (a : Nat) (r : List Nat) (x y : Nat), (r.map fun b => (a, b)).countP
      (fun p => decide (p.1 = x ∧ p.2 = y)) = if a = x then r.count y else 0 := by
    intro a r x y
    rw [List.countP_map]
    by_cases h : a = x
    · rw [if_pos h, List.count]
      congr 1
      funext b
      by_cases hb : b = y <;> simp [h, hb]
    · rw [if_neg h, List.countP_eq_zero]
      intro b _
      simp [h]
  have hmap' : ∀ (a : Nat) (r : List Nat) (x y : Nat), (r.map fun b => (a, b)).countP
      (fun p => decide (p.2 = x ∧ p.1 = y)) = if a = y then r.count x else 0 := by
    intro a r x y
    rw [← hmap a r y x]
    congr 1
    funext p
    simp [and_comm]
  induction r with
  | nil => simp [pairsOf, slotPairs]
  | cons a r ih =>
    simp only [pairsOf, List.countP_append, hmap, hmap']
    have hstep : slotPairs (a :: r) v w =
        slotPairs r v w + (if a = v then r.count w else 0) + (if a = w then r.count v else 0) := by
      unfold slotPairs
      simp only [List.count_cons, beq_iff_eq]
      by_cases hvw : v = w
      · subst hvw
        by_cases hav : a = v
        · simp only [hav, if_true]
          cases r.count v with
          | zero => rfl
          | succ n => simp only [Nat.add_sub_cancel]; ring
        · simp [hav]
      · by_cases hav : a = v
        · have : ¬ a = w := fun h => hvw (hav.symm.trans h)
          simp [hvw, hav, this]
          ring
        · by_cases haw : a = w
          · subst haw
            have : ¬ v = a := fun h => hav h.symm
            simp [this, hav]
            ring
          · simp [hvw, hav, haw]
    rw [hstep, ← ih]
    ring

theorem slotPairs_pos (r : List Nat) (v w : Nat) :
    0 < slotPairs r v w ↔ ∃ i j : Nat, i ≠ j ∧ r[i]? = some v ∧ r[j]? = some w := by
  unfold slotPairs
  by_cases h : v = w
  · subst h
    rw [if_pos rfl]
    have h2 : 0 < r.count v * (r.count v - 1) ↔ 2 ≤ r.count v := by
      constructor
      · intro h
        by_contra hlt
        have : r.count v = 0 ∨ r.count v = 1 := by omega
        rcases this with h' | h' <;> rw [h'] at h <;> simp at h
      · intro h
        exact Nat.mul_pos (by omega) (by omega)
    rw [h2, ← List.duplicate_iff_two_le_count, List.duplicate_iff_exists_distinct_get]
    constructor
    · rintro ⟨n, k, hnk, h1, h2⟩
      refine ⟨n, k, by have : n.1 < k.1 := hnk; omega, ?_, ?_⟩
      · rw [List.getElem?_eq_getElem n.2, h1]; rfl
      · rw [List.getElem?_eq_getElem k.2, h2]; rfl
    · rintro ⟨i, j, hij, h1, h2⟩
      obtain ⟨hi, e1⟩ := List.getElem?_eq_some_iff.1 h1
      obtain ⟨hj, e2⟩ := List.getElem?_eq_some_iff.1 h2
      rcases Nat.lt_or_gt_of_ne hij with hlt | hlt
      · exact ⟨⟨i, hi⟩, ⟨j, hj⟩, hlt, e1.symm, e2.symm⟩
      · exact ⟨⟨j, hj⟩, ⟨i, hi⟩, hlt, e2.symm, e1.symm⟩
  · rw [if_neg h]
    constructor
    · intro hp
      have h1 : 0 < r.count v := Nat.pos_of_mul_pos_right hp
      have h2 : 0 < r.count w := Nat.pos_of_mul_pos_left hp
      obtain ⟨i, hi⟩ := List.mem_iff_getElem?.1 (List.count_pos_iff.1 h1)
      obtain ⟨j, hj⟩ := List.mem_iff_getElem?.1 (List.count_pos_iff.1 h2)
      refine ⟨i, j, ?_, hi, hj⟩
      rintro rfl
      rw [hi] at hj
      exact h (Option.some.inj hj)
    · rintro ⟨i, j, _, h1, h2⟩
      exact Nat.mul_pos (List.count_pos_iff.2 (List.mem_of_getElem? h1))
        (List.count_pos_iff.2 (List.mem_of_getElem? h2))

theorem slotPairs_filter (r : List Nat) {n v w : Nat} (hv : v < n) (hw : w < n) :
    slotPairs (r.filter fun x => decide (x < n)) v w = slotPairs r v w := by
  unfold slotPairs
  rw [List.count_filter (by simpa using hv), List.count_filter (by simpa using hw)]

/-! ### The loops over the slots -/

/-- The constraint flag the code reads for cell `e`. -/
def consAt (num : Nat) (cons : List Bool) (e : Nat) : Bool :=
  if cons.length = num then cons.getD e false else false

theorem consAt_read (num : Nat) (cons : List Bool) {e : Nat} (he : e < num) :
    dualFlag cons num e = ok (consAt num cons e) := by
  unfold consAt dualFlag
  by_cases h : cons.length = num
  · rw [if_pos h, if_pos h, vget_of_lt (by omega), List.getD_eq_getElem?_getD, List.getElem?_eq_getElem (by omega)]
    rfl
  · rw [if_neg h, if_neg h]

variable {α : Type}

theorem dualInner_eq {m : Mesh α} (h : m.WF) {l : Lst} (cons : List Bool) {e : Nat} (he : e < m.num l.owner)
    {r : List Nat} (hr : m.row l e = ok r) (a k : Nat) (s : List (List Link) × List (Nat × Nat)) :
    m.dualInner l cons e a r.length k s =
      foldRes (fun s p => linkPair (consAt (m.num l.owner) cons e) e p.1 p.2 s) s
        (((r.drop (k + 1)).filter fun x => decide (x < m.num l.target)).map fun b => (a, b)) := by
  unfold Mesh.dualInner
  simp only [consAt_read _ cons he, ok_bind]
  suffices H : ∀ (M : List Nat) (k : Nat) (s : List (List Link) × List (Nat × Nat)), r.drop k = M →
      foldRes (fun s n2 => do
        let h ← m.hasEntry l e n2
        if !h then ok s
        else do
          let b ← m.entry l e n2
          linkPair (consAt (m.num l.owner) cons e) e a b s) s (List.range' k M.length) =
      foldRes (fun s p => linkPair (consAt (m.num l.owner) cons e) e p.1 p.2 s) s
        ((M.filter fun x => decide (x < m.num l.target)).map fun b => (a, b)) by
    have := H (r.drop (k + 1)) (k + 1) s rfl
    rw [List.length_drop] at this
    exact this
  intro M
  induction M with
  | nil => intro k s _; rfl
  | cons b M ih =>
    intro k s hM
    have hk : r[k]? = some b := by
      have := congrArg (fun t => t[0]?) hM
      simpa using this
    have hM' : r.drop (k + 1) = M := by
      rw [← List.tail_drop, hM]; rfl
    rw [List.length_cons, List.range'_succ, foldRes_cons, hasEntry_of_row h hr hk, entry_of_row h hr hk]
    simp only [ok_bind]
    by_cases hb : b < m.num l.target
    · simp only [hb, decide_true, Bool.not_true, Bool.false_eq_true, if_false, List.filter_cons, if_true,
        List.map_cons, foldRes_cons]
      cases linkPair (consAt (m.num l.owner) cons e) e a b s with
      | ok s' => simp only [ok_bind]; exact ih (k + 1) s' hM'
      | _ => rfl
    · simp only [hb, decide_false, Bool.not_false, if_true, List.filter_cons, Bool.false_eq_true, if_false, ok_bind]
      exact ih (k + 1) s hM'

theorem dualCell_eq {m : Mesh α} (h : m.WF) {l : Lst} (cons : List Bool) {e : Nat} (he : e < m.num l.owner)
    {r : List Nat} (hr : m.row l e = ok r) (s : List (List Link) × List (Nat × Nat)) :
    m.dualCell l cons s e = foldRes (fun s p => linkPair (consAt (m.num l.owner) cons e) e p.1 p.2 s) s
      (pairsOf (r.filter fun x => decide (x < m.num l.target))) := by
  unfold Mesh.dualCell
  rw [rowSize_of_row h hr, ok_bind]
  suffices H : ∀ (M : List Nat) (k : Nat) (s : List (List Link) × List (Nat × Nat)), r.drop k = M →
      foldRes (fun s n1 => do
        let h ← m.hasEntry l e n1
        if !h then ok s
        else do
          let a ← m.entry l e n1
          m.dualInner l cons e a r.length n1 s) s (List.range' k M.length) =
      foldRes (fun s p => linkPair (consAt (m.num l.owner) cons e) e p.1 p.2 s) s
        (pairsOf (M.filter fun x => decide (x < m.num l.target))) by
    have := H r 0 s rfl
    rw [← List.range_eq_range'] at this
    exact this
  intro M
  induction M with
  | nil => intro k s _; rfl
  | cons b M ih =>
    intro k s hM
    have hk : r[k]? = some b := by
      have := congrArg (fun t => t[0]?) hM
      simpa using this
    have hM' : r.drop (k + 1) = M := by
      rw [← List.tail_drop, hM]; rfl
    rw [List.length_cons, List.range'_succ, foldRes_cons, hasEntry_of_row h hr hk, entry_of_row h hr hk]
    simp only [ok_bind]
    by_cases hb : b < m.num l.target
    · simp only [hb, decide_true, Bool.not_true, Bool.false_eq_true, if_false, List.filter_cons, if_true,
        pairsOf, foldRes_append]
      rw [dualInner_eq h cons he hr, hM']
      cases foldRes (fun s p => linkPair (consAt (m.num l.owner) cons e) e p.1 p.2 s) s
          ((M.filter fun x => decide (x < m.num l.target)).map fun b' => (b, b')) with
      | ok s' => simp only [ok_bind]; exact ih (k + 1) s' hM'
      | _ => rfl
    · simp only [hb, decide_false, Bool.not_false, if_true, List.filter_cons, Bool.false_eq_true, if_false, ok_bind]
      exact ih (k + 1) s hM'

/-! ### All pairs -/

/-- A pair of cells with the cell in between and its flag. -/
abbrev DPair := Bool × Nat × Nat × Nat

def dpush (p : DPair) : List (Nat × Link) := [(p.2.2.1, ⟨p.1, p.2.2.2, p.2.1⟩), (p.2.2.2, ⟨p.1, p.2.2.1, p.2.1⟩)]

def dcons (p : DPair) : List (Nat × Nat) := if p.1 then [(p.2.2.1, p.2.2.2), (p.2.2.2, p.2.2.1)] else []

theorem linkPairs_eq (P : List DPair) : ∀ s : List (List Link) × List (Nat × Nat),
    (∀ p ∈ P, p.2.2.1 < s.1.length ∧ p.2.2.2 < s.1.length) →
    foldRes (fun s (p : DPair) => linkPair p.1 p.2.1 p.2.2.1 p.2.2.2 s) s P =
      ok (pushed s.1 (P.flatMap dpush), s.2 ++ P.flatMap dcons) := by
  induction P with
  | nil => intro s _; simp [pushed_nil]
  | cons p P ih =>
    intro s hs
    obtain ⟨h1, h2⟩ := hs p (by simp)
    have h3 := fun q hq => hs q (List.mem_cons_of_mem _ hq)
    have hstep : linkPair p.1 p.2.1 p.2.2.1 p.2.2.2 s = ok ((s.1.set p.2.2.1 (s.1[p.2.2.1] ++
        [⟨p.1, p.2.2.2, p.2.1⟩])).set p.2.2.2 ((s.1.set p.2.2.1 (s.1[p.2.2.1] ++ [⟨p.1, p.2.2.2, p.2.1⟩]))[p.2.2.2]'(by
          simpa using h2) ++ [⟨p.1, p.2.2.1, p.2.1⟩]), if p.1 then s.2 ++ [(p.2.2.1, p.2.2.2), (p.2.2.2, p.2.2.1)]
          else s.2) := by
      unfold linkPair
      rw [pushBack_eq _ h1, ok_bind, pushBack_eq _ (by simpa using h2), ok_bind]
    rw [foldRes_cons, hstep, ok_bind, ih _ (by simpa using h3)]
    congr 2
    · rw [List.flatMap_cons, dpush, List.cons_append, List.cons_append, List.nil_append,
        ← pushed_cons s.1 _ _ h1, ← pushed_cons _ _ _ (by simpa using h2)]
    · rw [List.flatMap_cons, dcons]
      by_cases hp : p.1 = true <;> simp [hp]

/-- All pairs of cells which the loops meet. -/
def dualPairs (m : Mesh α) (l : Lst) (cons : List Bool) : List DPair :=
  (List.range (m.num l.owner)).flatMap fun e =>
    match m.row l e with
    | ok r => (pairsOf (r.filter fun x => decide (x < m.num l.target))).map fun p =>
        (consAt (m.num l.owner) cons e, e, p.1, p.2)
    | _ => []

theorem mem_pairsOf_mem {r : List Nat} {p : Nat × Nat} (hp : p ∈ pairsOf r) : p.1 ∈ r ∧ p.2 ∈ r := by
  induction r with
  | nil => cases hp
  | cons a r ih =>
    rcases List.mem_append.1 hp with h | h
    · obtain ⟨b, hb, rfl⟩ := List.mem_map.1 h
      exact ⟨by simp, by simp [hb]⟩
    · exact ⟨List.mem_cons_of_mem _ (ih h).1, List.mem_cons_of_mem _ (ih h).2⟩

theorem mem_dualPairs {m : Mesh α} {l : Lst} {cons : List Bool} {p : DPair} (hp : p ∈ dualPairs m l cons) :
    p.2.1 < m.num l.owner ∧ p.1 = consAt (m.num l.owner) cons p.2.1 ∧ p.2.2.1 < m.num l.target ∧
      p.2.2.2 < m.num l.target := by
  obtain ⟨e, he, hp⟩ := List.mem_flatMap.1 hp
  rw [List.mem_range] at he
  cases hr : m.row l e with
  | ok r =>
    rw [hr] at hp
    obtain ⟨q, hq, rfl⟩ := List.mem_map.1 hp
    obtain ⟨h1, h2⟩ := mem_pairsOf_mem hq
    exact ⟨he, rfl, by simpa using (List.mem_filter.1 h1).2, by simpa using (List.mem_filter.1 h2).2⟩
  | _ => rw [hr] at hp; cases hp

theorem dualLoop_eq {m : Mesh α} (h : m.WF) (l : Lst) (cons : List Bool) :
    foldRes (m.dualCell l cons) (List.replicate (m.num l.target) [], []) (List.range (m.num l.owner)) =
      ok (pushed (List.replicate (m.num l.target) []) ((dualPairs m l cons).flatMap dpush),
        (dualPairs m l cons).flatMap dcons) := by
  have h1 : foldRes (m.dualCell l cons) (List.replicate (m.num l.target) [], []) (List.range (m.num l.owner)) =
      foldRes (fun s (p : DPair) => linkPair p.1 p.2.1 p.2.2.1 p.2.2.2 s) (List.replicate (m.num l.target) [], [])
        (dualPairs m l cons) := by
    unfold dualPairs
    rw [foldRes_flatMap]
    apply foldRes_congr
    intro s e he
    rw [List.mem_range] at he
    obtain ⟨r, hr⟩ := Mesh.row_exists h l he
    rw [dualCell_eq h cons he hr, hr]
    simp only []
    rw [foldRes_map]
  rw [h1, linkPairs_eq]
  · simp
  · intro p hp
    simpa using (mem_dualPairs hp).2.2

theorem sum_single (n e : Nat) (f : Nat → Nat) (h : ∀ i, i ≠ e → f i = 0) :
    ((List.range n).map f).sum = if e < n then f e else 0 := by
  induction n with
  | zero => simp
  | succ n ih =>
    rw [List.range_succ, List.map_append, List.sum_append, ih]
    simp only [List.map_cons, List.map_nil, List.sum_cons, List.sum_nil, Nat.add_zero]
    by_cases he : e = n
    · subst he; simp
    · rw [h n (fun h => he h.symm), Nat.add_zero]
      by_cases h' : e < n
      · rw [if_pos h', if_pos (by omega)]
      · rw [if_neg h', if_neg (by omega)]

theorem sum_map_flatMap {β γ : Type} (xs : List β) (f : β → List γ) (g : γ → Nat) :
    ((xs.flatMap f).map g).sum = (xs.map fun x => ((f x).map g).sum).sum := by
  induction xs with
  | nil => rfl
  | cons x xs ih => rw [List.flatMap_cons, List.map_append, List.sum_append, ih, List.map_cons, List.sum_cons]

/-- The connections of `v` which the loops push. -/
def dualRow (m : Mesh α) (l : Lst) (cons : List Bool) (v : Nat) : List Link :=
  (((dualPairs m l cons).flatMap dpush).filter fun p => p.1 == v).map (·.2)

theorem countP_dualRow {m : Mesh α} {l : Lst} {cons : List Bool} {v w e : Nat} {r : List Nat}
    (he : e < m.num l.owner) (hr : m.row l e = ok r) (hv : v < m.num l.target) (hw : w < m.num l.target) :
    (dualRow m l cons v).countP (fun c => decide (c.to = w ∧ c.cell = e)) = slotPairs r v w := by
  unfold dualRow
  rw [List.countP_map, List.countP_filter, List.countP_flatMap]
  have hdp : ∀ p : DPair, ((List.countP fun x : Nat × Link => ((fun c : Link => decide (c.to = w ∧ c.cell = e)) ∘
      fun x => x.2) x && (x.1 == v)) ∘ dpush) p =
      if p.2.1 = e then (if p.2.2.1 = v ∧ p.2.2.2 = w then 1 else 0) + (if p.2.2.2 = v ∧ p.2.2.1 = w then 1 else 0)
      else 0 := by
    rintro ⟨b, e', x, y⟩
    simp only [Function.comp_apply, dpush, List.countP_cons, List.countP_nil]
    by_cases h1 : e' = e
    · have hc : ∀ a b : Prop, [Decidable (a ∧ b)] → [Decidable (b ∧ a)] →
          (if a ∧ b then 1 else 0) = if b ∧ a then 1 else 0 := by
        intro a b _ _
        by_cases ha : a <;> by_cases hb : b <;> simp [ha, hb]
      simp only [h1, and_true, if_true, Nat.zero_add, Bool.and_eq_true, decide_eq_true_eq, beq_iff_eq]
      rw [hc (x = w), hc (y = w), Nat.add_comm]
    · simp [h1]
  rw [List.map_congr_left (fun p _ => hdp p)]
  unfold dualPairs
  rw [sum_map_flatMap]
  rw [sum_single (m.num l.owner) e]
  · rw [if_pos he, hr]
    simp only [List.map_map]
    rw [← slotPairs_filter r hv hw, ← count_pairsOf]
    generalize pairsOf _ = Q
    induction Q with
    | nil => rfl
    | cons q Q ih =>
      rw [List.map_cons, List.sum_cons, ih, List.countP_cons, List.countP_cons]
      simp only [Function.comp_apply, if_true, decide_eq_true_eq]
      ring
  · intro i hi
    cases m.row l i with
    | ok r' =>
      simp only [List.map_map]
      rw [List.sum_eq_zero]
      intro x hx
      obtain ⟨q, _, rfl⟩ := List.mem_map.1 hx
      simp [hi]
    | _ => rfl

/-! ### Constraints -/

theorem mem_pairsOf_iff (r : List Nat) (v w : Nat) :
    ((v, w) ∈ pairsOf r ∨ (w, v) ∈ pairsOf r) ↔ 0 < slotPairs r v w := by
  rw [← count_pairsOf]
  constructor
  · rintro (h | h)
    · exact Nat.add_pos_left (List.countP_pos_iff.2 ⟨_, h, by simp⟩) _
    · exact Nat.add_pos_right _ (List.countP_pos_iff.2 ⟨_, h, by simp⟩)
  · intro h
    rcases Nat.add_pos_iff_pos_or_pos.1 h with h | h
    · obtain ⟨⟨a, b⟩, h1, h2⟩ := List.countP_pos_iff.1 h
      simp only [decide_eq_true_eq] at h2
      obtain ⟨rfl, rfl⟩ := h2
      exact Or.inl h1
    · obtain ⟨⟨a, b⟩, h1, h2⟩ := List.countP_pos_iff.1 h
      simp only [decide_eq_true_eq] at h2
      obtain ⟨rfl, rfl⟩ := h2
      exact Or.inr h1

theorem mem_constraints {m : Mesh α} (h : m.WF) {l : Lst} {cons : List Bool} {v w : Nat} (hv : v < m.num l.target)
    (hw : w < m.num l.target) :
    (v, w) ∈ (dualPairs m l cons).flatMap dcons ↔
      ∃ e, e < m.num l.owner ∧ consAt (m.num l.owner) cons e = true ∧ DualJoins m l e v w := by
  have hj : ∀ {e : Nat} {r : List Nat}, m.row l e = ok r →
      (DualJoins m l e v w ↔ 0 < slotPairs (r.filter fun x => decide (x < m.num l.target)) v w) := by
    intro e r hr
    rw [slotPairs_filter r hv hw, slotPairs_pos]
    constructor
    · rintro ⟨r', i, j, hr', hij⟩
      rw [hr] at hr'
      obtain rfl := Res.ok.inj hr'
      exact ⟨i, j, hij⟩
    · rintro ⟨i, j, hij⟩
      exact ⟨r, i, j, hr, hij⟩
  rw [List.mem_flatMap]
  constructor
  · rintro ⟨p, hp, hd⟩
    obtain ⟨e, he, hp⟩ := List.mem_flatMap.1 hp
    rw [List.mem_range] at he
    obtain ⟨r, hr⟩ := Mesh.row_exists h l he
    rw [hr] at hp
    obtain ⟨q, hq, rfl⟩ := List.mem_map.1 hp
    unfold dcons at hd
    simp only [] at hd
    split at hd
    · rename_i hc
      refine ⟨e, he, hc, (hj hr).2 ((mem_pairsOf_iff _ v w).1 ?_)⟩
      simp only [List.mem_cons, List.not_mem_nil, or_false, Prod.mk.injEq] at hd
      rcases hd with ⟨rfl, rfl⟩ | ⟨rfl, rfl⟩
      · exact Or.inl hq
      · exact Or.inr hq
    · cases hd
  · rintro ⟨e, he, hc, hJ⟩
    obtain ⟨r, hr⟩ := Mesh.row_exists h l he
    have := (mem_pairsOf_iff _ v w).2 ((hj hr).1 hJ)
    have hmem : ∀ q, q ∈ pairsOf (r.filter fun x => decide (x < m.num l.target)) →
        (consAt (m.num l.owner) cons e, e, q.1, q.2) ∈ dualPairs m l cons := by
      intro q hq
      refine List.mem_flatMap.2 ⟨e, List.mem_range.2 he, ?_⟩
      rw [hr]
      exact List.mem_map.2 ⟨q, hq, rfl⟩
    rcases this with hq | hq
    · exact ⟨_, hmem _ hq, by simp [dcons, hc]⟩
    · exact ⟨_, hmem _ hq, by simp [dcons, hc]⟩

theorem consAt_iff {num e : Nat} {cons : List Bool} :
    consAt num cons e = true ↔ cons.length = num ∧ cons[e]? = some true := by
  unfold consAt
  by_cases h : cons.length = num
  · rw [if_pos h, List.getD_eq_getElem?_getD]
    cases hc : cons[e]? with
    | none => simp
    | some b => simp [h]
  · simp [h]

/-! ### Weights -/

theorem setLoop_eq {β : Type} (F : β → Nat) (xs : List β) : ∀ (pre : List Nat) (k : Nat), xs.length ≤ k →
    foldRes (fun (s : List Nat × Nat) x => do
      let ws ← vset s.1 s.2 (F x)
      ok (ws, s.2 + 1)) (pre ++ List.replicate k 1, pre.length) xs =
      ok (pre ++ xs.map F ++ List.replicate (k - xs.length) 1, pre.length + xs.length) := by
  induction xs with
  | nil => intro pre k _; simp
  | cons x xs ih =>
    intro pre k hk
    obtain ⟨k, rfl⟩ : ∃ k', k = k' + 1 := ⟨k - 1, by simp at hk; omega⟩
    rw [foldRes_cons]
    simp only []
    rw [vset_of_lt _ (by simp)]
    simp only [ok_bind]
    have hset : (pre ++ List.replicate (k + 1) 1).set pre.length (F x) = (pre ++ [F x]) ++ List.replicate k 1 := by
      rw [List.set_append_right _ _ (Nat.le_refl _), Nat.sub_self, List.replicate_succ, List.set_cons_zero,
        List.append_assoc]
      rfl
    have := ih (pre ++ [F x]) k (by simp at hk; omega)
    rw [List.length_append, List.length_singleton] at this
    rw [hset, this]
    simp only [List.map_cons, List.length_cons, List.append_assoc, List.singleton_append, List.cons_append]
    congr 2
    · rw [Nat.add_sub_add_right]
      simp
    · omega

theorem length_flatten_mapIdx {β γ : Type} (F : Nat → β → γ) (L : List (List β)) (k : Nat) :
    Csr.offsetOf (L.mapIdx fun v row => row.map (F v)) k = Csr.offsetOf L k := by
  unfold Csr.offsetOf
  rw [List.length_flatten, List.length_flatten, List.map_take, List.map_take]
  congr 2
  apply List.ext_getElem
  · simp
  · intro i h1 h2
    simp

theorem dualWeights_eq (check : Bool) (weight : Option (Nat → Nat → Nat)) (C : List (Nat × Nat)) (L : List (List Link)) :
    Mesh.dualWeights check weight C L.flatten.length L = ok (L.mapIdx fun v row => row.map fun c =>
      if !check then (match weight with | some f => f v c.to | none => 1)
      else if (v, c.to) ∈ C then 1
      else (match weight with | some f => f v c.to | none => 1) + L.flatten.length).flatten := by
  unfold Mesh.dualWeights
  generalize hF : (fun (v : Nat) (c : Link) => if !check then (match weight with | some f => f v c.to | none => 1)
      else if (v, c.to) ∈ C then 1
      else (match weight with | some f => f v c.to | none => 1) + L.flatten.length) = F
  have hF' : ∀ v c, (if !check then (match weight with | some f => f v c.to | none => 1)
      else if (v, c.to) ∈ C then 1
      else (match weight with | some f => f v c.to | none => 1) + L.flatten.length) = F v c := by
    intro v c; rw [← hF]
  simp only [hF']
  have hQ : ((List.range L.length).flatMap fun v => (L.getD v []).map fun c => (v, c)).map (fun x => F x.1 x.2) =
      (L.mapIdx fun v row => row.map (F v)).flatten := by
    rw [List.map_flatMap, List.flatMap_def]
    congr 1
    apply List.ext_getElem
    · simp
    · intro i h1 h2
      have hi : i < L.length := by simpa using h1
      simp [hi]
  have hlen := congrArg List.length hQ
  have hlen' : (L.mapIdx fun v row => row.map (F v)).flatten.length = L.flatten.length := by
    have := length_flatten_mapIdx F L L.length
    unfold Csr.offsetOf at this
    rwa [List.take_length, show (L.mapIdx fun v row => row.map (F v)).take L.length =
      L.mapIdx fun v row => row.map (F v) from List.take_of_length_le (by simp)] at this
  rw [List.length_map, hlen'] at hlen
  have key := setLoop_eq (fun x : Nat × Link => F x.1 x.2) ((List.range L.length).flatMap fun v =>
    (L.getD v []).map fun c => (v, c)) [] L.flatten.length (by rw [hlen])
  rw [foldRes_flatMap, hQ, hlen, Nat.sub_self] at key
  simp only [List.nil_append, List.length_nil, Nat.zero_add, List.replicate_zero, List.append_nil] at key
  rw [foldRes_congr (g := fun (s : List Nat × Nat) v => foldRes (fun (s : List Nat × Nat) (x : Nat × Link) => do
      let ws ← vset s.1 s.2 (F x.1 x.2)
      ok (ws, s.2 + 1)) s ((L.getD v []).map fun c => (v, c)))]
  · rw [key, ok_bind]
  · intro s v hv
    rw [List.mem_range] at hv
    rw [vget_of_lt hv, ok_bind, foldRes_map, List.getD_eq_getElem?_getD, List.getElem?_eq_getElem hv]
    subst hF
    rfl

/-! ### The graph of an edge list -/

def gpush (undirected : Bool) (z : (Nat × Nat) × Nat) : List (Nat × (Nat × Nat)) :=
  (z.1.1, (z.1.2, z.2)) :: if undirected then [(z.1.2, (z.1.1, z.2))] else []

theorem graphLoop_eq (n : Nat) (edges : List (Nat × Nat)) (undirected : Bool) (weights : List Nat)
    (hr : ∀ p ∈ edges, p.1 < n ∧ p.2 < n) (hw : weights = [] ∨ edges.length ≤ weights.length) :
    foldRes (graphStep undirected weights) (List.replicate n []) edges.zipIdx =
      ok (pushed (List.replicate n []) ((edges.zip (weightsOf edges weights)).flatMap (gpush undirected))) := by
  have hlen : edges.length ≤ (weightsOf edges weights).length := by
    unfold weightsOf
    rcases hw with rfl | h
    · simp
    · split
      · simp
      · exact h
  have hz : edges.zip (weightsOf edges weights) =
      edges.zipIdx.map fun c => (c.1, (weightsOf edges weights).getD c.2 0) := by
    apply List.ext_getElem
    · simp [hlen]
    · intro i h1 h2
      have hi : i < edges.length := by simpa using h2
      simp [show i < (weightsOf edges weights).length by omega]
  have hedge : ∀ c ∈ edges.zipIdx, edgeWeight weights c.2 = ok ((weightsOf edges weights).getD c.2 0) := by
    rintro ⟨p, k⟩ hc
    have hk : k < edges.length := by
      have := List.mem_zipIdx hc
      omega
    unfold edgeWeight
    by_cases h0 : weights = []
    · subst h0
      simp [weightsOf, hk]
    · rw [if_neg (by simpa using h0), vget_of_lt (by rcases hw with h | h; exact absurd h h0; exact lt_of_lt_of_le hk h)]
      have : k < weights.length := by rcases hw with h | h; exact absurd h h0; exact lt_of_lt_of_le hk h
      simp [weightsOf, h0, this]
  rw [foldRes_congr (g := fun L c => foldRes (fun adj (p : Nat × (Nat × Nat)) => pushBack adj p.1 p.2) L
    (gpush undirected (c.1, (weightsOf edges weights).getD c.2 0)))]
  · rw [← pushAll_eq, hz, foldRes_flatMap, foldRes_map]
    intro p hp
    obtain ⟨z, hz', hp⟩ := List.mem_flatMap.1 hp
    have hzm := (List.of_mem_zip (show (z.1, z.2) ∈ _ from hz')).1
    have := hr _ hzm
    unfold gpush at hp
    rw [List.length_replicate]
    rcases List.mem_cons.1 hp with rfl | hp
    · exact this.1
    · split at hp
      · rw [List.mem_singleton] at hp
        subst hp
        exact this.2
      · cases hp
  · intro L c hc
    unfold graphStep
    rw [hedge c hc, ok_bind]
    unfold gpush
    cases undirected
    · simp only [Bool.false_eq_true, if_false, foldRes_cons, foldRes_nil]
    · simp only [if_true, foldRes_cons, foldRes_nil]
      cases pushBack L c.1.1 (c.1.2, (weightsOf edges weights).getD c.2 0) with
      | ok L' =>
        simp only [ok_bind]
        cases pushBack L' c.1.2 (c.1.1, (weightsOf edges weights).getD c.2 0) <;> rfl
      | _ => rfl

theorem countP_graphRow (undirected : Bool) (Z : List ((Nat × Nat) × Nat)) (v w x : Nat) :
    (((Z.flatMap (gpush undirected)).filter fun p => p.1 == v).map (·.2)).countP
      (fun c => decide (c.1 = w ∧ c.2 = x)) =
      Z.count ((v, w), x) + if undirected then Z.count ((w, v), x) else 0 := by
  have hc : ∀ (a b c d k y : Nat), ((decide (b = d ∧ k = y) && (a == c)) = true) ↔ ((a, b), k) = ((c, d), y) := by
    intro a b c d k y
    simp only [Bool.and_eq_true, decide_eq_true_eq, beq_iff_eq, Prod.mk.injEq]
    tauto
  rw [List.countP_map, List.countP_filter]
  induction Z with
  | nil => cases undirected <;> rfl
  | cons z Z ih =>
    obtain ⟨⟨a, b⟩, k⟩ := z
    rw [List.flatMap_cons, List.countP_append, ih, List.count_cons, List.count_cons]
    have e2 : ((b, a), k) = ((v, w), x) ↔ ((a, b), k) = ((w, v), x) := by
      simp only [Prod.mk.injEq]; tauto
    unfold gpush
    cases undirected
    · simp only [Function.comp_apply, List.countP_cons, List.countP_nil, hc, Bool.false_eq_true, if_false, beq_iff_eq]
      ring
    · simp only [Function.comp_apply, List.countP_cons, List.countP_nil, hc, if_true, beq_iff_eq, e2]
      ring

end Verif
