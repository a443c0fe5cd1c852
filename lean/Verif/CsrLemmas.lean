/-
Helper lemmas: the storage operations refine operations on the list of rows.
-/
import Verif.CsrSpec
import Mathlib.Data.List.Basic
import Mathlib.Tactic.Linarith

namespace Verif

open Res


namespace Csr

variable {α : Type}

@[simp] theorem ofRows_off_length (rows : List (List α)) :
    (ofRows rows).off.length = rows.length + 1 := by simp [ofRows]

@[simp] theorem ofRows_el (rows : List (List α)) : (ofRows rows).el = rows.flatten := rfl

theorem ofRows_off_get? (rows : List (List α)) (k : Nat) :
    (ofRows rows).off[k]? = if k ≤ rows.length then some (offsetOf rows k) else none := by
  simp only [ofRows, List.getElem?_map]
  by_cases h : k ≤ rows.length
  · rw [List.getElem?_range (by omega)]; simp [h]
  · rw [List.getElem?_eq_none (by simp; omega)]; simp [h]

theorem ofRows_off_getElem (rows : List (List α)) (k : Nat) (h : k < (ofRows rows).off.length) :
    (ofRows rows).off[k] = offsetOf rows k := by
  simp [ofRows]

theorem vget_ofRows_off {rows : List (List α)} {k : Nat} (h : k ≤ rows.length) :
    vget (ofRows rows).off k = ok (offsetOf rows k) := by
  rw [vget_eq_ok, ofRows_off_get?, if_pos h]

@[simp] theorem offsetOf_zero (rows : List (List α)) : offsetOf rows 0 = 0 := by simp [offsetOf]

theorem offsetOf_length (rows : List (List α)) : offsetOf rows rows.length = rows.flatten.length := by
  simp [offsetOf]

theorem offsetOf_succ (rows : List (List α)) (k : Nat) (h : k < rows.length) :
    offsetOf rows (k + 1) = offsetOf rows k + rows[k].length := by
  unfold offsetOf
  rw [List.take_add_one, List.getElem?_eq_getElem h]
  simp only [Option.toList_some, List.flatten_append, List.length_append]
  simp

theorem offsetOf_le (rows : List (List α)) {a b : Nat} (h : a ≤ b) :
    offsetOf rows a ≤ offsetOf rows b := by
  unfold offsetOf
  have : rows.take a = (rows.take b).take a := by rw [List.take_take]; congr 1; omega
  rw [this]
  have h2 : (rows.take b) = (rows.take b).take a ++ (rows.take b).drop a := by simp
  rw (occs := .pos [2]) [h2]
  rw [List.flatten_append, List.length_append]
  omega

theorem offsetOf_le_total (rows : List (List α)) (a : Nat) :
    offsetOf rows a ≤ rows.flatten.length := by
  rcases Nat.le_total a rows.length with h | h
  · rw [← offsetOf_length]; exact offsetOf_le rows h
  · simp [offsetOf, List.take_of_length_le h]

/-- Decomposition of the element vector around row `i`. -/
theorem flatten_split (rows : List (List α)) (i : Nat) (h : i < rows.length) :
    rows.flatten = (rows.take i).flatten ++ (rows[i] ++ (rows.drop (i + 1)).flatten) := by
  have : rows = rows.take i ++ (rows[i] :: rows.drop (i + 1)) := by
    rw [← List.drop_eq_getElem_cons h, List.take_append_drop]
  rw (occs := .pos [1]) [this]
  rw [List.flatten_append, List.flatten_cons]

theorem wf_ofRows (rows : List (List α)) : (ofRows rows).WF rows.length where
  length_off := by simp
  first := by rw [ofRows_off_get?]; simp
  mono := by
    intro k h
    rw [ofRows_off_getElem, ofRows_off_getElem]
    exact offsetOf_le rows (by omega)
  last := by rw [ofRows_off_get?, if_pos le_rfl, offsetOf_length]; rfl

theorem wf_off_le {c : Csr α} {n : Nat} (h : c.WF n) {a b : Nat} (hab : a ≤ b)
    (hb : b < c.off.length) : c.off[a]'(by omega) ≤ c.off[b] := by
  induction b, hab using Nat.le_induction with
  | base => exact le_rfl
  | succ b hab ih => exact le_trans (ih (by omega)) (h.mono b hb)

/-- Every well-formed storage is the storage of some list of rows. -/
theorem exists_rows_of_wf {c : Csr α} {n : Nat} (h : c.WF n) :
    ∃ rows : List (List α), rows.length = n ∧ c = ofRows rows := by
  obtain ⟨off, el⟩ := c
  have hlen := h.length_off
  simp only at hlen
  let rows : List (List α) :=
    (List.range n).map fun i => (el.take (off.getD (i + 1) 0)).drop (off.getD i 0)
  have hrl : rows.length = n := by simp [rows]
  have hmono : ∀ a b, a ≤ b → b ≤ n → off.getD a 0 ≤ off.getD b 0 := by
    intro a b hab hb
    have hb' : b < off.length := by omega
    have ha' : a < off.length := by omega
    have := wf_off_le h hab (by simpa using hb')
    simpa [List.getD_eq_getElem?_getD, ha', hb'] using this
  have hlast : off.getD n 0 = el.length := by
    have := h.last
    simp only at this
    simp [List.getD_eq_getElem?_getD, this]
  have hfirst : off.getD 0 0 = 0 := by
    have := h.first
    simp only at this
    simp [List.getD_eq_getElem?_getD, this]
  have htake : ∀ k, k ≤ n → (rows.take k).flatten = el.take (off.getD k 0) := by
    intro k
    induction k with
    | zero => intro _; rw [hfirst]; simp
    | succ k ih =>
      intro hk
      rw [List.take_add_one, List.flatten_append, ih (by omega)]
      have hk' : k < rows.length := by omega
      rw [List.getElem?_eq_getElem hk']
      simp only [Option.toList_some, List.flatten_cons, List.flatten_nil, List.append_nil]
      have : rows[k] = (el.take (off.getD (k + 1) 0)).drop (off.getD k 0) := by simp [rows]
      rw [this]
      have h1 := hmono k (k + 1) (by omega) hk
      have : el.take (off.getD k 0) = (el.take (off.getD (k + 1) 0)).take (off.getD k 0) := by
        rw [List.take_take]; congr 1; omega
      rw [this, List.take_append_drop]
  refine ⟨rows, hrl, ?_⟩
  have hel : el = rows.flatten := by
    have := htake n le_rfl
    rw [hlast, List.take_length, ← hrl, List.take_length] at this
    exact this.symm
  have hoff : off = (List.range (rows.length + 1)).map (offsetOf rows) := by
    apply List.ext_getElem
    · simp [hlen, hrl]
    · intro k h1 h2
      simp only [List.getElem_map, List.getElem_range]
      have hk : k ≤ n := by omega
      unfold offsetOf
      rw [htake k hk, List.length_take]
      have := hmono k n hk le_rfl
      rw [hlast] at this
      have h3 : off.getD k 0 = off[k] := by simp [List.getD_eq_getElem?_getD, h1]
      rw [h3] at this ⊢
      omega
  unfold ofRows
  rw [← hoff, ← hel]

theorem wf_iff_rows {c : Csr α} {n : Nat} :
    c.WF n ↔ ∃ rows : List (List α), rows.length = n ∧ c = ofRows rows := by
  constructor
  · exact exists_rows_of_wf
  · rintro ⟨rows, rfl, rfl⟩; exact wf_ofRows rows

theorem rowSize_ofRows {rows : List (List α)} {i : Nat} (h : i < rows.length) :
    (ofRows rows).rowSize i = ok rows[i].length := by
  unfold rowSize
  rw [vget_ofRows_off (by omega : i + 1 ≤ rows.length), vget_ofRows_off (by omega)]
  simp only [ok_bind]
  rw [offsetOf_succ rows i h, usub_of_le (by omega)]
  simp

theorem get_ofRows {rows : List (List α)} {i k : Nat} (h : i < rows.length)
    (hk : k < rows[i].length) : (ofRows rows).get i k = ok rows[i][k] := by
  unfold get
  rw [vget_ofRows_off (by omega)]
  simp only [ok_bind, ofRows_el]
  rw [vget_eq_ok, flatten_split rows i h]
  rw [List.getElem?_append_right (by simp [offsetOf])]
  simp only [offsetOf, Nat.add_sub_cancel_left]
  rw [List.getElem?_append_left hk, List.getElem?_eq_getElem hk]

theorem holds_ofRows (rows : List (List α)) : (ofRows rows).Holds rows := by
  intro i h
  exact ⟨rowSize_ofRows h, fun k hk => get_ofRows h hk⟩

/-- A well-formed storage holds at most one list of rows of a given length. -/
theorem holds_unique {c : Csr α} {r1 r2 : List (List α)} (hl : r1.length = r2.length)
    (h1 : c.Holds r1) (h2 : c.Holds r2) : r1 = r2 := by
  apply List.ext_getElem hl
  intro i hi1 hi2
  have a := h1 i hi1
  have b := h2 i hi2
  have hlen : r1[i].length = r2[i].length := by
    have := a.1.symm.trans b.1
    simpa using this
  apply List.ext_getElem hlen
  intro k hk1 hk2
  have := (a.2 k hk1).symm.trans (b.2 k hk2)
  simpa using this

theorem flatten_set {rows : List (List α)} {i : Nat} (h : i < rows.length) (r : List α) :
    (rows.set i r).flatten = (rows.take i).flatten ++ (r ++ (rows.drop (i + 1)).flatten) := by
  rw [flatten_split (rows.set i r) i (by simpa using h)]
  rw [List.take_set_of_le (le_refl i), List.drop_set_of_lt (by omega), List.getElem_set_self]

theorem offsetOf_set {rows : List (List α)} {i : Nat} (h : i < rows.length) (r : List α) (k : Nat) :
    offsetOf (rows.set i r) k =
      if i < k then offsetOf rows k - rows[i].length + r.length else offsetOf rows k := by
  unfold offsetOf
  by_cases hik : i < k
  · rw [if_pos hik]
    have hs : (rows.set i r).take k = (rows.take k).set i r := by rw [List.take_set]
    have hi : i < (rows.take k).length := by simp; omega
    rw [hs, flatten_set hi, flatten_split (rows.take k) i hi]
    simp only [List.length_append, List.getElem_take]
    omega
  · rw [if_neg hik, List.take_set_of_le (by omega)]

theorem length_row_le {rows : List (List α)} {i : Nat} (h : i < rows.length) {k : Nat} (hk : i < k) :
    offsetOf rows i + rows[i].length ≤ offsetOf rows k := by
  rw [← offsetOf_succ rows i h]
  exact offsetOf_le rows hk

/-- The central refinement lemma: resizing row `i` of the storage is resizing entry `i` of the list
of rows. -/
theorem resizeRow_ofRows {rows : List (List α)} {i m : Nat} (d : α) (h : i < rows.length) :
    (ofRows rows).resizeRow rows.length i m d = ok (ofRows (rows.set i (vresize rows[i] m d))) := by
  have hoff : (ofRows rows).off.mapIdx (fun k x => if i < k ∧ k ≤ rows.length then
        uaddi x ((m : Int) - (rows[i].length : Int)) else x)
      = (ofRows (rows.set i (vresize rows[i] m d))).off := by
    apply List.ext_getElem
    · simp
    · intro k h1 h2
      rw [List.getElem_mapIdx, ofRows_off_getElem, ofRows_off_getElem, offsetOf_set h]
      have hk : k ≤ rows.length := by simp at h2; omega
      by_cases hik : i < k
      · simp only [hik, hk, and_self, if_true]
        have := length_row_le h hik
        rw [uaddi_of_nonneg (by omega), length_vresize]
        omega
      · simp [hik]
  unfold resizeRow
  rw [vget_ofRows_off (by omega : i + 1 ≤ rows.length), vget_ofRows_off (by omega : i ≤ rows.length)]
  simp only [ok_bind]
  rw [offsetOf_succ rows i h, usub_of_le (by omega)]
  simp only [Nat.add_sub_cancel_left]
  rw [vget_ofRows_off le_rfl]
  simp only [ok_bind]
  rw [hoff]
  have hl2 : (rows.set i (vresize rows[i] m d)).length = rows.length := by simp
  have hgn : vget (ofRows (rows.set i (vresize rows[i] m d))).off rows.length
      = ok (offsetOf rows rows.length - rows[i].length + m) := by
    have := vget_ofRows_off (rows := rows.set i (vresize rows[i] m d)) (k := rows.length) (by simp)
    rw [this, offsetOf_set h, if_pos h, length_vresize]
  have hgi : vget (ofRows (rows.set i (vresize rows[i] m d))).off i = ok (offsetOf rows i) := by
    have := vget_ofRows_off (rows := rows.set i (vresize rows[i] m d)) (k := i) (by simp; omega)
    rw [this, offsetOf_set h, if_neg (by omega)]
  rw [hgn, hgi]
  simp only [ok_bind, ofRows_el]
  have hsplit := flatten_split rows i h
  have hlen : rows.flatten.length
      = offsetOf rows i + (rows[i].length + (rows.drop (i + 1)).flatten.length) := by
    rw [hsplit]; simp [offsetOf]
  have hoffi : offsetOf rows i = (rows.take i).flatten.length := rfl
  rw [offsetOf_length]
  split_ifs with hpos
  · -- growing
    have hm : rows[i].length < m := by omega
    have hvr : vresize rows.flatten (rows.flatten.length - rows[i].length + m) d
        = rows.flatten ++ List.replicate (m - rows[i].length) d := by
      unfold vresize
      rw [List.take_of_length_le (by omega)]
      congr 2; omega
    rw [hvr]
    unfold vrotate
    rw [if_pos ⟨by omega, by simp⟩]
    simp only [ok_bind]
    congr 1
    unfold ofRows
    congr 1
    rw [flatten_set h]
    have e3 : vresize rows[i] m d = rows[i] ++ List.replicate (m - rows[i].length) d := by
      unfold vresize; rw [List.take_of_length_le (by omega)]
    rw [e3]
    rw [List.take_append_of_le_length (by omega)]
    rw [List.drop_append_of_le_length (by omega)]
    rw [List.drop_of_length_le (le_refl rows.flatten.length), List.nil_append]
    rw [List.take_append_of_le_length (le_refl rows.flatten.length), List.take_length]
    have htk : rows.flatten.take (offsetOf rows i + rows[i].length)
        = (rows.take i).flatten ++ rows[i] := by
      rw [hsplit, ← List.append_assoc, List.take_append_of_le_length (by simp [offsetOf])]
      rw [List.take_of_length_le (by simp [offsetOf])]
    have hdr : rows.flatten.drop (offsetOf rows i + rows[i].length)
        = (rows.drop (i + 1)).flatten := by
      rw [hsplit, ← List.append_assoc, List.drop_append_of_le_length (by simp [offsetOf])]
      rw [List.drop_of_length_le (by simp [offsetOf]), List.nil_append]
    rw [htk, hdr]
    simp [List.append_assoc]
  · -- shrinking
    have hm : m ≤ rows[i].length := by omega
    unfold verase
    rw [if_pos ⟨by omega, by omega⟩]
    simp only [ok_bind]
    congr 1
    unfold ofRows
    congr 1
    rw [flatten_set h]
    have e3 : vresize rows[i] m d = rows[i].take m := by
      unfold vresize; rw [show m - rows[i].length = 0 by omega]; simp
    rw [e3]
    have htk : rows.flatten.take (offsetOf rows i + m)
        = (rows.take i).flatten ++ rows[i].take m := by
      rw [hsplit, hoffi, List.take_length_add_append, List.take_append_of_le_length hm]
    have hdr : rows.flatten.drop (offsetOf rows i + rows[i].length)
        = (rows.drop (i + 1)).flatten := by
      rw [hsplit, ← List.append_assoc, List.drop_append_of_le_length (by simp [offsetOf])]
      rw [List.drop_of_length_le (by simp [offsetOf]), List.nil_append]
    rw [htk, hdr]
    simp [List.append_assoc]

theorem flatten_eraseIdx {rows : List (List α)} {i : Nat} (_h : i < rows.length) :
    (rows.eraseIdx i).flatten = (rows.take i).flatten ++ (rows.drop (i + 1)).flatten := by
  rw [List.eraseIdx_eq_take_drop_succ, List.flatten_append]

theorem offsetOf_eraseIdx {rows : List (List α)} {i : Nat} (h : i < rows.length) (k : Nat) :
    offsetOf (rows.eraseIdx i) k =
      if k ≤ i then offsetOf rows k else offsetOf rows (k + 1) - rows[i].length := by
  unfold offsetOf
  by_cases hk : k ≤ i
  · rw [if_pos hk, List.eraseIdx_eq_take_drop_succ, List.take_append_of_le_length (by simp; omega),
      List.take_take, show min k i = k by omega]
  · rw [if_neg hk]
    have hk' : i < (rows.take (k + 1)).length := by simp; omega
    have : (rows.eraseIdx i).take k = (rows.take (k + 1)).eraseIdx i := by
      rw [List.eraseIdx_eq_take_drop_succ, List.eraseIdx_eq_take_drop_succ, List.take_append,
        List.take_take, List.take_take, List.drop_take, List.length_take]
      congr 1
      · congr 1; omega
      · congr 1; omega
    rw [this, flatten_eraseIdx hk', flatten_split (rows.take (k + 1)) i hk']
    simp only [List.length_append, List.getElem_take]
    omega

theorem removeRow_ofRows {rows : List (List α)} {i : Nat} (d : α) (h : i < rows.length) :
    (ofRows rows).removeRow rows.length i d = ok (ofRows (rows.eraseIdx i)) := by
  unfold removeRow
  rw [resizeRow_ofRows d h]
  have h0 : vresize rows[i] 0 d = [] := by simp [vresize]
  simp only [ok_bind, h0]
  unfold verase1
  rw [if_pos (by simp; omega)]
  simp only [ok_bind]
  congr 1
  have e1 : ((ofRows (rows.set i [])).off.eraseIdx i) = (ofRows (rows.eraseIdx i)).off := by
    apply List.ext_getElem
    · rw [List.length_eraseIdx, if_pos (by simp; omega)]
      simp [List.length_eraseIdx, h]
      omega
    · intro k h1 h2
      rw [List.getElem_eraseIdx, ofRows_off_getElem (rows.eraseIdx i), offsetOf_eraseIdx h]
      split_ifs with hk hk2 hk2
      · rw [ofRows_off_getElem, offsetOf_set h, if_neg (by omega)]
      · omega
      · have : k = i := by omega
        subst this
        rw [ofRows_off_getElem, offsetOf_set h, if_pos (by omega), offsetOf_succ rows k h]
        simp
      · rw [ofRows_off_getElem, offsetOf_set h, if_pos (by omega)]
        simp
  have e2 : (ofRows (rows.set i [])).el = (ofRows (rows.eraseIdx i)).el := by
    simp only [ofRows_el]
    rw [flatten_set h, flatten_eraseIdx h]
    simp
  rw [e1, e2]

theorem put_ofRows {rows : List (List α)} {i k : Nat} (a : α) (h : i < rows.length)
    (hk : k < rows[i].length) :
    (ofRows rows).put i k a = ok (ofRows (rows.set i (rows[i].set k a))) := by
  unfold put
  rw [vget_ofRows_off (by omega)]
  have hlen : offsetOf rows i + k < rows.flatten.length := by
    rw [flatten_split rows i h]; simp [offsetOf]; omega
  simp only [ok_bind, ofRows_el]
  rw [vset_of_lt _ hlen]
  simp only [ok_bind]
  congr 1
  have e1 : (ofRows rows).off = (ofRows (rows.set i (rows[i].set k a))).off := by
    apply List.ext_getElem
    · simp
    · intro j h1 h2
      rw [ofRows_off_getElem, ofRows_off_getElem, offsetOf_set h]
      split_ifs with hij
      · have := length_row_le h hij
        simp; omega
      · rfl
  have e2 : rows.flatten.set (offsetOf rows i + k) a = (rows.set i (rows[i].set k a)).flatten := by
    rw [flatten_set h, flatten_split rows i h]
    rw [List.set_append_right _ _ (by simp [offsetOf])]
    simp only [offsetOf, Nat.add_sub_cancel_left]
    rw [List.set_append_left _ _ hk]
  rw [e1, e2]; rfl

theorem appendLoop_spec (l : List Nat) (x : Nat) (hl : l ≠ []) (hx : l.getLast hl = x) (K : Nat) :
    ∀ k, k ≤ K → appendLoop (l.length - 1) k (l ++ List.replicate K 0)
      = ok (l ++ (List.replicate k x ++ List.replicate (K - k) 0)) := by
  have hpos : 0 < l.length := List.length_pos_iff.mpr hl
  intro k
  induction k with
  | zero => intro _; simp [appendLoop]
  | succ k ih =>
    intro hk
    unfold appendLoop
    rw [ih (by omega)]
    simp only [ok_bind]
    have hg : vget (l ++ (List.replicate k x ++ List.replicate (K - k) 0)) (l.length - 1) = ok x := by
      rw [vget_eq_ok, List.getElem?_append_left (by omega), List.getElem?_eq_getElem (by omega),
        ← hx, List.getLast_eq_getElem]
    rw [hg]
    simp only [ok_bind]
    rw [vset_of_lt _ (by simp; omega)]
    congr 1
    rw [show l.length - 1 + k + 1 = l.length + k by omega]
    rw [List.set_append_right _ _ (by omega)]
    congr 1
    rw [Nat.add_sub_cancel_left, List.set_append_right _ _ (by simp)]
    rw [List.length_replicate, Nat.sub_self]
    obtain ⟨j, hj⟩ : ∃ j, K - k = j + 1 := ⟨K - k - 1, by omega⟩
    rw [hj, List.replicate_succ, List.set_cons_zero, show K - (k + 1) = j by omega]
    rw [List.replicate_succ', List.append_assoc]
    rfl

theorem offsetOf_append_nil (rows : List (List α)) (k j : Nat) :
    offsetOf (rows ++ List.replicate k []) j
      = if j ≤ rows.length then offsetOf rows j else rows.flatten.length := by
  unfold offsetOf
  rw [List.take_append]
  split_ifs with h
  · rw [show j - rows.length = 0 by omega]; simp
  · rw [List.take_of_length_le (by omega), List.take_replicate, List.flatten_append]
    simp

theorem appendRows_ofRows (rows : List (List α)) (k : Nat) :
    (ofRows rows).appendRows rows.length k = ok (ofRows (rows ++ List.replicate k [])) := by
  unfold appendRows
  have hne : (ofRows rows).off ≠ [] := by
    rw [← List.length_pos_iff]; simp
  have hlast : (ofRows rows).off.getLast hne = rows.flatten.length := by
    rw [List.getLast_eq_getElem, ofRows_off_getElem]
    simp [offsetOf_length]
  have := appendLoop_spec (ofRows rows).off _ hne hlast k k le_rfl
  simp only [ofRows_off_length, Nat.add_sub_cancel, Nat.sub_self] at this
  rw [this]
  simp only [ok_bind, List.replicate_zero, List.append_nil]
  congr 1
  have e1 : (ofRows rows).off ++ List.replicate k rows.flatten.length
      = (ofRows (rows ++ List.replicate k [])).off := by
    apply List.ext_getElem
    · simp; omega
    · intro j h1 h2
      rw [ofRows_off_getElem, offsetOf_append_nil]
      split_ifs with hj
      · rw [List.getElem_append_left (by simp; omega), ofRows_off_getElem]
      · rw [List.getElem_append_right (by simp; omega)]
        simp
  have e2 : (ofRows rows).el = (ofRows (rows ++ List.replicate k [])).el := by
    simp [List.flatten_append]
  rw [e1, e2]

/-- Cut a list into consecutive pieces of the given sizes. -/
def cut : List Nat → List α → List (List α)
  | [], _ => []
  | k :: ks, l => l.take k :: cut ks (l.drop k)

@[simp] theorem length_cut (sizes : List Nat) (l : List α) : (cut sizes l).length = sizes.length := by
  induction sizes generalizing l with
  | nil => rfl
  | cons k ks ih => simp [cut, ih]

theorem flatten_cut (sizes : List Nat) (l : List α) (h : l.length = sizes.sum) :
    (cut sizes l).flatten = l := by
  induction sizes generalizing l with
  | nil => simpa [cut] using h
  | cons k ks ih =>
    simp only [List.sum_cons] at h
    simp only [cut, List.flatten_cons]
    rw [ih (l.drop k) (by simp; omega), List.take_append_drop]

theorem map_length_cut (sizes : List Nat) (l : List α) (h : l.length = sizes.sum) :
    (cut sizes l).map List.length = sizes := by
  induction sizes generalizing l with
  | nil => rfl
  | cons k ks ih =>
    simp only [List.sum_cons] at h
    simp only [cut, List.map_cons, List.length_take]
    rw [ih (l.drop k) (by simp; omega), show min k l.length = k by omega]

theorem offsetOf_eq_sum (rows : List (List α)) (k : Nat) :
    offsetOf rows k = ((rows.map List.length).take k).sum := by
  unfold offsetOf
  rw [List.length_flatten, List.map_take]

theorem length_offsetsFrom (o : Nat) (sizes : List Nat) :
    (offsetsFrom o sizes).length = sizes.length + 1 := by
  induction sizes generalizing o with
  | nil => rfl
  | cons k ks ih => simp [offsetsFrom, ih]

theorem offsetsFrom_getElem (o : Nat) (sizes : List Nat) (k : Nat)
    (h : k < (offsetsFrom o sizes).length) :
    (offsetsFrom o sizes)[k] = o + (sizes.take k).sum := by
  induction sizes generalizing o k with
  | nil =>
    simp only [offsetsFrom, List.length_cons, List.length_nil] at h
    have : k = 0 := by omega
    subst this; simp [offsetsFrom]
  | cons s ss ih =>
    cases k with
    | zero => simp [offsetsFrom]
    | succ k =>
      simp only [offsetsFrom, List.getElem_cons_succ, List.take_succ_cons, List.sum_cons]
      rw [ih]; omega

theorem ofRows_cut (sizes : List Nat) (l : List α) (h : l.length = sizes.sum) :
    ofRows (cut sizes l) = ⟨offsetsFrom 0 sizes, l⟩ := by
  have e1 : (ofRows (cut sizes l)).off = offsetsFrom 0 sizes := by
    apply List.ext_getElem
    · simp [length_offsetsFrom]
    · intro k h1 h2
      rw [ofRows_off_getElem, offsetsFrom_getElem, offsetOf_eq_sum, map_length_cut _ _ h]
      simp
  have e2 : (ofRows (cut sizes l)).el = l := by rw [ofRows_el, flatten_cut _ _ h]
  generalize ofRows (cut sizes l) = c at e1 e2 ⊢
  obtain ⟨a, b⟩ := c
  simp only at e1 e2
  rw [e1, e2]

theorem initSizes_spec (c : Csr α) (hc : c.off[0]? = some 0) (sizes : List Nat) (d : α) :
    c.initSizes sizes d = ofRows (cut sizes (vresize c.el sizes.sum d)) := by
  rw [ofRows_cut _ _ (by simp)]
  unfold initSizes
  obtain ⟨off, el⟩ := c
  cases off with
  | nil => simp at hc
  | cons o off =>
    simp at hc
    subst hc
    simp [vresize]

theorem initConst_spec (c : Csr α) (hc : c.off[0]? = some 0) (n k : Nat) (d : α) :
    c.initConst n k d = ofRows (cut (List.replicate n k) (vresize c.el (n * k) d)) := by
  rw [ofRows_cut _ _ (by simp)]
  unfold initConst
  obtain ⟨off, el⟩ := c
  cases off with
  | nil => simp at hc
  | cons o off =>
    simp at hc
    subst hc
    simp [vresize]

theorem resizeOff_empty (n : Nat) :
    (empty : Csr α).resizeOff n = ofRows (List.replicate n []) := by
  unfold resizeOff empty ofRows
  congr 1
  · apply List.ext_getElem
    · simp
    · intro k h1 h2
      simp only [vresize, List.getElem_map, List.getElem_range, offsetOf, List.take_replicate]
      cases k with
      | zero => simp
      | succ k => simp
  · simp

theorem empty_eq_ofRows : (empty : Csr α) = ofRows [] := by
  simp [empty, ofRows]

theorem row_ofRows {rows : List (List α)} {i : Nat} (h : i < rows.length) :
    (ofRows rows).row i = ok rows[i] := by
  unfold row
  rw [rowSize_ofRows h, vget_ofRows_off (by omega)]
  simp only [ok_bind]
  have hs := flatten_split rows i h
  have hl : offsetOf rows i + rows[i].length ≤ (ofRows rows).el.length := by
    rw [ofRows_el, hs]; simp [offsetOf]
  rw [if_pos hl, ofRows_el, hs]
  have : offsetOf rows i = (rows.take i).flatten.length := rfl
  rw [this, List.drop_left, List.take_left]

theorem row_of_wf {c : Csr α} {n i : Nat} (h : c.WF n) (hi : i < n) : ∃ r, c.row i = ok r := by
  obtain ⟨rows, rfl, rfl⟩ := exists_rows_of_wf h
  exact ⟨_, row_ofRows hi⟩

/-- Reading a whole row is the same as reading its size and its entries. -/
theorem row_eq_ok_iff {c : Csr α} {n i : Nat} (h : c.WF n) (hi : i < n) (r : List α) :
    c.row i = ok r ↔
      c.rowSize i = ok r.length ∧ ∀ k, ∀ (hk : k < r.length), c.get i k = ok r[k] := by
  obtain ⟨rows, rfl, rfl⟩ := exists_rows_of_wf h
  rw [row_ofRows hi, rowSize_ofRows hi]
  constructor
  · intro h1
    cases h1
    exact ⟨rfl, fun k hk => get_ofRows hi hk⟩
  · rintro ⟨h1, h2⟩
    have hl : rows[i].length = r.length := by simpa using h1
    congr 1
    apply List.ext_getElem hl
    intro k hk1 hk2
    have h3 := h2 k hk2
    rw [get_ofRows hi hk1] at h3
    simpa using h3

theorem mapEl_ofRows (f : α → α) (rows : List (List α)) :
    (ofRows rows).mapEl f = ofRows (rows.map (List.map f)) := by
  unfold mapEl ofRows
  congr 1
  · simp only [List.length_map]
    apply List.map_congr_left
    intro k _
    simp [offsetOf_eq_sum, Function.comp_def]
  · simp [List.map_flatten]

end Csr
end Verif
