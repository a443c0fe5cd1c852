/-
Helper lemmas: what the getters return on the mesh of plain rows.
-/
import Verif.MeshWfLemmas

namespace Verif

open Res

variable {α : Type}

theorem vget_congr {β : Type} {l l' : List β} {i j : Nat} (h : l[i]? = l'[j]?) :
    vget l i = vget l' j := by unfold vget; rw [h]

/-- `vget` with an assertion instead of undefined behaviour. -/
def agetD {β : Type} (l : List β) (k : Nat) : Res β :=
  match l[k]? with
  | some a => ok a
  | none => abort

theorem assert_congr {p q : Prop} [Decidable p] [Decidable q] (h : p ↔ q) : assert p = assert q := by
  unfold assert; simp [h]

namespace AMesh

variable {A : AMesh α}

theorem lt_of_getElem? {β : Type} {l : List β} {j : Nat} {r : β} (h : l[j]? = some r) :
    j < l.length := by
  by_contra hc
  rw [List.getElem?_eq_none (by omega)] at h
  cases h

theorem rowSize_conc (h : A.Ok) {l : Lst} {j : Nat} {r : List Nat} (hr : (A.rows l)[j]? = some r) :
    A.conc.rowSize l j = ok r.length := by
  have hlt := lt_of_getElem? hr
  have hj : j < A.num l.owner := by rw [← h.rows l]; exact hlt
  have he : (A.rows l)[j] = r := by
    rw [List.getElem?_eq_getElem hlt] at hr; simpa using hr
  unfold Mesh.rowSize
  rw [assert_true (show j < A.conc.num l.owner from hj)]
  show (Csr.ofRows (A.rows l)).rowSize j = _
  rw [Csr.rowSize_ofRows hlt, he]

theorem row_conc (h : A.Ok) {l : Lst} {j : Nat} {r : List Nat} (hr : (A.rows l)[j]? = some r) :
    A.conc.row l j = ok r := by
  have hlt := lt_of_getElem? hr
  have hj : j < A.num l.owner := by rw [← h.rows l]; exact hlt
  have he : (A.rows l)[j] = r := by
    rw [List.getElem?_eq_getElem hlt] at hr; simpa using hr
  unfold Mesh.row
  rw [assert_true (show j < A.conc.num l.owner from hj)]
  show (Csr.ofRows (A.rows l)).row j = _
  rw [Csr.row_ofRows hlt, he]

theorem entry_conc (h : A.Ok) {l : Lst} {j : Nat} {r : List Nat} (hr : (A.rows l)[j]? = some r)
    (k : Nat) : A.conc.entry l j k = agetD r k := by
  have hlt := lt_of_getElem? hr
  have he : (A.rows l)[j] = r := by
    rw [List.getElem?_eq_getElem hlt] at hr; simpa using hr
  unfold Mesh.entry
  rw [rowSize_conc h hr, ok_bind]
  unfold agetD
  by_cases hk : k < r.length
  · rw [assert_true hk, List.getElem?_eq_getElem hk, ok_bind]
    show (Csr.ofRows (A.rows l)).get j k = _
    subst he
    rw [Csr.get_ofRows hlt hk]
  · rw [assert_false hk, List.getElem?_eq_none (by omega)]
    rfl

theorem vget_props_conc {d : Dim} {p : Nat} {rs : List (List α)} (hp : (A.props d)[p]? = some rs) :
    vget (A.conc.props d) p = ok (Csr.ofRows rs) := by
  unfold vget
  have : (A.conc.props d)[p]? = some (Csr.ofRows rs) := by
    show ((A.props d).map Csr.ofRows)[p]? = _
    rw [List.getElem?_map, hp]; rfl
  rw [this]

theorem propSize_conc (h : A.Ok) {d : Dim} {j p : Nat} {rs : List (List α)} {r : List α}
    (hp : (A.props d)[p]? = some rs) (hr : rs[j]? = some r) :
    A.conc.propSize d j p = ok r.length := by
  have hlt := lt_of_getElem? hr
  have hp1 := lt_of_getElem? hp
  have hm : rs ∈ A.props d := List.mem_of_getElem? hp
  have hj : j < A.num d := by rw [← h.props d rs hm]; exact hlt
  have he : rs[j] = r := by
    rw [List.getElem?_eq_getElem hlt] at hr; simpa using hr
  unfold Mesh.propSize
  rw [assert_true (show j < A.conc.num d from hj),
    assert_true (show p < (A.conc.ids d).length by
      show p < (A.ids d).length
      rw [h.ids d]; exact hp1)]
  simp only [ok_bind, vget_props_conc hp]
  rw [Csr.rowSize_ofRows hlt, he]

theorem propValue_conc (h : A.Ok) {d : Dim} {j p : Nat} {rs : List (List α)} {r : List α}
    (hp : (A.props d)[p]? = some rs) (hr : rs[j]? = some r) (k : Nat) :
    A.conc.propValue d j p k = agetD r k := by
  have hlt := lt_of_getElem? hr
  have he : rs[j] = r := by
    rw [List.getElem?_eq_getElem hlt] at hr; simpa using hr
  unfold Mesh.propValue
  rw [propSize_conc h hp hr, ok_bind]
  unfold agetD
  by_cases hk : k < r.length
  · rw [assert_true hk, List.getElem?_eq_getElem hk, ok_bind]
    simp only [vget_props_conc hp, ok_bind]
    subst he
    rw [Csr.get_ofRows hlt hk]
  · rw [assert_false hk, List.getElem?_eq_none (by omega)]
    rfl

theorem propSize_none (h : A.Ok) {d : Dim} {j p : Nat} (hj : j < A.num d)
    (hp : (A.props d)[p]? = none) : A.conc.propSize d j p = abort := by
  unfold Mesh.propSize
  have : ¬ p < (A.conc.ids d).length := by
    show ¬ p < (A.ids d).length
    rw [h.ids d]
    simpa using hp
  rw [assert_true (show j < A.conc.num d from hj), assert_false this]
  rfl

/-! ### Rows and properties after a removal -/

theorem rows_remove [Zero α] (d : Dim) (i : Nat) (l : Lst) (j : Nat) :
    ((A.remove d i).rows l)[j]? =
      ((A.rows l)[oldNumber d i l.owner j]?).map (List.map (A.renumber d i l)) := by
  simp only [remove, oldNumber]
  rw [List.getElem?_map]
  split
  · rw [getElem?_eraseIdx_old]
  · rfl

theorem props_remove [Zero α] (d : Dim) (i : Nat) (e : Dim) (p : Nat) :
    ((A.remove d i).props e)[p]? =
      ((A.props e)[p]?).map (fun r => if e = d then r.eraseIdx i else r) := by
  simp only [remove]
  by_cases he : e = d
  · subst he; simp
  · rw [fset_ne _ _ he]; simp [he]

theorem num_remove_lt [Zero α] {d : Dim} {i : Nat} {e : Dim} {j : Nat} (hi : i < A.num d)
    (hj : j < (A.remove d i).num e) : oldNumber d i e j < A.num e := by
  simp only [remove] at hj
  unfold oldNumber
  by_cases he : e = d
  · subst he
    simp only [fset_self] at hj
    simp only [if_true]
    exact oldIndex_lt hj
  · rw [fset_ne _ _ he] at hj
    simpa [he] using hj

theorem getElem?_row {l : Lst} (h : A.Ok) {j : Nat} (hj : j < A.num l.owner) :
    ∃ r, (A.rows l)[j]? = some r := by
  rw [← h.rows l] at hj
  exact ⟨_, List.getElem?_eq_getElem hj⟩

theorem map_id' {r : List Nat} (f : Nat → Nat) (hf : f = id) : r.map f = r := by
  subst hf; simp

theorem cellRemoved [Zero α] (h : A.Ok) (d : Dim) {i : Nat} (hi : i < A.num d) :
    CellRemoved A.conc (A.remove d i).conc d i where
  dimension := rfl
  num := by show fset A.num d _ d = _; rw [fset_self]; rfl
  num_other := by
    intro e he
    show fset A.num d _ e = _
    rw [fset_ne _ _ he]; rfl
  ids := fun _ => rfl
  coordinates := by
    intro j hj
    have hj' := num_remove_lt hi hj
    have h0 := h.coord
    unfold Mesh.coordinates
    rw [assert_true hj, assert_true (show oldNumber d i .d0 j < A.conc.num .d0 from hj')]
    simp only [ok_bind]
    have key : ∀ t, t < 3 → vget (A.remove d i).conc.coord (3 * j + t)
        = vget A.conc.coord (3 * oldNumber d i .d0 j + t) := by
      intro t ht
      apply vget_congr
      show (if d = .d0 then A.coord.take (3 * i) ++ A.coord.drop (3 * i + 3) else A.coord)[3 * j + t]?
        = A.coord[_]?
      by_cases hd : d = .d0
      · subst hd
        simp only [if_true]
        rw [getElem?_take_drop _ _ _ _ (by omega) (by omega)]
        unfold oldNumber oldIndex
        simp only [if_true]
        split_ifs
        · rfl
        · omega
        · omega
        · congr 1; omega
      · simp [hd, oldNumber, Ne.symm hd]
    have k0 := key 0 (by omega)
    have k1 := key 1 (by omega)
    have k2 := key 2 (by omega)
    simp only [Nat.add_zero] at k0
    rw [k0, k1, k2]
  extremes := by
    intro hd0 j hj
    have hj' := num_remove_lt hi hj
    have h0 := h.ext
    unfold Mesh.extremes
    rw [assert_true hj, assert_true (show oldNumber d i .d1 j < A.conc.num .d1 from hj')]
    simp only [ok_bind]
    have key : ∀ t, t < 2 → vget (A.remove d i).conc.ext (2 * j + t)
        = vget A.conc.ext (2 * oldNumber d i .d1 j + t) := by
      intro t ht
      apply vget_congr
      show (if d = .d0 then _ else if d = .d1 then A.ext.take (2 * i) ++ A.ext.drop (2 * i + 2)
        else A.ext)[2 * j + t]? = A.ext[_]?
      rw [if_neg hd0]
      by_cases hd : d = .d1
      · subst hd
        simp only [if_true]
        rw [getElem?_take_drop _ _ _ _ (by omega) (by omega)]
        unfold oldNumber oldIndex
        simp only [if_true]
        split_ifs
        · rfl
        · omega
        · omega
        · congr 1; omega
      · simp [hd, oldNumber, Ne.symm hd]
    have k0 := key 0 (by omega)
    have k1 := key 1 (by omega)
    simp only [Nat.add_zero] at k0
    rw [k0, k1]
  marker := by
    intro e j hj
    have hj' := num_remove_lt hi hj
    unfold Mesh.marker
    rw [assert_true hj, assert_true (show oldNumber d i e j < A.conc.num e from hj')]
    simp only [ok_bind]
    apply vget_congr
    show (fset A.mark d _ e)[j]? = (A.mark e)[_]?
    unfold oldNumber
    by_cases he : e = d
    · subst he; simp only [fset_self, if_true]; exact getElem?_eraseIdx_old _ _ _
    · rw [fset_ne _ _ he]; simp [he]
  active := by
    intro e j hj
    have hj' := num_remove_lt hi hj
    unfold Mesh.active
    rw [assert_true hj, assert_true (show oldNumber d i e j < A.conc.num e from hj')]
    simp only [ok_bind]
    apply vget_congr
    show (fset A.act d _ e)[j]? = (A.act e)[_]?
    unfold oldNumber
    by_cases he : e = d
    · subst he; simp only [fset_self, if_true]; exact getElem?_eraseIdx_old _ _ _
    · rw [fset_ne _ _ he]; simp [he]
  original := by
    intro e j he
    have h1 : (A.remove d i).conc.orig e = A.conc.orig e := by
      show (if d = .d0 then A.orig else fset A.orig d _) e = A.orig e
      split
      · rfl
      · rw [fset_ne _ _ he]
    have h2 : (A.remove d i).conc.num e = A.conc.num e := by
      show fset A.num d _ e = A.num e; rw [fset_ne _ _ he]
    unfold Mesh.original
    rw [h1, h2]
  updated := by
    intro e j he
    have h1 : (A.remove d i).conc.upd e = A.conc.upd e := by
      show fset A.upd d _ e = A.upd e; rw [fset_ne _ _ he]
    have h2 : (A.remove d i).conc.num e = A.conc.num e := by
      show fset A.num d _ e = A.num e; rw [fset_ne _ _ he]
    unfold Mesh.updated
    rw [h1, h2]
  rowSize := by
    intro l j hj
    have hj' := num_remove_lt hi hj
    obtain ⟨r, hr⟩ := getElem?_row h hj'
    have hr' := rows_remove (A := A) d i l j
    rw [hr] at hr'
    rw [rowSize_conc h hr, rowSize_conc (ok_remove h d hi) hr']
    simp
  entry := by
    intro l j k hl hj
    have hj' := num_remove_lt hi hj
    obtain ⟨r, hr⟩ := getElem?_row h hj'
    have hr' := rows_remove (A := A) d i l j
    rw [hr] at hr'
    have hren : A.renumber d i l = id := by simp [renumber, hl]
    simp only [hren, Option.map_some, List.map_id_fun, id] at hr'
    rw [entry_conc h hr, entry_conc (ok_remove h d hi) hr']
  propSize := by
    intro e j p hj
    have hj' := num_remove_lt hi hj
    have hp' := props_remove (A := A) d i e p
    cases hp : (A.props e)[p]? with
    | none =>
      rw [hp] at hp'
      rw [propSize_none h hj' hp, propSize_none (ok_remove h d hi) hj hp']
    | some rs =>
      rw [hp] at hp'
      have hm := List.mem_of_getElem? hp
      have hl := h.props e rs hm
      have hr : rs[oldNumber d i e j]? = some _ := List.getElem?_eq_getElem (by rw [hl]; exact hj')
      have hr' : (if e = d then rs.eraseIdx i else rs)[j]? = rs[oldNumber d i e j]? := by
        unfold oldNumber
        split
        · exact getElem?_eraseIdx_old _ _ _
        · rfl
      rw [propSize_conc h hp hr, propSize_conc (ok_remove h d hi) hp' (hr'.trans hr)]
  propValue := by
    intro e j p k hj
    have hj' := num_remove_lt hi hj
    have hp' := props_remove (A := A) d i e p
    cases hp : (A.props e)[p]? with
    | none =>
      rw [hp] at hp'
      unfold Mesh.propValue
      rw [propSize_none h hj' hp, propSize_none (ok_remove h d hi) hj hp']; rfl
    | some rs =>
      rw [hp] at hp'
      have hm := List.mem_of_getElem? hp
      have hl := h.props e rs hm
      have hr : rs[oldNumber d i e j]? = some _ := List.getElem?_eq_getElem (by rw [hl]; exact hj')
      have hr' : (if e = d then rs.eraseIdx i else rs)[j]? = rs[oldNumber d i e j]? := by
        unfold oldNumber
        split
        · exact getElem?_eraseIdx_old _ _ _
        · rfl
      rw [propValue_conc h hp hr, propValue_conc (ok_remove h d hi) hp' (hr'.trans hr)]

/-! ### References after a removal -/

theorem renumber_target (d : Dim) (i : Nat) {l : Lst} (hl : l.target = d) (hs : l ≠ .sub2) :
    A.renumber d i l = align i (A.newRef l) := by simp [renumber, hl, hs]

theorem newRef_ge {l : Lst} (hu : A.num l.target ≤ UINT_MAX) : A.num l.target - 1 ≤ A.newRef l := by
  unfold newRef; split <;> omega

theorem entry_remove [Zero α] (h : A.Ok) (d : Dim) {i : Nat} (hi : i < A.num d) (l : Lst) (j k : Nat)
    (hj : j < (A.remove d i).num l.owner) :
    (A.remove d i).conc.entry l j k =
      (A.conc.entry l (oldNumber d i l.owner j) k >>= fun v => ok (A.renumber d i l v)) := by
  have hj' := num_remove_lt hi hj
  obtain ⟨r, hr⟩ := getElem?_row h hj'
  have hr' := rows_remove (A := A) d i l j
  rw [hr] at hr'
  rw [entry_conc h hr, entry_conc (ok_remove h d hi) hr']
  unfold agetD
  rw [List.getElem?_map]
  cases r[k]? <;> rfl

theorem extremes_remove0 [Zero α] (h : A.Ok) {i : Nat} (hi : i < A.num .d0) (j : Nat)
    (hj : j < A.num .d1) :
    ∃ a b, A.conc.extremes j = ok (a, b) ∧
      (A.remove .d0 i).conc.extremes j
        = ok (align i (A.num .d0 - 1) a, align i (A.num .d0 - 1) b) := by
  have h0 := h.ext
  refine ⟨A.ext[2 * j]'(by omega), A.ext[2 * j + 1]'(by omega), ?_, ?_⟩
  · unfold Mesh.extremes
    rw [assert_true (show j < A.conc.num .d1 from hj)]
    simp only [ok_bind]
    rw [show A.conc.ext = A.ext from rfl, vget_of_lt (by omega), vget_of_lt (by omega)]
    rfl
  · unfold Mesh.extremes
    rw [assert_true (show j < (A.remove .d0 i).conc.num .d1 from by
      show j < fset A.num .d0 (A.num .d0 - 1) .d1
      rw [fset_ne _ _ (by simp)]; exact hj)]
    simp only [ok_bind]
    rw [show (A.remove .d0 i).conc.ext = A.ext.map (align i (A.num .d0 - 1)) from rfl,
      vget_of_lt (by simp; omega), vget_of_lt (by simp; omega)]
    simp

theorem original_remove [Zero α] (h : A.Ok) {d : Dim} (hd : d ≠ .d0) {i : Nat} (hi : i < A.num d)
    (j : Nat) (hj : j < (A.remove d i).num d) :
    ∃ v, A.conc.original d (oldIndex i j) = ok v ∧
      (A.remove d i).conc.original d j = ok (align i UINT_MAX v) := by
  have hj' := num_remove_lt hi hj
  simp only [oldNumber, if_true] at hj'
  have h0 := h.orig d hd
  have hg : (A.orig d)[oldIndex i j]? = some ((A.orig d)[oldIndex i j]'(by omega)) :=
    List.getElem?_eq_getElem _
  refine ⟨(A.orig d)[oldIndex i j]'(by omega), ?_, ?_⟩
  · unfold Mesh.original
    rw [assert_true (show oldIndex i j < A.conc.num d from hj')]
    simp only [ok_bind, show A.conc.orig d = A.orig d from rfl, hg]
  · unfold Mesh.original
    rw [assert_true (show j < (A.remove d i).conc.num d from hj)]
    have : (A.remove d i).conc.orig d = ((A.orig d).eraseIdx i).map (align i UINT_MAX) := by
      show (if d = .d0 then A.orig else fset A.orig d _) d = _
      rw [if_neg hd, fset_self]
    simp only [ok_bind, this, List.getElem?_map, getElem?_eraseIdx_old, hg, Option.map_some]

theorem updated_remove [Zero α] (h : A.Ok) (d : Dim) {i : Nat} (hi : i < A.num d)
    (j : Nat) (hj : j < (A.remove d i).num d) :
    ∃ s s', A.conc.updated d (oldIndex i j) = ok s ∧ (A.remove d i).conc.updated d j = ok s' ∧
      ∀ x', x' ∈ s'.getD [] ↔ x' < A.num d - 1 ∧ oldIndex i x' ∈ s.getD [] := by
  have hj' := num_remove_lt hi hj
  simp only [oldNumber, if_true] at hj'
  have hu := h.upd d
  have hu' := (ok_remove h d hi).upd d
  have hupd : (A.remove d i).upd d = updRemove (A.upd d) (A.num d) i := by
    simp only [remove, fset_self]; rfl
  refine ⟨mapFind (A.upd d) (oldIndex i j), mapFind ((A.remove d i).upd d) j, ?_, ?_, ?_⟩
  · unfold Mesh.updated
    rw [assert_true (show oldIndex i j < A.conc.num d from hj')]; rfl
  · unfold Mesh.updated
    rw [assert_true (show j < (A.remove d i).conc.num d from hj)]; rfl
  · intro x
    have h1 : ∀ (u : UpdMap) (k : Nat) (_ : (u.map Prod.fst).Nodup) (y : Nat),
        y ∈ (mapFind u k).getD [] ↔ ∃ t, (k, t) ∈ u ∧ y ∈ t := by
      intro u k hk y
      cases hf : mapFind u k with
      | none =>
        rw [mapFind_eq_none] at hf
        simp only [Option.getD_none, List.not_mem_nil, false_iff, not_exists, not_and]
        intro t ht; exact absurd ht (hf t)
      | some t =>
        rw [mapFind_eq_some hk] at hf
        simp only [Option.getD_some]
        constructor
        · intro hy; exact ⟨t, hf, hy⟩
        · rintro ⟨t', ht', hy⟩
          have e1 := (mapFind_eq_some hk).2 hf
          have e2 := (mapFind_eq_some hk).2 ht'
          rw [e1] at e2
          cases e2
          exact hy
    rw [h1 _ _ hu'.keys, h1 _ _ hu.keys, hupd]
    constructor
    · rintro ⟨t, ht, hx⟩
      obtain ⟨_, t0, ht0, rfl⟩ := (mem_updRemove hi hu j t).1 ht
      obtain ⟨hx1, hx2⟩ := (mem_alignSet hi (hu.val_lt _ ht0)).1 hx
      exact ⟨hx1, t0, ht0, hx2⟩
    · rintro ⟨hx1, t0, ht0, hx2⟩
      have hx : x ∈ alignSet i (A.num d - 1) t0 :=
        (mem_alignSet hi (hu.val_lt _ ht0)).2 ⟨hx1, hx2⟩
      refine ⟨_, (mem_updRemove hi hu j _).2 ⟨?_, t0, ht0, rfl⟩, hx⟩
      intro hne
      rw [hne] at hx
      cases hx

/-! ### Append -/

theorem num_append_le [Zero α] (A : AMesh α) (d : Dim) (k : Nat) (e : Dim) :
    A.num e ≤ (A.append d k).num e := by
  simp only [append]
  by_cases he : e = d
  · subst he; simp
  · rw [fset_ne _ _ he]

theorem getElem?_append_lt {β : Type} {l l' : List β} {j : Nat} (h : j < l.length) :
    (l ++ l')[j]? = l[j]? := List.getElem?_append_left h

theorem rows_append_old [Zero α] (h : A.Ok) (d : Dim) (k : Nat) (l : Lst) {j : Nat}
    (hj : j < A.num l.owner) : ((A.append d k).rows l)[j]? = (A.rows l)[j]? := by
  simp only [append]
  split
  · exact getElem?_append_lt (by rw [h.rows l]; exact hj)
  · rfl

theorem props_append [Zero α] (d : Dim) (k : Nat) (e : Dim) (p : Nat) :
    ((A.append d k).props e)[p]? =
      ((A.props e)[p]?).map (fun r => if e = d then r ++ List.replicate k [] else r) := by
  simp only [append]
  by_cases he : e = d
  · subst he; simp
  · rw [fset_ne _ _ he]; simp [he]

theorem sameOldCells_append [Zero α] (h : A.Ok) (d : Dim) (k : Nat) :
    SameOldCells A.conc (A.append d k).conc where
  dimension := rfl
  ids := fun _ => rfl
  coordinates := by
    intro j hj
    have h0 := h.coord
    have hj' : j < A.num .d0 := hj
    unfold Mesh.coordinates
    rw [assert_true hj, assert_true (show j < (A.append d k).conc.num .d0 from
      Nat.lt_of_lt_of_le hj (num_append_le A d k .d0))]
    have key : ∀ t, t < 3 * A.num .d0 → vget (A.append d k).conc.coord t = vget A.conc.coord t := by
      intro t ht
      apply vget_congr
      show (if d = .d0 then A.coord ++ _ else A.coord)[t]? = A.coord[t]?
      split
      · exact getElem?_append_lt (by omega)
      · rfl
    rw [key _ (by omega), key _ (by omega), key _ (by omega)]
  extremes := by
    intro j hj
    have h0 := h.ext
    have hj' : j < A.num .d1 := hj
    unfold Mesh.extremes
    rw [assert_true hj, assert_true (show j < (A.append d k).conc.num .d1 from
      Nat.lt_of_lt_of_le hj (num_append_le A d k .d1))]
    have key : ∀ t, t < 2 * A.num .d1 → vget (A.append d k).conc.ext t = vget A.conc.ext t := by
      intro t ht
      apply vget_congr
      show (if d = .d1 then A.ext ++ _ else A.ext)[t]? = A.ext[t]?
      split
      · exact getElem?_append_lt (by omega)
      · rfl
    rw [key _ (by omega), key _ (by omega)]
  marker := by
    intro e j hj
    unfold Mesh.marker
    rw [assert_true hj, assert_true (show j < (A.append d k).conc.num e from
      Nat.lt_of_lt_of_le hj (num_append_le A d k e))]
    simp only [ok_bind]
    apply vget_congr
    show (fset A.mark d _ e)[j]? = (A.mark e)[j]?
    by_cases he : e = d
    · subst he
      simp only [fset_self]
      exact getElem?_append_lt (by rw [h.mark e]; exact hj)
    · rw [fset_ne _ _ he]
  active := by
    intro e j hj
    unfold Mesh.active
    rw [assert_true hj, assert_true (show j < (A.append d k).conc.num e from
      Nat.lt_of_lt_of_le hj (num_append_le A d k e))]
    simp only [ok_bind]
    apply vget_congr
    show (fset A.act d _ e)[j]? = (A.act e)[j]?
    by_cases he : e = d
    · subst he
      simp only [fset_self]
      exact getElem?_append_lt (by rw [h.act e]; exact hj)
    · rw [fset_ne _ _ he]
  original := by
    intro e j hj
    unfold Mesh.original
    rw [assert_true hj, assert_true (show j < (A.append d k).conc.num e from
      Nat.lt_of_lt_of_le hj (num_append_le A d k e))]
    simp only [ok_bind]
    have : ((A.append d k).conc.orig e)[j]? = (A.conc.orig e)[j]? := by
      show ((if d = .d0 then A.orig else fset A.orig d _) e)[j]? = (A.orig e)[j]?
      split
      · rfl
      · rename_i hd
        by_cases he : e = d
        · subst he
          simp only [fset_self]
          exact getElem?_append_lt (by rw [h.orig e hd]; exact hj)
        · rw [fset_ne _ _ he]
    rw [this]
  updated := by
    intro e j hj
    unfold Mesh.updated
    rw [assert_true hj, assert_true (show j < (A.append d k).conc.num e from
      Nat.lt_of_lt_of_le hj (num_append_le A d k e))]
    rfl
  rowSize := by
    intro l j hj
    obtain ⟨r, hr⟩ := getElem?_row h hj
    rw [rowSize_conc h hr, rowSize_conc (ok_append h d k) ((rows_append_old h d k l hj).trans hr)]
  entry := by
    intro l j t hj
    obtain ⟨r, hr⟩ := getElem?_row h hj
    rw [entry_conc h hr, entry_conc (ok_append h d k) ((rows_append_old h d k l hj).trans hr)]
  propSize := by
    intro e j p hj
    have hp' := props_append (A := A) d k e p
    cases hp : (A.props e)[p]? with
    | none =>
      rw [hp] at hp'
      rw [propSize_none h hj hp, propSize_none (ok_append h d k)
        (Nat.lt_of_lt_of_le hj (num_append_le A d k e)) hp']
    | some rs =>
      rw [hp] at hp'
      have hm := List.mem_of_getElem? hp
      have hl := h.props e rs hm
      have hr : rs[j]? = some _ := List.getElem?_eq_getElem (by rw [hl]; exact hj)
      have hr' : (if e = d then rs ++ List.replicate k [] else rs)[j]? = rs[j]? := by
        split
        · exact getElem?_append_lt (by rw [hl]; exact hj)
        · rfl
      rw [propSize_conc h hp hr, propSize_conc (ok_append h d k) hp' (hr'.trans hr)]
  propValue := by
    intro e j p t hj
    have hp' := props_append (A := A) d k e p
    cases hp : (A.props e)[p]? with
    | none =>
      rw [hp] at hp'
      unfold Mesh.propValue
      rw [propSize_none h hj hp, propSize_none (ok_append h d k)
        (Nat.lt_of_lt_of_le hj (num_append_le A d k e)) hp']
      rfl
    | some rs =>
      rw [hp] at hp'
      have hm := List.mem_of_getElem? hp
      have hl := h.props e rs hm
      have hr : rs[j]? = some _ := List.getElem?_eq_getElem (by rw [hl]; exact hj)
      have hr' : (if e = d then rs ++ List.replicate k [] else rs)[j]? = rs[j]? := by
        split
        · exact getElem?_append_lt (by rw [hl]; exact hj)
        · rfl
      rw [propValue_conc h hp hr, propValue_conc (ok_append h d k) hp' (hr'.trans hr)]

theorem getElem?_append_replicate {β : Type} {l : List β} {b : β} {n k j : Nat} (hl : l.length = n)
    (h1 : n ≤ j) (h2 : j < n + k) : (l ++ List.replicate k b)[j]? = some b := by
  rw [List.getElem?_append_right (by omega), List.getElem?_replicate, if_pos (by omega)]

theorem blankCell_append [Zero α] (h : A.Ok) (d : Dim) (k : Nat) {j : Nat} (h1 : A.num d ≤ j)
    (h2 : j < A.num d + k) : BlankCell (A.append d k).conc d j := by
  have hn : (A.append d k).conc.num d = A.num d + k := by
    show fset A.num d _ d = _; rw [fset_self]
  have hj : j < (A.append d k).conc.num d := by rw [hn]; exact h2
  constructor
  · unfold Mesh.marker
    rw [assert_true hj, ok_bind, vget_eq_ok]
    show (fset A.mark d _ d)[j]? = _
    rw [fset_self]
    exact getElem?_append_replicate (h.mark d) h1 h2
  · unfold Mesh.active
    rw [assert_true hj, ok_bind, vget_eq_ok]
    show (fset A.act d _ d)[j]? = _
    rw [fset_self]
    exact getElem?_append_replicate (h.act d) h1 h2
  · intro hd
    unfold Mesh.original
    rw [assert_true hj, ok_bind]
    have : ((A.append d k).conc.orig d)[j]? = some UINT_MAX := by
      show ((if d = .d0 then A.orig else fset A.orig d _) d)[j]? = _
      rw [if_neg hd, fset_self]
      exact getElem?_append_replicate (h.orig d hd) h1 h2
    rw [this]
  · unfold Mesh.updated
    rw [assert_true hj, ok_bind]
    congr 1
    show mapFind (A.upd d) j = none
    rw [mapFind_eq_none]
    intro s hs
    have := (h.upd d).key_lt _ hs
    simp only at this
    omega
  · intro l hl
    subst hl
    have : ((A.append l.owner k).rows l)[j]? = some [] := by
      simp only [append, if_true]
      exact getElem?_append_replicate (h.rows l) h1 h2
    rw [rowSize_conc (ok_append h _ k) this]
    rfl
  · intro p hp
    have hp1 : p < (A.props d).length := by rw [← h.ids d]; exact hp
    have hp2 : (A.props d)[p]? = some _ := List.getElem?_eq_getElem hp1
    have hp' := props_append (A := A) d k d p
    rw [hp2] at hp'
    simp only [if_true, Option.map_some] at hp'
    have hl := h.props d _ (List.getElem_mem hp1)
    rw [propSize_conc (ok_append h d k) hp' (getElem?_append_replicate hl h1 h2)]
    rfl
  · rintro rfl
    unfold Mesh.coordinates
    rw [assert_true hj, ok_bind]
    have h0 := h.coord
    have key : ∀ t, t < 3 → vget (A.append .d0 k).conc.coord (3 * j + t) = ok (0 : α) := by
      intro t ht
      rw [vget_eq_ok]
      show (A.coord ++ List.replicate (3 * k) (0 : α))[3 * j + t]? = _
      exact getElem?_append_replicate h0 (by omega) (by omega)
    have k0 := key 0 (by omega)
    have k1 := key 1 (by omega)
    have k2 := key 2 (by omega)
    simp only [Nat.add_zero] at k0
    rw [k0, k1, k2]
    rfl

/-! ### Changing one list -/

/-- The mesh with other rows in list `l`. -/
def setRows (A : AMesh α) (l : Lst) (rs : List (List Nat)) : AMesh α :=
  { A with rows := fset A.rows l rs }

theorem setRows_conc (A : AMesh α) (l : Lst) (rs : List (List Nat)) :
    ({ A.conc with lists := fset A.conc.lists l (Csr.ofRows rs) } : Mesh α)
      = (A.setRows l rs).conc := by
  simp only [conc, setRows, Mesh.mk.injEq, true_and]
  funext l'
  by_cases h : l' = l
  · subst h; simp
  · rw [fset_ne _ _ h, fset_ne _ _ h]

theorem ok_setRows (h : A.Ok) {l : Lst} {rs : List (List Nat)} (hl : rs.length = A.num l.owner) :
    (A.setRows l rs).Ok := by
  refine ⟨h.1, h.2, h.3, h.4, h.5, h.6, h.7, h.8, h.9, h.10, ?_⟩
  intro l'
  simp only [setRows]
  by_cases hl' : l' = l
  · subst hl'; simpa using hl
  · rw [fset_ne _ _ hl']; exact h.rows l'

theorem setRows_rows_ne (A : AMesh α) {l l' : Lst} (rs : List (List Nat)) (h : l' ≠ l) :
    (A.setRows l rs).rows l' = A.rows l' := by simp [setRows, fset_ne _ _ h]

theorem setRows_rows_self (A : AMesh α) (l : Lst) (rs : List (List Nat)) :
    (A.setRows l rs).rows l = rs := by simp [setRows]

/-- The result of replacing row `i` of list `l` by `r`. -/
def setRow (A : AMesh α) (l : Lst) (i : Nat) (r : List Nat) : AMesh α :=
  A.setRows l ((A.rows l).set i r)

theorem ok_setRow (h : A.Ok) (l : Lst) (i : Nat) (r : List Nat) : (A.setRow l i r).Ok :=
  ok_setRows h (by simpa using h.rows l)

theorem setRow_rows (A : AMesh α) (l : Lst) (i : Nat) (r : List Nat) (l' : Lst) (j : Nat)
    (hi : i < (A.rows l).length) :
    ((A.setRow l i r).rows l')[j]? = if l' = l ∧ j = i then some r else (A.rows l')[j]? := by
  unfold setRow
  by_cases hl : l' = l
  · subst hl
    rw [setRows_rows_self, List.getElem?_set]
    by_cases hj : j = i
    · subst hj; simp [hi]
    · simp [hj, Ne.symm hj]
  · rw [setRows_rows_ne _ _ hl]; simp [hl]

theorem resizeRowOf_conc (h : A.Ok) {l : Lst} {i k : Nat} {r : List Nat}
    (hr : (A.rows l)[i]? = some r) (hk : l = .sub2 → k % 3 = 0) :
    A.conc.resizeRowOf l i k = ok (A.setRow l i (vresize r k l.fillOne)).conc := by
  have hlt := lt_of_getElem? hr
  have hi : i < A.num l.owner := by rw [← h.rows l]; exact hlt
  have he : (A.rows l)[i] = r := by
    rw [List.getElem?_eq_getElem hlt] at hr; simpa using hr
  unfold Mesh.resizeRowOf
  rw [assert_true (show i < A.conc.num l.owner from hi), assert_true hk]
  simp only [ok_bind]
  have : (A.conc.lists l).resizeRow (A.conc.num l.owner) i k l.fillOne
      = ok (Csr.ofRows ((A.rows l).set i (vresize r k l.fillOne))) := by
    show (Csr.ofRows (A.rows l)).resizeRow (A.num l.owner) i k l.fillOne = _
    rw [← h.rows l, Csr.resizeRow_ofRows _ hlt, he]
  rw [this, ok_bind, setRows_conc]
  rfl

theorem put_conc {l : Lst} {i k : Nat} {r : List Nat} (v : Nat)
    (hr : (A.rows l)[i]? = some r) (hk : k < r.length) :
    (A.conc.lists l).put i k v = ok (Csr.ofRows ((A.rows l).set i (r.set k v))) := by
  have hlt := lt_of_getElem? hr
  have he : (A.rows l)[i] = r := by
    rw [List.getElem?_eq_getElem hlt] at hr; simpa using hr
  show (Csr.ofRows (A.rows l)).put i k v = _
  subst he
  rw [Csr.put_ofRows v hlt hk]

theorem insertEntry_conc (h : A.Ok) {l : Lst} {i k v : Nat} {r : List Nat}
    (hr : (A.rows l)[i]? = some r) (hk : k < r.length) (hv : v < A.num l.target) :
    A.conc.insertEntry l i k v = ok (A.setRow l i (r.set k v)).conc := by
  have hlt := lt_of_getElem? hr
  have hi : i < A.num l.owner := by rw [← h.rows l]; exact hlt
  have hs : (A.conc.lists l).rowSize i = ok r.length := by
    have := rowSize_conc h hr
    unfold Mesh.rowSize at this
    rwa [assert_true (show i < A.conc.num l.owner from hi)] at this
  unfold Mesh.insertEntry
  rw [assert_true (show i < A.conc.num l.owner from hi), hs]
  simp only [ok_bind]
  rw [assert_true hk, assert_true (show v < A.conc.num l.target from hv), put_conc v hr hk]
  simp only [ok_bind]
  rw [setRows_conc]
  rfl

theorem resetNeighbour_conc {l : Lst} {i k : Nat} {r : List Nat}
    (hr : (A.rows l)[i]? = some r) (hk : k < r.length) :
    A.conc.resetNeighbour l i k = ok (A.setRow l i (r.set k UINT_MAX)).conc := by
  unfold Mesh.resetNeighbour
  rw [put_conc _ hr hk]
  simp only [ok_bind]
  rw [setRows_conc]
  rfl

theorem setRow_setRow (A : AMesh α) (l : Lst) (i : Nat) (r r' : List Nat) :
    (A.setRow l i r).setRow l i r' = A.setRow l i r' := by
  unfold setRow
  rw [setRows_rows_self, List.set_set]
  simp only [setRows, AMesh.mk.injEq, true_and]
  funext l'
  unfold fset
  split <;> rfl

theorem insertFrom_conc {l : Lst} {i : Nat} {vs : List Nat} {k : Nat} {A : AMesh α} (h : A.Ok)
    {r : List Nat} (hr : (A.rows l)[i]? = some r) (hk : k + vs.length = r.length)
    (hv : ∀ v ∈ vs, v < A.num l.target) :
    A.conc.insertFrom l i k vs = ok (A.setRow l i (r.take k ++ vs)).conc := by
  induction vs generalizing k A r with
  | nil =>
    simp only [Mesh.insertFrom, List.append_nil]
    rw [List.take_of_length_le (by simp at hk; omega)]
    congr 2
    unfold setRow setRows
    cases A
    simp only [AMesh.mk.injEq, true_and]
    funext l'
    unfold fset
    split
    · rename_i hl
      subst hl
      simp only at hr ⊢
      apply List.ext_getElem?
      intro j
      rw [List.getElem?_set]
      split
      · rename_i hj; subst hj; rw [if_pos (lt_of_getElem? hr), hr]
      · rfl
    · rfl
  | cons v vs ih =>
    have hlt := lt_of_getElem? hr
    simp only [List.length_cons] at hk
    rw [Mesh.insertFrom, insertEntry_conc h hr (by omega) (hv v (by simp)), ok_bind]
    have hr' : ((A.setRow l i (r.set k v)).rows l)[i]? = some (r.set k v) := by
      rw [setRow_rows _ _ _ _ _ _ hlt]; simp
    rw [ih (ok_setRow h _ _ _) hr' (by simp; omega) (fun v hv' => hv v (by simp [hv'])),
      setRow_setRow]
    congr 3
    rw [List.take_set, List.take_succ_eq_append_getElem (by omega)]
    rw [List.set_append_right _ _ (by simp)]
    simp [Nat.min_eq_left (show k ≤ r.length by omega)]

theorem addRow_conc (h : A.Ok) {l : Lst} {i : Nat} {vs : List Nat} (hi : i < A.num l.owner)
    (hs : l = .sub2 → vs.length % 3 = 0) (hv : ∀ v ∈ vs, v < A.num l.target) :
    A.conc.addRow l i vs = ok (A.setRow l i vs).conc := by
  obtain ⟨r, hr⟩ := getElem?_row h hi
  have hlt := lt_of_getElem? hr
  unfold Mesh.addRow
  rw [resizeRowOf_conc h hr hs, ok_bind]
  have hr' : ((A.setRow l i (vresize r vs.length l.fillOne)).rows l)[i]?
      = some (vresize r vs.length l.fillOne) := by
    rw [setRow_rows _ _ _ _ _ _ hlt]; simp
  rw [insertFrom_conc (ok_setRow h _ _ _) hr' (by simp) hv, setRow_setRow]
  simp

end AMesh
end Verif
