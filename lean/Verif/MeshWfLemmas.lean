/-
Helper lemmas: every modifying call keeps the mesh record well formed.
-/
import Verif.MeshLemmas
import Verif.MeshUpdLemmas

namespace Verif

open Res

variable {α : Type}

/-! ### Storage level -/

namespace Csr

theorem resizeRow_wf {c : Csr α} {n i : Nat} (m : Nat) (d : α) (h : c.WF n) (hi : i < n) :
    ∃ c', c.resizeRow n i m d = ok c' ∧ c'.WF n := by
  obtain ⟨rows, rfl, rfl⟩ := exists_rows_of_wf h
  refine ⟨_, resizeRow_ofRows d hi, ?_⟩
  have := wf_ofRows (rows.set i (vresize rows[i] m d))
  simpa using this

theorem rowSize_wf {c : Csr α} {n i : Nat} (h : c.WF n) (hi : i < n) : ∃ s, c.rowSize i = ok s := by
  obtain ⟨rows, rfl, rfl⟩ := exists_rows_of_wf h
  exact ⟨_, rowSize_ofRows hi⟩

theorem get_wf {c : Csr α} {n i s k : Nat} (h : c.WF n) (hi : i < n) (hs : c.rowSize i = ok s)
    (hk : k < s) : ∃ a, c.get i k = ok a := by
  obtain ⟨rows, rfl, rfl⟩ := exists_rows_of_wf h
  rw [rowSize_ofRows hi] at hs
  cases hs
  exact ⟨_, get_ofRows hi hk⟩

theorem put_wf {c c' : Csr α} {n i k : Nat} {a : α} (h : c.WF n) (hp : c.put i k a = ok c') :
    c'.WF n := by
  unfold put at hp
  rw [bind_eq_ok] at hp
  obtain ⟨lo, _, hp⟩ := hp
  rw [bind_eq_ok] at hp
  obtain ⟨el', he, hp⟩ := hp
  cases hp
  unfold vset at he
  split at he
  · cases he
    exact ⟨h.length_off, h.first, h.mono, by simpa using h.last⟩
  · cases he

theorem put_ok {c : Csr α} {n i s k : Nat} (a : α) (h : c.WF n) (hi : i < n)
    (hs : c.rowSize i = ok s) (hk : k < s) : ∃ c', c.put i k a = ok c' := by
  obtain ⟨rows, rfl, rfl⟩ := exists_rows_of_wf h
  rw [rowSize_ofRows hi] at hs
  cases hs
  exact ⟨_, put_ofRows a hi hk⟩

theorem initSizes_wf {c : Csr α} {n : Nat} (sizes : List Nat) (d : α) (h : c.WF n) :
    (c.initSizes sizes d).WF sizes.length := by
  rw [initSizes_spec c h.first]
  simpa using wf_ofRows (cut sizes (vresize c.el sizes.sum d))

theorem initConst_wf {c : Csr α} {n : Nat} (k : Nat) (d : α) (h : c.WF n) :
    (c.initConst n k d).WF n := by
  rw [initConst_spec c h.first]
  simpa using wf_ofRows (cut (List.replicate n k) (vresize c.el (n * k) d))

theorem eq_replicate_of_el_nil {c : Csr α} {n : Nat} (h : c.WF n) (he : c.el = []) :
    c.off = List.replicate (n + 1) 0 := by
  rw [List.eq_replicate_iff]
  refine ⟨h.length_off, ?_⟩
  intro b hb
  obtain ⟨k, hk, rfl⟩ := List.getElem_of_mem hb
  have hl := h.length_off
  have h1 := wf_off_le h (show k ≤ n by omega) (by omega)
  have h2 := h.last
  rw [List.getElem?_eq_getElem (by omega)] at h2
  simp only [he, List.length_nil, Option.some.injEq] at h2
  omega

theorem resizeOff_wf {c : Csr α} {n : Nat} (k : Nat) (h : c.WF n) (he : c.el = []) :
    (c.resizeOff k).WF k := by
  have h1 := eq_replicate_of_el_nil h he
  have h2 : c.resizeOff k = ofRows (List.replicate k []) := by
    rw [← resizeOff_empty]
    unfold resizeOff empty
    rw [h1, he]
    congr 1
    apply List.ext_getElem?
    intro j
    simp only [vresize, List.take_replicate, List.length_replicate, List.length_singleton]
    rw [List.getElem?_append, List.getElem?_append]
    simp only [List.getElem?_replicate, List.length_replicate, List.getElem?_take,
      List.length_take, List.length_singleton, List.getElem?_singleton]
    split_ifs <;> first | rfl | omega | (simp; omega) | skip
    all_goals grind
  rw [h2]
  simpa using wf_ofRows (List.replicate k ([] : List α))

end Csr

/-! ### Mesh level -/

namespace AMesh

theorem ok_remove [Zero α] {A : AMesh α} (h : A.Ok) (d : Dim) {i : Nat} (hi : i < A.num d) :
    (A.remove d i).Ok where
  coord := by
    simp only [remove]
    by_cases hd : d = .d0
    · subst hd
      have := h.coord
      simp only [if_true, fset_self, List.length_append, List.length_take, List.length_drop]
      omega
    · rw [if_neg hd, fset_ne _ _ (Ne.symm hd)]; exact h.coord
  ext := by
    simp only [remove]
    by_cases hd0 : d = .d0
    · subst hd0; simp [fset_ne, h.ext]
    · by_cases hd : d = .d1
      · subst hd
        have := h.ext
        simp only [if_true, fset_self, List.length_append, List.length_take, List.length_drop,
          reduceCtorEq, if_false]
        omega
      · rw [if_neg hd0, if_neg hd, fset_ne _ _ (Ne.symm hd)]; exact h.ext
  mark := by
    intro e
    simp only [remove]
    by_cases he : e = d
    · subst he
      have := h.mark e
      simp [List.length_eraseIdx, this, hi]
    · rw [fset_ne _ _ he, fset_ne _ _ he]; exact h.mark e
  act := by
    intro e
    simp only [remove]
    by_cases he : e = d
    · subst he
      have := h.act e
      simp [List.length_eraseIdx, this, hi]
    · rw [fset_ne _ _ he, fset_ne _ _ he]; exact h.act e
  orig0 := by
    simp only [remove]
    by_cases hd : d = .d0
    · rw [if_pos hd]; exact h.orig0
    · rw [if_neg hd, fset_ne _ _ (Ne.symm hd)]; exact h.orig0
  orig := by
    intro e he0
    simp only [remove]
    by_cases he : e = d
    · subst he
      have := h.orig e he0
      simp [he0, List.length_eraseIdx, this, hi]
    · rw [fset_ne _ _ he]
      split
      · exact h.orig e he0
      · rw [fset_ne _ _ he]; exact h.orig e he0
  upd := by
    intro e
    simp only [remove]
    by_cases he : e = d
    · subst he
      simp only [fset_self]
      exact updOk_updRemove hi (h.upd e)
    · rw [fset_ne _ _ he, fset_ne _ _ he]; exact h.upd e
  ids := by
    intro e
    simp only [remove]
    by_cases he : e = d
    · subst he; simp [h.ids e]
    · rw [fset_ne _ _ he]; exact h.ids e
  ids_nodup := h.ids_nodup
  props := by
    intro e c hc
    simp only [remove] at hc ⊢
    by_cases he : e = d
    · subst he
      simp only [fset_self, List.mem_map] at hc ⊢
      obtain ⟨r, hr, rfl⟩ := hc
      have := h.props e r hr
      simp [List.length_eraseIdx, this, hi]
    · rw [fset_ne _ _ he] at hc ⊢; exact h.props e c hc
  rows := by
    intro l
    simp only [remove, List.length_map]
    by_cases he : l.owner = d
    · subst he
      have := h.rows l
      simp [List.length_eraseIdx, this, hi]
    · rw [if_neg he, fset_ne _ _ he]; exact h.rows l

theorem ok_append [Zero α] {A : AMesh α} (h : A.Ok) (d : Dim) (k : Nat) :
    (A.append d k).Ok where
  coord := by
    simp only [append]
    by_cases hd : d = .d0
    · subst hd
      have := h.coord
      simp; omega
    · rw [if_neg hd, fset_ne _ _ (Ne.symm hd)]; exact h.coord
  ext := by
    simp only [append]
    by_cases hd : d = .d1
    · subst hd
      have := h.ext
      simp; omega
    · rw [if_neg hd, fset_ne _ _ (Ne.symm hd)]; exact h.ext
  mark := by
    intro e
    simp only [append]
    by_cases he : e = d
    · subst he; simp [h.mark e]
    · rw [fset_ne _ _ he, fset_ne _ _ he]; exact h.mark e
  act := by
    intro e
    simp only [append]
    by_cases he : e = d
    · subst he; simp [h.act e]
    · rw [fset_ne _ _ he, fset_ne _ _ he]; exact h.act e
  orig0 := by
    simp only [append]
    by_cases hd : d = .d0
    · rw [if_pos hd]; exact h.orig0
    · rw [if_neg hd, fset_ne _ _ (Ne.symm hd)]; exact h.orig0
  orig := by
    intro e he0
    simp only [append]
    by_cases he : e = d
    · subst he; simp [he0, h.orig e he0]
    · rw [fset_ne _ _ he]
      split
      · exact h.orig e he0
      · rw [fset_ne _ _ he]; exact h.orig e he0
  upd := by
    intro e
    simp only [append]
    by_cases he : e = d
    · subst he
      exact updOk_mono (h.upd e) (by simp)
    · rw [fset_ne _ _ he]; exact h.upd e
  ids := by
    intro e
    simp only [append]
    by_cases he : e = d
    · subst he; simp [h.ids e]
    · rw [fset_ne _ _ he]; exact h.ids e
  ids_nodup := h.ids_nodup
  props := by
    intro e c hc
    simp only [append] at hc ⊢
    by_cases he : e = d
    · subst he
      simp only [fset_self, List.mem_map] at hc ⊢
      obtain ⟨r, hr, rfl⟩ := hc
      simp [h.props e r hr]
    · rw [fset_ne _ _ he] at hc ⊢; exact h.props e c hc
  rows := by
    intro l
    simp only [append]
    by_cases he : l.owner = d
    · subst he; simp [h.rows l]
    · rw [if_neg he, fset_ne _ _ he]; exact h.rows l

end AMesh

namespace Mesh

theorem remove_wf [Zero α] {m : Mesh α} (h : m.WF) (d : Dim) {i : Nat} (hi : i < m.num d) :
    ∃ m', m.remove d i = ok m' ∧ m'.WF := by
  obtain ⟨A, hA, rfl⟩ := AMesh.exists_conc h
  exact ⟨_, AMesh.remove_conc hA d hi, AMesh.wf_conc (AMesh.ok_remove hA d hi)⟩

theorem remove_abort [Zero α] {m : Mesh α} (h : m.WF) (d : Dim) {i : Nat} (hi : ¬ i < m.num d) :
    m.remove d i = abort := by
  obtain ⟨A, hA, rfl⟩ := AMesh.exists_conc h
  exact AMesh.remove_conc_abort d hi

theorem append_wf [Zero α] {m : Mesh α} (h : m.WF) (d : Dim) (k : Nat) :
    ∃ m', m.append d k = ok (m', m.num d) ∧ m'.WF := by
  obtain ⟨A, hA, rfl⟩ := AMesh.exists_conc h
  exact ⟨_, AMesh.append_conc hA d k, AMesh.wf_conc (AMesh.ok_append hA d k)⟩

theorem setList_wf {m : Mesh α} (h : m.WF) {l : Lst} {c : Csr Nat} (hc : c.WF (m.num l.owner)) :
    { m with lists := fset m.lists l c }.WF where
  coord := h.coord
  ext := h.ext
  mark := h.mark
  act := h.act
  orig0 := h.orig0
  orig := h.orig
  upd := h.upd
  ids := h.ids
  ids_nodup := h.ids_nodup
  props := h.props
  lists := by
    intro l'
    simp only
    by_cases hl : l' = l
    · subst hl; simpa using hc
    · rw [fset_ne _ _ hl]; exact h.lists l'

theorem setProp_wf {m : Mesh α} (h : m.WF) {d : Dim} {p : Nat} {c : Csr α} (hc : c.WF (m.num d)) :
    { m with props := fset m.props d ((m.props d).set p c) }.WF where
  coord := h.coord
  ext := h.ext
  mark := h.mark
  act := h.act
  orig0 := h.orig0
  orig := h.orig
  upd := h.upd
  ids := by
    intro e
    simp only
    by_cases he : e = d
    · subst he; simpa using h.ids e
    · rw [fset_ne _ _ he]; exact h.ids e
  ids_nodup := h.ids_nodup
  props := by
    intro e x hx
    simp only at hx ⊢
    by_cases he : e = d
    · subst he
      simp only [fset_self] at hx
      rcases List.mem_or_eq_of_mem_set hx with hx | rfl
      · exact h.props e x hx
      · exact hc
    · rw [fset_ne _ _ he] at hx; exact h.props e x hx
  lists := h.lists

theorem init_wf [Zero α] {m : Mesh α} (h : m.WF) (d : Dim) (n : Nat)
    (hl : ∀ l, l.owner = d → (m.lists l).el = []) (hp : ∀ c ∈ m.props d, c.el = [])
    (hu : m.upd d = []) : (m.init d n).WF := by
  have hprops : ∀ c ∈ (m.props d).map (fun c => c.resizeOff n), c.WF n := by
    intro c hc
    simp only [List.mem_map] at hc
    obtain ⟨c, hc, rfl⟩ := hc
    exact Csr.resizeOff_wf n (h.props d c hc) (hp c hc)
  have hlists : ∀ l, l.owner = d → ((m.lists l).resizeOff n).WF n := by
    intro l hlo
    subst hlo
    exact Csr.resizeOff_wf n (h.lists l) (hl l rfl)
  have hupd : UpdOk (m.upd d) n := by
    rw [hu]; constructor <;> simp
  cases d <;> constructor
  all_goals first
    | exact h.orig0
    | exact h.ids_nodup
    | (simp [init, init0, init1, init2, init3, resizeOffOf, resizePropOffs, fset, h.coord, h.ext,
        h.orig0]; done)
    | skip
  all_goals intro e
  all_goals first
    | exact h.ids_nodup e
    | (cases e <;> simp [init, init0, init1, init2, init3, resizeOffOf, resizePropOffs, fset, h.mark,
        h.act, h.orig, h.upd, h.ids, hupd]; done)
    | skip
  all_goals
    cases e <;>
    simp [init, init0, init1, init2, init3, resizeOffOf, resizePropOffs, fset, Lst.owner,
      -List.mem_map] <;>
    first
    | exact hprops
    | exact h.props _
    | exact hlists _ rfl
    | exact h.lists _

theorem insertUpd_eq (m : Mesh α) (d : Dim) (i j : Nat) :
    m.insertUpd d i j = (do
      assert (i < m.num d)
      assert (j < m.num d)
      let m := { m with upd := fset m.upd d (updInsert (m.upd d) i j) }
      if d = .d0 then ok m
      else do
        let o ← vset (m.orig d) j i
        ok { m with orig := fset m.orig d o }) := rfl

theorem insertUpd_wf {m : Mesh α} (h : m.WF) (d : Dim) {i j : Nat} (hi : i < m.num d)
    (hj : j < m.num d) :
    m.insertUpd d i j = ok { m with
      upd := fset m.upd d (updInsert (m.upd d) i j)
      orig := if d = .d0 then m.orig else fset m.orig d ((m.orig d).set j i) } ∧
    Mesh.WF { m with
      upd := fset m.upd d (updInsert (m.upd d) i j)
      orig := if d = .d0 then m.orig else fset m.orig d ((m.orig d).set j i) } := by
  constructor
  · rw [insertUpd_eq, assert_true hi, assert_true hj]
    simp only [ok_bind]
    split
    · rfl
    · rename_i hd
      rw [vset_of_lt _ (by rw [h.orig d hd]; exact hj)]
      rfl
  · constructor
    · exact h.coord
    · exact h.ext
    · exact h.mark
    · exact h.act
    · simp only
      split
      · exact h.orig0
      · rename_i hd; rw [fset_ne _ _ (Ne.symm hd)]; exact h.orig0
    · intro e he0
      simp only
      split
      · exact h.orig e he0
      · by_cases he : e = d
        · subst he; simpa using h.orig e he0
        · rw [fset_ne _ _ he]; exact h.orig e he0
    · intro e
      simp only
      by_cases he : e = d
      · subst he; simpa using updOk_updInsert (h.upd e) hi hj
      · rw [fset_ne _ _ he]; exact h.upd e
    · exact h.ids
    · exact h.ids_nodup
    · exact h.props
    · exact h.lists

theorem resizeRowOf_wf {m : Mesh α} (h : m.WF) {l : Lst} {i k : Nat} (hi : i < m.num l.owner)
    (hk : l = .sub2 → k % 3 = 0) :
    ∃ c, (m.lists l).resizeRow (m.num l.owner) i k l.fillOne = ok c ∧
      m.resizeRowOf l i k = ok { m with lists := fset m.lists l c } ∧
      Mesh.WF { m with lists := fset m.lists l c } := by
  obtain ⟨c, hc, hcw⟩ := Csr.resizeRow_wf k l.fillOne (h.lists l) hi
  refine ⟨c, hc, ?_, setList_wf h hcw⟩
  unfold resizeRowOf
  rw [assert_true hi, assert_true hk]
  simp only [ok_bind, hc]

theorem insertEntry_wf {m m' : Mesh α} (h : m.WF) {l : Lst} {i k v : Nat}
    (hs : m.insertEntry l i k v = ok m') : m'.WF := by
  unfold insertEntry at hs
  simp only [bind_eq_ok] at hs
  obtain ⟨_, _, s, _, _, _, _, _, c, hc, hm⟩ := hs
  cases hm
  exact setList_wf h (Csr.put_wf (h.lists l) hc)

theorem insertEntry_cases {m : Mesh α} (h : m.WF) (l : Lst) (i k v : Nat) :
    m.insertEntry l i k v = abort ∨ ∃ m', m.insertEntry l i k v = ok m' ∧ m'.WF := by
  suffices hh : m.insertEntry l i k v = abort ∨ ∃ m', m.insertEntry l i k v = ok m' by
    rcases hh with h1 | ⟨m', h1⟩
    · exact Or.inl h1
    · exact Or.inr ⟨m', h1, insertEntry_wf h h1⟩
  unfold insertEntry
  by_cases hi : i < m.num l.owner
  · obtain ⟨s, hs⟩ := Csr.rowSize_wf (h.lists l) hi
    rw [assert_true hi, hs]
    simp only [ok_bind]
    by_cases hk : k < s
    · rw [assert_true hk]
      by_cases hv : v < m.num l.target
      · rw [assert_true hv]
        obtain ⟨c, hc⟩ := Csr.put_ok v (h.lists l) hi hs hk
        simp [hc]
      · rw [assert_false hv]; simp
    · rw [assert_false hk]; simp
  · rw [assert_false hi]; simp

theorem insertFrom_cases {l : Lst} {i : Nat} {vs : List Nat} {k : Nat} {m : Mesh α} (h : m.WF) :
    m.insertFrom l i k vs = abort ∨ ∃ m', m.insertFrom l i k vs = ok m' ∧ m'.WF := by
  induction vs generalizing k m with
  | nil => exact Or.inr ⟨m, rfl, h⟩
  | cons v vs ih =>
    rw [insertFrom]
    rcases insertEntry_cases h l i k v with h1 | ⟨m1, h1, hw⟩
    · rw [h1]; exact Or.inl rfl
    · rw [h1]; exact ih hw

theorem insertPairsFrom_cases {i : Nat} {ps : List (Nat × Nat)} {k : Nat} {m : Mesh α}
    (h : m.WF) :
    m.insertPairsFrom i k ps = abort ∨ ∃ m', m.insertPairsFrom i k ps = ok m' ∧ m'.WF := by
  induction ps generalizing k m with
  | nil => exact Or.inr ⟨m, rfl, h⟩
  | cons p ps ih =>
    obtain ⟨v, e⟩ := p
    rw [insertPairsFrom]
    rcases insertEntry_cases h .vert2 i k v with h1 | ⟨m1, h1, hw⟩
    · rw [h1]; exact Or.inl rfl
    · rw [h1]
      rcases insertEntry_cases hw .edge2 i k e with h2 | ⟨m2, h2, hw2⟩
      · simp only [ok_bind]; rw [h2]; exact Or.inl rfl
      · simp only [ok_bind]; rw [h2]; exact ih hw2

theorem resizeRowOf_cases {m : Mesh α} (h : m.WF) (l : Lst) (i k : Nat) :
    m.resizeRowOf l i k = abort ∨ ∃ m', m.resizeRowOf l i k = ok m' ∧ m'.WF := by
  by_cases hi : i < m.num l.owner
  · by_cases hk : l = .sub2 → k % 3 = 0
    · obtain ⟨c, _, h1, h2⟩ := resizeRowOf_wf h hi hk
      exact Or.inr ⟨_, h1, h2⟩
    · left; unfold resizeRowOf; rw [assert_true hi, assert_false hk]; rfl
  · left; unfold resizeRowOf; rw [assert_false hi]; rfl

end Mesh

/-! ### One call -/

namespace Mesh

theorem vgetProps {m : Mesh α} (h : m.WF) {d : Dim} {p : Nat} (hp : p < (m.ids d).length) :
    ∃ c, vget (m.props d) p = ok c ∧ c ∈ m.props d ∧ p < (m.props d).length := by
  rw [h.ids d] at hp
  exact ⟨_, vget_of_lt hp, List.getElem_mem _, hp⟩

theorem step_wf [Zero α] {m : Mesh α} (h : m.WF) (o : Op α) (hg : m.Guarded o) :
    m.step o = abort ∨ ∃ m', m.step o = ok m' ∧ m'.WF := by
  cases o with
  | initDim n => exact Or.inr ⟨_, rfl, ⟨h.1, h.2, h.3, h.4, h.5, h.6, h.7, h.8, h.9, h.10, h.11⟩⟩
  | init d n => exact Or.inr ⟨_, rfl, init_wf h d n hg.1 hg.2.1 hg.2.2⟩
  | append d k =>
    obtain ⟨m', h1, h2⟩ := append_wf h d k
    exact Or.inr ⟨m', by simp [step, h1], h2⟩
  | remove d i =>
    by_cases hi : i < m.num d
    · obtain ⟨m', h1, h2⟩ := remove_wf h d hi
      exact Or.inr ⟨m', h1, h2⟩
    · exact Or.inl (remove_abort h d hi)
  | insertCoord i x y z =>
    simp only [step, insertCoord]
    by_cases hi : i < m.num .d0
    · have hc := h.coord
      rw [assert_true hi]
      simp only [ok_bind]
      rw [vset_of_lt _ (by omega)]
      simp only [ok_bind]
      rw [vset_of_lt _ (by simp; omega)]
      simp only [ok_bind]
      rw [vset_of_lt _ (by simp; omega)]
      refine Or.inr ⟨_, rfl, ⟨?_, h.2, h.3, h.4, h.5, h.6, h.7, h.8, h.9, h.10, h.11⟩⟩
      simpa using hc
    · rw [assert_false hi]; exact Or.inl rfl
  | insertExt i a b =>
    simp only [step, insertExt]
    by_cases hi : i < m.num .d1
    · have hc := h.ext
      rw [assert_true hi]
      simp only [ok_bind]
      rw [vset_of_lt _ (by omega)]
      simp only [ok_bind]
      rw [vset_of_lt _ (by simp; omega)]
      refine Or.inr ⟨_, rfl, ⟨h.1, ?_, h.3, h.4, h.5, h.6, h.7, h.8, h.9, h.10, h.11⟩⟩
      simpa using hc
    · rw [assert_false hi]; exact Or.inl rfl
  | setMark d i a =>
    simp only [step, setMark]
    by_cases hi : i < m.num d
    · rw [assert_true hi]
      simp only [ok_bind]
      rw [vset_of_lt _ (by rw [h.mark d]; exact hi)]
      refine Or.inr ⟨_, rfl, ⟨h.1, h.2, ?_, h.4, h.5, h.6, h.7, h.8, h.9, h.10, h.11⟩⟩
      intro e
      simp only
      by_cases he : e = d
      · subst he; simp [h.mark]
      · rw [fset_ne _ _ he]; exact h.mark e
    · rw [assert_false hi]; exact Or.inl rfl
  | setAct d i a =>
    simp only [step, setAct]
    by_cases hi : i < m.num d
    · rw [assert_true hi]
      simp only [ok_bind]
      rw [vset_of_lt _ (by rw [h.act d]; exact hi)]
      refine Or.inr ⟨_, rfl, ⟨h.1, h.2, h.3, ?_, h.5, h.6, h.7, h.8, h.9, h.10, h.11⟩⟩
      intro e
      simp only
      by_cases he : e = d
      · subst he; simp [h.act]
      · rw [fset_ne _ _ he]; exact h.act e
    · rw [assert_false hi]; exact Or.inl rfl
  | initRows l sizes =>
    simp only [step, initRows]
    by_cases hs : sizes.length = m.num l.owner
    · rw [assert_true hs]
      refine Or.inr ⟨_, rfl, setList_wf h ?_⟩
      rw [← hs]
      exact Csr.initSizes_wf sizes _ (h.lists l)
    · rw [assert_false hs]; exact Or.inl rfl
  | initRowsConst l k =>
    exact Or.inr ⟨_, rfl, setList_wf h (Csr.initConst_wf k _ (h.lists l))⟩
  | resizeRow l i k => exact resizeRowOf_cases h l i k
  | insertEntry l i k v => exact insertEntry_cases h l i k v
  | resetNeighbour l i k =>
    obtain ⟨s, hs, hk⟩ := hg
    unfold rowSize at hs
    by_cases hi : i < m.num l.owner
    · rw [assert_true hi] at hs
      simp only [ok_bind] at hs
      obtain ⟨c, hc⟩ := Csr.put_ok UINT_MAX (h.lists l) hi hs hk
      refine Or.inr ⟨{ m with lists := fset m.lists l c }, by simp [step, resetNeighbour, hc],
        setList_wf h (Csr.put_wf (h.lists l) hc)⟩
    · rw [assert_false hi] at hs; simp at hs
  | addRow l i vs =>
    simp only [step, addRow]
    rcases resizeRowOf_cases h l i vs.length with h1 | ⟨m1, h1, hw⟩
    · rw [h1]; exact Or.inl rfl
    · rw [h1]; exact insertFrom_cases hw
  | addVerticesAndEdges i ps =>
    simp only [step, addVerticesAndEdges]
    rcases resizeRowOf_cases h .vert2 i ps.length with h1 | ⟨m1, h1, hw⟩
    · rw [h1]; exact Or.inl rfl
    · rw [h1]
      rcases resizeRowOf_cases hw .edge2 i ps.length with h2 | ⟨m2, h2, hw2⟩
      · simp only [ok_bind]; rw [h2]; exact Or.inl rfl
      · simp only [ok_bind]; rw [h2]; exact insertPairsFrom_cases hw2
  | insertUpd d i j =>
    simp only [step]
    by_cases hi : i < m.num d
    · by_cases hj : j < m.num d
      · exact Or.inr ⟨_, insertUpd_wf h d hi hj⟩
      · left; unfold insertUpd; rw [assert_true hi, assert_false hj]; rfl
    · left; unfold insertUpd; rw [assert_false hi]; rfl
  | addProp d id =>
    simp only [step, addProp]
    by_cases hid : id ∉ m.ids d
    · rw [assert_true hid]
      refine Or.inr ⟨_, rfl, ⟨h.1, h.2, h.3, h.4, h.5, h.6, h.7, ?_, ?_, ?_, h.11⟩⟩
      · intro e
        simp only
        by_cases he : e = d
        · subst he; simp [h.ids]
        · rw [fset_ne _ _ he, fset_ne _ _ he]; exact h.ids e
      · intro e
        simp only
        by_cases he : e = d
        · subst he
          simp only [fset_self]
          rw [List.nodup_append]
          refine ⟨h.ids_nodup e, by simp, ?_⟩
          intro a ha b hb
          simp only [List.mem_singleton] at hb
          subst hb
          rintro rfl
          exact hid ha
        · rw [fset_ne _ _ he]; exact h.ids_nodup e
      · intro e c hc
        simp only at hc ⊢
        by_cases he : e = d
        · subst he
          simp only [fset_self, List.mem_append, List.mem_singleton] at hc
          rcases hc with hc | rfl
          · exact h.props e c hc
          · have := Csr.resizeOff_wf (α := α) (m.num e)
              (show (Csr.empty : Csr α).WF 0 by
                rw [Csr.empty_eq_ofRows]; exact Csr.wf_ofRows []) rfl
            have h2 : (Csr.empty : Csr α).resizeOff (m.num e)
                = ⟨List.replicate (m.num e + 1) 0, []⟩ := by
              unfold Csr.resizeOff Csr.empty vresize
              simp [List.replicate_succ]
            rwa [h2] at this
        · rw [fset_ne _ _ he] at hc; exact h.props e c hc
    · rw [assert_false hid]; exact Or.inl rfl
  | initPropAll d p sizes =>
    simp only [step, initPropAll]
    by_cases hp : p < (m.ids d).length
    · by_cases hs : sizes.length = m.num d
      · obtain ⟨c, hc, hcm, hp'⟩ := vgetProps h hp
        rw [assert_true hp, assert_true hs]
        simp only [ok_bind, hc]
        rw [vset_of_lt _ hp']
        refine Or.inr ⟨_, rfl, setProp_wf h ?_⟩
        rw [← hs]
        exact Csr.initSizes_wf sizes _ (h.props d c hcm)
      · rw [assert_true hp, assert_false hs]; exact Or.inl rfl
    · rw [assert_false hp]; exact Or.inl rfl
  | initPropRow d i p k =>
    simp only [step, initPropRow]
    by_cases hi : i < m.num d
    · by_cases hp : p < (m.ids d).length
      · obtain ⟨c, hc, hcm, hp'⟩ := vgetProps h hp
        obtain ⟨c', hc', hw⟩ := Csr.resizeRow_wf k (0 : α) (h.props d c hcm) hi
        rw [assert_true hp, assert_true hi]
        simp only [ok_bind, hc, hc']
        rw [vset_of_lt _ hp']
        exact Or.inr ⟨_, rfl, setProp_wf h hw⟩
      · rw [assert_true hi, assert_false hp]; exact Or.inl rfl
    · rw [assert_false hi]; exact Or.inl rfl
  | insertProp d i p k v =>
    simp only [step, insertProp]
    by_cases hi : i < m.num d
    · by_cases hp : p < (m.ids d).length
      · obtain ⟨c, hc, hcm, hp'⟩ := vgetProps h hp
        obtain ⟨s, hs⟩ := Csr.rowSize_wf (h.props d c hcm) hi
        have hk : k < s := by
          apply hg
          unfold propSize
          rw [assert_true hi, assert_true hp]
          simp only [ok_bind, hc, hs]
        obtain ⟨c', hc'⟩ := Csr.put_ok v (h.props d c hcm) hi hs hk
        rw [assert_true hp, assert_true hi]
        simp only [ok_bind, hc, hc']
        rw [vset_of_lt _ hp']
        exact Or.inr ⟨_, rfl, setProp_wf h (Csr.put_wf (h.props d c hcm) hc')⟩
      · rw [assert_true hi, assert_false hp]; exact Or.inl rfl
    · rw [assert_false hi]; exact Or.inl rfl

theorem empty_wf : (empty : Mesh α).WF where
  coord := rfl
  ext := rfl
  mark := fun _ => rfl
  act := fun _ => rfl
  orig0 := rfl
  orig := fun _ _ => rfl
  upd := fun _ => by constructor <;> simp [empty]
  ids := fun _ => rfl
  ids_nodup := fun _ => by simp [empty]
  props := fun _ => by simp [empty]
  lists := fun _ => by
    show (Csr.empty : Csr Nat).WF 0
    rw [Csr.empty_eq_ofRows]; exact Csr.wf_ofRows []

/-- A successful call keeps the record well formed, also when the slot was not in range. -/
theorem step_wf_of_ok [Zero α] {m m' : Mesh α} (h : m.WF) (o : Op α) (hg : m.InitGuarded o)
    (hs : m.step o = ok m') : m'.WF := by
  by_cases hgu : m.Guarded o
  · rcases step_wf h o hgu with h1 | ⟨m1, h1, h2⟩
    · rw [h1] at hs; cases hs
    · rw [h1] at hs; cases hs; exact h2
  · cases o with
    | init d n => exact absurd hg hgu
    | resetNeighbour l i k =>
      simp only [step, resetNeighbour, bind_eq_ok] at hs
      obtain ⟨c, hc, hm⟩ := hs
      cases hm
      exact setList_wf h (Csr.put_wf (h.lists l) hc)
    | insertProp d i p k v =>
      simp only [step, insertProp, bind_eq_ok] at hs
      obtain ⟨_, _, _, _, c, hc, c', hc', ps, hps, hm⟩ := hs
      cases hm
      unfold vset at hps
      split at hps
      · cases hps
        rw [vget_eq_ok] at hc
        exact setProp_wf h (Csr.put_wf (h.props d c (List.mem_of_getElem? hc)) hc')
      · cases hps
    | _ => exact absurd trivial hgu

theorem run_wf_of_ok [Zero α] {ops : List (Op α)} {m m' : Mesh α} (h : m.WF)
    (hg : m.Along InitGuarded ops) (hs : m.run ops = ok m') : m'.WF := by
  induction ops generalizing m with
  | nil => cases hs; exact h
  | cons o os ih =>
    rw [run, bind_eq_ok] at hs
    obtain ⟨m1, h1, h2⟩ := hs
    obtain ⟨hg1, hg2⟩ := hg
    rw [h1] at hg2
    exact ih (step_wf_of_ok h o hg1 h1) hg2 h2

theorem run_wf [Zero α] {ops : List (Op α)} {m : Mesh α} (h : m.WF)
    (hg : m.Along Guarded ops) : m.run ops = abort ∨ ∃ m', m.run ops = ok m' ∧ m'.WF := by
  induction ops generalizing m with
  | nil => exact Or.inr ⟨m, rfl, h⟩
  | cons o os ih =>
    obtain ⟨hg1, hg2⟩ := hg
    rw [run]
    rcases step_wf h o hg1 with h1 | ⟨m1, h1, h2⟩
    · rw [h1]; exact Or.inl rfl
    · rw [h1] at hg2 ⊢
      exact ih h2 hg2

theorem along_of_forall [Zero α] {P : Mesh α → Op α → Prop} {ops : List (Op α)}
    (h : ∀ o ∈ ops, ∀ m, P m o) (m : Mesh α) : m.Along P ops := by
  induction ops generalizing m with
  | nil => trivial
  | cons o os ih =>
    refine ⟨h o (by simp) m, ?_⟩
    split
    · exact ih (fun o ho => h o (by simp [ho])) _
    · trivial

end Mesh
end Verif
