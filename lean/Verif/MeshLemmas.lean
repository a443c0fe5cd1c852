/-
Helper lemmas: the mesh store refines the mesh of plain rows.
-/
import Verif.MeshSpec
import Verif.CsrLemmas

namespace Verif

open Res

variable {α : Type}

theorem mapRes_eq_map {β γ : Type} {f : β → Res γ} {g : β → γ} {l : List β}
    (h : ∀ b ∈ l, f b = ok (g b)) : mapRes f l = ok (l.map g) := by
  induction l with
  | nil => rfl
  | cons b l ih =>
    simp only [mapRes, h b (by simp), ok_bind, ih (fun b hb => h b (by simp [hb])), List.map_cons]

/-- Existence of a family of rows. -/
theorem exists_rows_list {n : Nat} (l : List (Csr α)) (h : ∀ c ∈ l, c.WF n) :
    ∃ r : List (List (List α)), (∀ x ∈ r, x.length = n) ∧ l = r.map Csr.ofRows := by
  induction l with
  | nil => exact ⟨[], by simp, rfl⟩
  | cons c l ih =>
    obtain ⟨r, hr, rfl⟩ := ih (fun c hc => h c (by simp [hc]))
    obtain ⟨x, hx, rfl⟩ := Csr.exists_rows_of_wf (h c (by simp))
    exact ⟨x :: r, by simpa [hx] using hr, rfl⟩

namespace AMesh

theorem wf_conc {A : AMesh α} (h : A.Ok) : A.conc.WF where
  coord := h.coord
  ext := h.ext
  mark := h.mark
  act := h.act
  orig0 := h.orig0
  orig := h.orig
  upd := h.upd
  ids := by intro d; simpa [conc] using h.ids d
  ids_nodup := h.ids_nodup
  props := by
    intro d c hc
    simp only [conc, List.mem_map] at hc
    obtain ⟨r, hr, rfl⟩ := hc
    have := Csr.wf_ofRows r
    rwa [h.props d r hr] at this
  lists := by
    intro l
    have := Csr.wf_ofRows (A.rows l)
    rwa [h.rows l] at this

/-- Every well-formed record stores some rows. -/
theorem exists_conc {m : Mesh α} (h : m.WF) : ∃ A : AMesh α, A.Ok ∧ m = A.conc := by
  have h1 : ∀ l, ∃ rows : List (List Nat), rows.length = m.num l.owner ∧
      m.lists l = Csr.ofRows rows := fun l => Csr.exists_rows_of_wf (h.lists l)
  choose R hR1 hR2 using h1
  have h2 : ∀ d, ∃ r : List (List (List α)), (∀ x ∈ r, x.length = m.num d) ∧
      m.props d = r.map Csr.ofRows := fun d => exists_rows_list _ (h.props d)
  choose P hP1 hP2 using h2
  refine ⟨⟨m.dimension, m.num, m.coord, m.ext, m.mark, m.act, m.orig, m.upd, m.ids, P, R⟩,
    ⟨h.coord, h.ext, h.mark, h.act, h.orig0, h.orig, h.upd, ?_, h.ids_nodup, hP1, hR1⟩, ?_⟩
  · intro d
    rw [h.ids d, hP2 d]; simp
  · cases m
    simp only [conc, Mesh.mk.injEq, true_and]
    exact ⟨funext hP2, funext hR2⟩

theorem wf_iff {m : Mesh α} : m.WF ↔ ∃ A : AMesh α, A.Ok ∧ m = A.conc :=
  ⟨exists_conc, fun ⟨_, h, e⟩ => e ▸ wf_conc h⟩

/-! ### Elementary statements on stored rows -/

section steps

theorem removeRowOf_conc (A : AMesh α) (l : Lst) (i : Nat) (hl : (A.rows l).length = A.num l.owner)
    (hi : i < A.num l.owner) :
    A.conc.removeRowOf l i = ok { A with rows := fset A.rows l ((A.rows l).eraseIdx i) }.conc := by
  unfold Mesh.removeRowOf
  have : (A.conc.lists l).removeRow (A.conc.num l.owner) i 0
      = ok (Csr.ofRows ((A.rows l).eraseIdx i)) := by
    simp only [conc]
    rw [← hl]
    exact Csr.removeRow_ofRows 0 (by omega)
  rw [this]
  simp only [ok_bind, conc, ok.injEq, Mesh.mk.injEq, true_and]
  funext x
  by_cases hx : x = l <;> simp [fset, hx]

theorem removeProps_conc [Zero α] (A : AMesh α) (d : Dim) (i : Nat)
    (hp : ∀ r ∈ A.props d, r.length = A.num d) (hi : i < A.num d) :
    A.conc.removeProps d i =
      ok { A with props := fset A.props d ((A.props d).map (fun r : List (List α) => r.eraseIdx i)) }.conc := by
  unfold Mesh.removeProps
  have : mapRes (fun c : Csr α => c.removeRow (A.conc.num d) i 0) (A.conc.props d)
      = ok (((A.props d).map fun r => r.eraseIdx i).map Csr.ofRows) := by
    simp only [conc]
    have h := hp
    generalize A.props d = L at h
    induction L with
    | nil => rfl
    | cons r L ih =>
      have hr := h r (by simp)
      simp only [List.map_cons, mapRes]
      rw [ih (fun r hr => h r (by simp [hr])), ← hr, Csr.removeRow_ofRows 0 (by omega)]
      rfl
  rw [this]
  simp only [ok_bind, conc, ok.injEq, Mesh.mk.injEq, true_and, and_true]
  funext x
  by_cases hx : x = d <;> simp [fset, hx]

theorem eraseUpd_conc (A : AMesh α) (d : Dim) (i : Nat) :
    A.conc.eraseUpd d i
      = { A with upd := fset A.upd d ((A.upd d).filter fun p => p.1 ≠ i) }.conc := rfl

theorem eraseCoord_conc (A : AMesh α) (i : Nat) (h : 3 * i + 3 ≤ A.coord.length) :
    A.conc.eraseCoord i
      = ok { A with coord := A.coord.take (3 * i) ++ A.coord.drop (3 * i + 3) }.conc := by
  simp [Mesh.eraseCoord, conc, verase, h]

theorem eraseExt_conc (A : AMesh α) (i : Nat) (h : 2 * i + 2 ≤ A.ext.length) :
    A.conc.eraseExt i
      = ok { A with ext := A.ext.take (2 * i) ++ A.ext.drop (2 * i + 2) }.conc := by
  simp [Mesh.eraseExt, conc, verase, h]

theorem eraseMark_conc (A : AMesh α) (d : Dim) (i : Nat) (h : i < (A.mark d).length) :
    A.conc.eraseMark d i = ok { A with mark := fset A.mark d ((A.mark d).eraseIdx i) }.conc := by
  simp [Mesh.eraseMark, conc, verase1, h]

theorem eraseAct_conc (A : AMesh α) (d : Dim) (i : Nat) (h : i < (A.act d).length) :
    A.conc.eraseAct d i = ok { A with act := fset A.act d ((A.act d).eraseIdx i) }.conc := by
  simp [Mesh.eraseAct, conc, verase1, h]

theorem eraseOrig_conc (A : AMesh α) (d : Dim) (i : Nat) (h : i < (A.orig d).length) :
    A.conc.eraseOrig d i = ok { A with orig := fset A.orig d ((A.orig d).eraseIdx i) }.conc := by
  simp [Mesh.eraseOrig, conc, verase1, h]

theorem decNum_conc (A : AMesh α) (d : Dim) :
    A.conc.decNum d = { A with num := fset A.num d (A.num d - 1) }.conc := rfl

theorem alignLst_conc (A : AMesh α) (l : Lst) (i new : Nat) :
    A.conc.alignLst l i new
      = { A with rows := fset A.rows l ((A.rows l).map (List.map (align i new))) }.conc := by
  simp only [Mesh.alignLst, conc, Mesh.mk.injEq, true_and]
  funext x
  by_cases hx : x = l
  · subst hx; simp [Csr.mapEl_ofRows]
  · simp [fset, hx]

theorem alignExt_conc (A : AMesh α) (i new : Nat) :
    A.conc.alignExt i new = { A with ext := A.ext.map (align i new) }.conc := rfl

theorem alignOrig_conc (A : AMesh α) (d : Dim) (i new : Nat) :
    A.conc.alignOrig d i new
      = { A with orig := fset A.orig d ((A.orig d).map (align i new)) }.conc := rfl

theorem alignUpd_conc (A : AMesh α) (d : Dim) (i new : Nat) :
    A.conc.alignUpd d i new
      = { A with upd := fset A.upd d (alignMap (A.upd d) i new) }.conc := rfl

theorem appendRowsOf_conc (A : AMesh α) (l : Lst) (n k : Nat) (hn : (A.rows l).length = n) :
    A.conc.appendRowsOf l n k
      = ok { A with rows := fset A.rows l (A.rows l ++ List.replicate k []) }.conc := by
  unfold Mesh.appendRowsOf
  subst hn
  have : (A.conc.lists l).appendRows (A.rows l).length k
      = ok (Csr.ofRows (A.rows l ++ List.replicate k [])) := Csr.appendRows_ofRows _ _
  rw [this]
  simp only [ok_bind, conc, ok.injEq, Mesh.mk.injEq, true_and]
  funext x
  by_cases hx : x = l <;> simp [fset, hx]

theorem appendProps_conc (A : AMesh α) (d : Dim) (n k : Nat) (hp : ∀ r ∈ A.props d, r.length = n) :
    A.conc.appendProps d n k
      = ok { A with props := (fset A.props d
          ((A.props d).map (fun r : List (List α) => r ++ List.replicate k []))) }.conc := by
  unfold Mesh.appendProps
  have : mapRes (fun c : Csr α => c.appendRows n k) (A.conc.props d)
      = ok (((A.props d).map fun r => r ++ List.replicate k []).map Csr.ofRows) := by
    simp only [conc]
    have h := hp
    generalize A.props d = L at h
    induction L with
    | nil => rfl
    | cons r L ih =>
      have hr := h r (by simp)
      simp only [List.map_cons, mapRes]
      rw [ih (fun r hr => h r (by simp [hr])), ← hr, Csr.appendRows_ofRows]
      rfl
  rw [this]
  simp only [ok_bind, conc, ok.injEq, Mesh.mk.injEq, true_and, and_true]
  funext x
  by_cases hx : x = d <;> simp [fset, hx]

end steps

@[simp] theorem conc_num (A : AMesh α) : A.conc.num = A.num := rfl

/-! ### Removal -/

theorem conc_congr {A B : AMesh α} (h : A = B) : A.conc = B.conc := by rw [h]

theorem remove0_conc [Zero α] {A : AMesh α} (h : A.Ok) {i : Nat} (hi : i < A.num .d0) :
    A.conc.remove0 i = ok (A.remove .d0 i).conc := by
  unfold Mesh.remove0
  rw [assert_true (by simpa using hi), ok_bind, removeProps_conc A .d0 i (h.props .d0) hi, ok_bind]
  rw [removeRowOf_conc _ _ _ (by exact h.rows .nb01) (by exact hi), ok_bind]
  rw [removeRowOf_conc _ _ _ (by exact h.rows .nb02) (by exact hi), ok_bind]
  rw [removeRowOf_conc _ _ _ (by exact h.rows .nb03) (by exact hi), ok_bind]
  dsimp only
  rw [eraseUpd_conc]
  dsimp only
  rw [eraseCoord_conc _ _ (by have := h.coord; show 3 * i + 3 ≤ A.coord.length; omega), ok_bind]
  rw [eraseMark_conc _ _ _ (by show i < (A.mark .d0).length; rw [h.mark]; exact hi), ok_bind]
  rw [eraseAct_conc _ _ _ (by show i < (A.act .d0).length; rw [h.act]; exact hi), ok_bind]
  dsimp only
  simp only [decNum_conc, alignExt_conc, alignLst_conc, alignUpd_conc, conc_num]
  congr 2
  simp only [remove, AMesh.mk.injEq, true_and, if_true, fset_self, and_true]
  refine ⟨?_, ?_⟩
  · funext d; by_cases hd : d = .d0 <;> simp [fset, hd]
  · funext l
    cases l <;> simp [fset, Lst.owner, renumber, Lst.target, newRef, Lst.isNeighbour]

theorem remove1_conc [Zero α] {A : AMesh α} (h : A.Ok) {i : Nat} (hi : i < A.num .d1) :
    A.conc.remove1 i = ok (A.remove .d1 i).conc := by
  unfold Mesh.remove1
  rw [assert_true (by simpa using hi), ok_bind, removeProps_conc A .d1 i (h.props .d1) hi, ok_bind]
  rw [removeRowOf_conc _ _ _ (by exact h.rows .nb12) (by exact hi), ok_bind]
  rw [removeRowOf_conc _ _ _ (by exact h.rows .nb13) (by exact hi), ok_bind]
  dsimp only
  rw [eraseUpd_conc]
  dsimp only
  rw [eraseExt_conc _ _ (by have := h.ext; show 2 * i + 2 ≤ A.ext.length; omega), ok_bind]
  rw [eraseOrig_conc _ _ _ (by
    show i < (A.orig .d1).length; rw [h.orig _ (by decide)]; exact hi), ok_bind]
  rw [eraseMark_conc _ _ _ (by show i < (A.mark .d1).length; rw [h.mark]; exact hi), ok_bind]
  rw [eraseAct_conc _ _ _ (by show i < (A.act .d1).length; rw [h.act]; exact hi), ok_bind]
  dsimp only
  simp only [decNum_conc, alignLst_conc, alignUpd_conc, alignOrig_conc, conc_num]
  congr 2
  simp only [remove, AMesh.mk.injEq, true_and, if_true, fset_self, and_true]
  refine ⟨by simp, by simp, ?_, ?_, ?_⟩
  · funext d; by_cases hd : d = .d1 <;> simp [fset, hd]
  · funext d; by_cases hd : d = .d1 <;> simp [fset, hd]
  · funext l
    cases l <;> simp [fset, Lst.owner, renumber, Lst.target, newRef, Lst.isNeighbour]

theorem remove2_conc [Zero α] {A : AMesh α} (h : A.Ok) {i : Nat} (hi : i < A.num .d2) :
    A.conc.remove2 i = ok (A.remove .d2 i).conc := by
  unfold Mesh.remove2
  rw [assert_true (by simpa using hi), ok_bind, removeProps_conc A .d2 i (h.props .d2) hi, ok_bind]
  rw [removeRowOf_conc _ _ _ (by exact h.rows .nb23) (by exact hi), ok_bind]
  dsimp only
  rw [eraseUpd_conc]
  dsimp only
  rw [removeRowOf_conc _ _ _ (by exact h.rows .vert2) (by exact hi), ok_bind]
  rw [removeRowOf_conc _ _ _ (by exact h.rows .edge2) (by exact hi), ok_bind]
  rw [removeRowOf_conc _ _ _ (by exact h.rows .sub2) (by exact hi), ok_bind]
  rw [eraseOrig_conc _ _ _ (by
    show i < (A.orig .d2).length; rw [h.orig _ (by decide)]; exact hi), ok_bind]
  rw [eraseMark_conc _ _ _ (by show i < (A.mark .d2).length; rw [h.mark]; exact hi), ok_bind]
  rw [eraseAct_conc _ _ _ (by show i < (A.act .d2).length; rw [h.act]; exact hi), ok_bind]
  dsimp only
  simp only [decNum_conc, alignLst_conc, alignUpd_conc, alignOrig_conc, conc_num]
  congr 2
  simp only [remove, AMesh.mk.injEq, true_and, if_true, fset_self, and_true]
  refine ⟨by simp, by simp, ?_, ?_, ?_⟩
  · funext d; by_cases hd : d = .d2 <;> simp [fset, hd]
  · funext d; by_cases hd : d = .d2 <;> simp [fset, hd]
  · funext l
    cases l <;> simp [fset, Lst.owner, renumber, Lst.target, newRef, Lst.isNeighbour]

theorem remove3_conc [Zero α] {A : AMesh α} (h : A.Ok) {i : Nat} (hi : i < A.num .d3) :
    A.conc.remove3 i = ok (A.remove .d3 i).conc := by
  unfold Mesh.remove3
  rw [assert_true (by simpa using hi), ok_bind, removeProps_conc A .d3 i (h.props .d3) hi, ok_bind]
  dsimp only
  rw [eraseUpd_conc]
  dsimp only
  rw [removeRowOf_conc _ _ _ (by exact h.rows .vert3) (by exact hi), ok_bind]
  rw [removeRowOf_conc _ _ _ (by exact h.rows .edge3) (by exact hi), ok_bind]
  rw [removeRowOf_conc _ _ _ (by exact h.rows .face3) (by exact hi), ok_bind]
  rw [eraseOrig_conc _ _ _ (by
    show i < (A.orig .d3).length; rw [h.orig _ (by decide)]; exact hi), ok_bind]
  rw [eraseMark_conc _ _ _ (by show i < (A.mark .d3).length; rw [h.mark]; exact hi), ok_bind]
  rw [eraseAct_conc _ _ _ (by show i < (A.act .d3).length; rw [h.act]; exact hi), ok_bind]
  dsimp only
  simp only [decNum_conc, alignLst_conc, alignUpd_conc, alignOrig_conc, conc_num]
  congr 2
  simp only [remove, AMesh.mk.injEq, true_and, if_true, fset_self, and_true]
  refine ⟨by simp, by simp, ?_, ?_, ?_⟩
  · funext d; by_cases hd : d = .d3 <;> simp [fset, hd]
  · funext d; by_cases hd : d = .d3 <;> simp [fset, hd]
  · funext l
    cases l <;> simp [fset, Lst.owner, renumber, Lst.target, newRef, Lst.isNeighbour]

/-- Removal in the store is removal in the mesh of plain rows, in every dimension. -/
theorem remove_conc [Zero α] {A : AMesh α} (h : A.Ok) (d : Dim) {i : Nat} (hi : i < A.num d) :
    A.conc.remove d i = ok (A.remove d i).conc := by
  cases d
  · exact remove0_conc h hi
  · exact remove1_conc h hi
  · exact remove2_conc h hi
  · exact remove3_conc h hi

theorem remove_conc_abort [Zero α] {A : AMesh α} (d : Dim) {i : Nat} (hi : ¬ i < A.num d) :
    A.conc.remove d i = abort := by
  cases d
  · show A.conc.remove0 i = _
    unfold Mesh.remove0
    rw [assert_false (show ¬ i < A.conc.num .d0 from hi)]; rfl
  · show A.conc.remove1 i = _
    unfold Mesh.remove1
    rw [assert_false (show ¬ i < A.conc.num .d1 from hi)]; rfl
  · show A.conc.remove2 i = _
    unfold Mesh.remove2
    rw [assert_false (show ¬ i < A.conc.num .d2 from hi)]; rfl
  · show A.conc.remove3 i = _
    unfold Mesh.remove3
    rw [assert_false (show ¬ i < A.conc.num .d3 from hi)]; rfl

/-! ### Append -/

theorem append_conc [Zero α] {A : AMesh α} (h : A.Ok) (d : Dim) (k : Nat) :
    A.conc.append d k = ok ((A.append d k).conc, A.num d) := by
  cases d
  · let B : AMesh α := { A with num := fset A.num .d0 (A.num .d0 + k), mark := fset A.mark .d0 (A.mark .d0 ++ List.replicate k 0), act := fset A.act .d0 (A.act .d0 ++ List.replicate k false), coord := A.coord ++ List.replicate (3 * k) 0 }
    show (do
      let m ← B.conc.appendRowsOf .nb01 (A.num .d0) k
      let m ← m.appendRowsOf .nb02 (A.num .d0) k
      let m ← m.appendRowsOf .nb03 (A.num .d0) k
      let m ← m.appendProps .d0 (A.num .d0) k
      ok (m, A.num .d0) : Res (Mesh α × Nat)) = _
    rw [appendRowsOf_conc _ _ _ _ (by exact h.rows .nb01), ok_bind]
    rw [appendRowsOf_conc _ _ _ _ (by exact h.rows .nb02), ok_bind]
    rw [appendRowsOf_conc _ _ _ _ (by exact h.rows .nb03), ok_bind]
    rw [appendProps_conc _ _ _ _ (by exact h.props .d0), ok_bind]
    congr 3
    simp only [append, AMesh.mk.injEq, true_and, B, and_true, if_true]
    refine ⟨by simp, ?_⟩
    funext l
    cases l <;> simp [fset, Lst.owner]
  · let B : AMesh α := { A with num := fset A.num .d1 (A.num .d1 + k), mark := fset A.mark .d1 (A.mark .d1 ++ List.replicate k 0), act := fset A.act .d1 (A.act .d1 ++ List.replicate k false), orig := fset A.orig .d1 (A.orig .d1 ++ List.replicate k UINT_MAX), ext := A.ext ++ List.replicate (2 * k) 0 }
    show (do
      let m ← B.conc.appendRowsOf .nb12 (A.num .d1) k
      let m ← m.appendRowsOf .nb13 (A.num .d1) k
      let m ← m.appendProps .d1 (A.num .d1) k
      ok (m, A.num .d1) : Res (Mesh α × Nat)) = _
    rw [appendRowsOf_conc _ _ _ _ (by exact h.rows .nb12), ok_bind]
    rw [appendRowsOf_conc _ _ _ _ (by exact h.rows .nb13), ok_bind]
    rw [appendProps_conc _ _ _ _ (by exact h.props .d1), ok_bind]
    congr 3
    simp only [append, AMesh.mk.injEq, true_and, B, and_true, if_true]
    refine ⟨by simp, by simp, ?_⟩
    funext l
    cases l <;> simp [fset, Lst.owner]
  · let B : AMesh α := { A with num := fset A.num .d2 (A.num .d2 + k), mark := fset A.mark .d2 (A.mark .d2 ++ List.replicate k 0), act := fset A.act .d2 (A.act .d2 ++ List.replicate k false), orig := fset A.orig .d2 (A.orig .d2 ++ List.replicate k UINT_MAX) }
    show (do
      let m ← B.conc.appendRowsOf .vert2 (A.num .d2) k
      let m ← m.appendRowsOf .edge2 (A.num .d2) k
      let m ← m.appendRowsOf .sub2 (A.num .d2) k
      let m ← m.appendRowsOf .nb23 (A.num .d2) k
      let m ← m.appendProps .d2 (A.num .d2) k
      ok (m, A.num .d2) : Res (Mesh α × Nat)) = _
    rw [appendRowsOf_conc _ _ _ _ (by exact h.rows .vert2), ok_bind]
    rw [appendRowsOf_conc _ _ _ _ (by exact h.rows .edge2), ok_bind]
    rw [appendRowsOf_conc _ _ _ _ (by exact h.rows .sub2), ok_bind]
    rw [appendRowsOf_conc _ _ _ _ (by exact h.rows .nb23), ok_bind]
    rw [appendProps_conc _ _ _ _ (by exact h.props .d2), ok_bind]
    congr 3
    simp only [append, AMesh.mk.injEq, true_and, B, and_true, if_true]
    refine ⟨by simp, by simp, by simp, ?_⟩
    funext l
    cases l <;> simp [fset, Lst.owner]
  · let B : AMesh α := { A with num := fset A.num .d3 (A.num .d3 + k), mark := fset A.mark .d3 (A.mark .d3 ++ List.replicate k 0), act := fset A.act .d3 (A.act .d3 ++ List.replicate k false), orig := fset A.orig .d3 (A.orig .d3 ++ List.replicate k UINT_MAX) }
    show (do
      let m ← B.conc.appendRowsOf .vert3 (A.num .d3) k
      let m ← m.appendRowsOf .edge3 (A.num .d3) k
      let m ← m.appendRowsOf .face3 (A.num .d3) k
      let m ← m.appendProps .d3 (A.num .d3) k
      ok (m, A.num .d3) : Res (Mesh α × Nat)) = _
    rw [appendRowsOf_conc _ _ _ _ (by exact h.rows .vert3), ok_bind]
    rw [appendRowsOf_conc _ _ _ _ (by exact h.rows .edge3), ok_bind]
    rw [appendRowsOf_conc _ _ _ _ (by exact h.rows .face3), ok_bind]
    rw [appendProps_conc _ _ _ _ (by exact h.props .d3), ok_bind]
    congr 3
    simp only [append, AMesh.mk.injEq, true_and, B, and_true, if_true]
    refine ⟨by simp, by simp, by simp, ?_⟩
    funext l
    cases l <;> simp [fset, Lst.owner]

end AMesh
end Verif
