import Verif.DataSpec
import Verif.NeighLemmas
import Verif.GraphLemmas2

/-
Helper lemmas: effect of the calls of the mesh store on a mesh given cell by cell.
-/
namespace Verif

open Res

/-! ### Lists -/

theorem set_map_same {β γ : Type} (f : β → γ) {L : List β} {i : Nat} {v : β} (hv : L[i]? = some v) :
    (L.map f).set i (f v) = L.map f := by
  obtain ⟨h, rfl⟩ := List.getElem?_eq_some_iff.1 hv
  apply List.ext_getElem
  · simp
  · intro j h1 h2
    rw [List.getElem_set]
    split
    · rename_i e; subst e; simp
    · rfl

theorem map_set_same {β γ : Type} {f : β → γ} {L : List β} {i : Nat} {v v' : β}
    (hv : L[i]? = some v) (hf : f v' = f v) : (L.set i v').map f = L.map f := by
  rw [List.map_set, hf, set_map_same f hv]

theorem flatMap_set_same {β γ : Type} {f : β → List γ} {L : List β} {i : Nat} {v v' : β}
    (hv : L[i]? = some v) (hf : f v' = f v) : (L.set i v').flatMap f = L.flatMap f := by
  rw [List.flatMap_def, List.flatMap_def, map_set_same hv hf]

theorem set3 {β γ : Type} (f g h : β → γ) (L : List β) (i : Nat) (v : β) (hi : i < L.length) :
    (((L.flatMap fun b => [f b, g b, h b]).set (3 * i) (f v)).set (3 * i + 1) (g v)).set (3 * i + 2)
      (h v) = (L.set i v).flatMap fun b => [f b, g b, h b] := by
  induction L generalizing i with
  | nil => simp at hi
  | cons b L ih =>
    cases i with
    | zero => simp
    | succ i =>
      simp only [List.length_cons] at hi
      have := ih i (by omega)
      simp only [List.flatMap_cons, List.set_cons_succ, Nat.mul_add, Nat.mul_one,
        show 3 * i + 3 + 1 = (3 * i + 1) + 3 by omega, show 3 * i + 3 + 2 = (3 * i + 2) + 3 by omega,
        List.cons_append, List.nil_append, List.set_cons_succ, this]

theorem set2 {β γ : Type} (f g : β → γ) (L : List β) (i : Nat) (v : β) (hi : i < L.length) :
    ((L.flatMap fun b => [f b, g b]).set (2 * i) (f v)).set (2 * i + 1) (g v) =
      (L.set i v).flatMap fun b => [f b, g b] := by
  induction L generalizing i with
  | nil => simp at hi
  | cons b L ih =>
    cases i with
    | zero => simp
    | succ i =>
      simp only [List.length_cons] at hi
      have := ih i (by omega)
      simp only [List.flatMap_cons, List.set_cons_succ, Nat.mul_add, Nat.mul_one,
        show 2 * i + 2 + 1 = (2 * i + 1) + 2 by omega,
        List.cons_append, List.nil_append, List.set_cons_succ, this]

theorem map_zipWith_left {β γ δ ε : Type} {f : β → γ → δ} {g : δ → ε} {g' : β → ε}
    (h : ∀ b c, g (f b c) = g' b) {L : List β} {R : List γ} (hR : R.length = L.length) :
    (List.zipWith f L R).map g = L.map g' := by
  apply List.ext_getElem
  · simp [hR]
  · intro i h1 h2
    simp [h]

theorem map_zipWith_right {β γ δ : Type} {f : β → γ → δ} {g : δ → γ}
    (h : ∀ b c, g (f b c) = c) {L : List β} {R : List γ} (hR : R.length = L.length) :
    (List.zipWith f L R).map g = R := by
  apply List.ext_getElem
  · simp [hR]
  · intro i h1 h2
    simp [h]

theorem length_flatMap_const {β γ : Type} (f : β → List γ) (k : Nat) (L : List β)
    (h : ∀ b ∈ L, (f b).length = k) : (L.flatMap f).length = k * L.length := by
  induction L with
  | nil => simp
  | cons b L ih =>
    rw [List.flatMap_cons, List.length_append, ih fun b hb => h b (by simp [hb]), h b (by simp),
      List.length_cons, Nat.mul_add, Nat.mul_one, Nat.add_comm]

/-- A loop with a running index that overwrites one item after the other. -/
theorem foldFill {σ β τ : Type} (step : σ × Nat → τ → Res (σ × Nat)) (G : List β → σ) (f : τ → β)
    (Q : β → Prop) (items : List τ) (start rest : List β) (hQ : ∀ b ∈ rest, Q b)
    (hlen : items.length ≤ rest.length)
    (hstep : ∀ cells i b, ∀ x ∈ items, cells.length = start.length + rest.length →
      cells[i]? = some b → Q b → step (G cells, i) x = ok (G (cells.set i (f x)), i + 1)) :
    foldRes step (G (start ++ rest), start.length) items =
      ok (G (start ++ items.map f ++ rest.drop items.length), start.length + items.length) := by
  induction items generalizing start rest with
  | nil => simp
  | cons x xs ih =>
    cases rest with
    | nil => simp at hlen
    | cons b rest =>
      simp only [List.length_cons] at hlen hstep ⊢
      rw [foldRes_cons, hstep (start ++ b :: rest) start.length b x (by simp) (by simp)
        (by simp) (hQ b (by simp)), ok_bind]
      have e : (start ++ b :: rest).set start.length (f x) = (start ++ [f x]) ++ rest := by
        rw [List.set_append_right _ _ (Nat.le_refl _)]
        simp
      have e2 : start.length + 1 = (start ++ [f x]).length := by simp
      rw [e, e2, ih (start ++ [f x]) rest (fun b hb => hQ b (by simp [hb])) (by omega)]
      · simp [Nat.add_assoc, Nat.add_comm 1]
      · intro cells i b' y hy hl hb hq
        exact hstep cells i b' y (by simp [hy]) (by simp at hl; omega) hb hq

namespace AMesh

variable {α : Type} {A : AMesh α}

theorem setMark_conc (h : A.Ok) {d : Dim} {i : Nat} (hi : i < A.num d) (a : Nat) :
    A.conc.setMark d i a =
      ok ({ A with mark := fset A.mark d ((A.mark d).set i a) } : AMesh α).conc := by
  unfold Mesh.setMark
  show (do assert (i < A.num d); let l ← vset (A.mark d) i a; _) = _
  rw [assert_true hi, ok_bind, vset_of_lt _ (by rw [h.mark]; exact hi), ok_bind]
  rfl

theorem setAct_conc (h : A.Ok) {d : Dim} {i : Nat} (hi : i < A.num d) (a : Bool) :
    A.conc.setAct d i a =
      ok ({ A with act := fset A.act d ((A.act d).set i a) } : AMesh α).conc := by
  unfold Mesh.setAct
  show (do assert (i < A.num d); let l ← vset (A.act d) i a; _) = _
  rw [assert_true hi, ok_bind, vset_of_lt _ (by rw [h.act]; exact hi), ok_bind]
  rfl

theorem insertCoord_conc (h : A.Ok) {i : Nat} (hi : i < A.num .d0) (x y z : α) :
    A.conc.insertCoord i x y z =
      ok ({ A with coord := ((A.coord.set (3 * i) x).set (3 * i + 1) y).set (3 * i + 2) z }
        : AMesh α).conc := by
  have hl := h.coord
  unfold Mesh.insertCoord
  rw [show A.conc.num = A.num from rfl, show A.conc.coord = A.coord from rfl, assert_true hi, ok_bind,
    vset_of_lt _ (by omega), ok_bind,
    vset_of_lt _ (by simp; omega), ok_bind, vset_of_lt _ (by simp; omega), ok_bind]
  rfl

theorem insertExt_conc (h : A.Ok) {i : Nat} (hi : i < A.num .d1) (a b : Nat) :
    A.conc.insertExt i a b =
      ok ({ A with ext := (A.ext.set (2 * i) a).set (2 * i + 1) b } : AMesh α).conc := by
  have hl := h.ext
  unfold Mesh.insertExt
  rw [show A.conc.num = A.num from rfl, show A.conc.ext = A.ext from rfl, assert_true hi, ok_bind,
    vset_of_lt _ (by omega), ok_bind,
    vset_of_lt _ (by simp; omega), ok_bind]
  rfl

end AMesh

namespace MeshData

variable {α : Type} {D : MeshData α}

theorem toA_ok (D : MeshData α) : D.toA.Ok where
  coord := length_flatMap_const _ 3 _ (by simp)
  ext := length_flatMap_const _ 2 _ (by simp)
  mark := by intro d; cases d <;> simp [toA, num]
  act := by intro d; cases d <;> simp [toA, num]
  orig0 := rfl
  orig := by intro d hd; cases d <;> simp [toA, num] at hd ⊢
  upd := by
    intro d
    exact ⟨by simp [toA], by simp [toA], by simp [toA], by simp [toA], by simp [toA]⟩
  ids := by intro d; rfl
  ids_nodup := by intro d; simp [toA]
  props := by intro d; simp [toA]
  rows := by intro l; cases l <;> simp [toA, num, Lst.owner]

theorem mesh_wf (D : MeshData α) : D.mesh.WF := AMesh.wf_conc D.toA_ok

theorem setMark_V {i : Nat} {a : Nat} {v : VCell α} (hv : D.V[i]? = some v) :
    D.mesh.setMark .d0 i a =
      ok ({ D with V := D.V.set i { v with mark := a } } : MeshData α).mesh := by
  have hi : i < D.V.length := (List.getElem?_eq_some_iff.1 hv).1
  unfold mesh
  rw [AMesh.setMark_conc D.toA_ok (d := .d0) hi]
  congr 2
  have a0 := set_map_same VCell.act hv
  have b := flatMap_set_same (f := fun v : VCell α => [v.x, v.y, v.z]) hv (v' := { v with mark := a }) rfl
  simp only [toA, AMesh.mk.injEq, true_and, and_true]
  refine ⟨?_, ?_, ?_, ?_, ?_⟩
  · funext d; cases d <;> simp [num]
  · exact b.symm
  · funext d; cases d <;> simp [fset, List.map_set, a0]
  · funext d; cases d <;> simp [fset, List.map_set, a0]
  · funext l; cases l <;> simp [List.map_set, a0]

theorem setAct_V {i : Nat} {a : Bool} {v : VCell α} (hv : D.V[i]? = some v) :
    D.mesh.setAct .d0 i a =
      ok ({ D with V := D.V.set i { v with act := a } } : MeshData α).mesh := by
  have hi : i < D.V.length := (List.getElem?_eq_some_iff.1 hv).1
  unfold mesh
  rw [AMesh.setAct_conc D.toA_ok (d := .d0) hi]
  congr 2
  have a0 := set_map_same VCell.mark hv
  have b := flatMap_set_same (f := fun v : VCell α => [v.x, v.y, v.z]) hv (v' := { v with act := a }) rfl
  simp only [toA, AMesh.mk.injEq, true_and, and_true]
  refine ⟨?_, ?_, ?_, ?_, ?_⟩
  · funext d; cases d <;> simp [num]
  · exact b.symm
  · funext d; cases d <;> simp [fset, List.map_set, a0]
  · funext d; cases d <;> simp [fset, List.map_set, a0]
  · funext l; cases l <;> simp [List.map_set, a0]

theorem setMark_E {i : Nat} {a : Nat} {v : ECell} (hv : D.E[i]? = some v) :
    D.mesh.setMark .d1 i a =
      ok ({ D with E := D.E.set i { v with mark := a } } : MeshData α).mesh := by
  have hi : i < D.E.length := (List.getElem?_eq_some_iff.1 hv).1
  unfold mesh
  rw [AMesh.setMark_conc D.toA_ok (d := .d1) hi]
  congr 2
  have a0 := set_map_same ECell.act hv
  have a1 := set_map_same ECell.polygons hv
  have b := flatMap_set_same (f := fun e : ECell => [e.origin, e.finish]) hv (v' := { v with mark := a }) rfl
  simp only [toA, AMesh.mk.injEq, true_and, and_true]
  refine ⟨?_, ?_, ?_, ?_, ?_, ?_⟩
  · funext d; cases d <;> simp [num]
  · exact b.symm
  · funext d; cases d <;> simp [fset, List.map_set, a0, a1]
  · funext d; cases d <;> simp [fset, List.map_set, a0, a1]
  · funext d; cases d <;> simp
  · funext l; cases l <;> simp [List.map_set, a0, a1]

theorem setAct_E {i : Nat} {a : Bool} {v : ECell} (hv : D.E[i]? = some v) :
    D.mesh.setAct .d1 i a =
      ok ({ D with E := D.E.set i { v with act := a } } : MeshData α).mesh := by
  have hi : i < D.E.length := (List.getElem?_eq_some_iff.1 hv).1
  unfold mesh
  rw [AMesh.setAct_conc D.toA_ok (d := .d1) hi]
  congr 2
  have a0 := set_map_same ECell.mark hv
  have a1 := set_map_same ECell.polygons hv
  have b := flatMap_set_same (f := fun e : ECell => [e.origin, e.finish]) hv (v' := { v with act := a }) rfl
  simp only [toA, AMesh.mk.injEq, true_and, and_true]
  refine ⟨?_, ?_, ?_, ?_, ?_, ?_⟩
  · funext d; cases d <;> simp [num]
  · exact b.symm
  · funext d; cases d <;> simp [fset, List.map_set, a0, a1]
  · funext d; cases d <;> simp [fset, List.map_set, a0, a1]
  · funext d; cases d <;> simp
  · funext l; cases l <;> simp [List.map_set, a0, a1]

theorem setRow_nb12 {i : Nat} {r : List Nat} {v : ECell} (hv : D.E[i]? = some v) :
    D.toA.setRow .nb12 i r = ({ D with E := D.E.set i { v with polygons := r } } : MeshData α).toA := by
  have a0 := set_map_same ECell.mark hv
  have a1 := set_map_same ECell.act hv
  have b := flatMap_set_same (f := fun e : ECell => [e.origin, e.finish]) hv (v' := { v with polygons := r }) rfl
  simp only [AMesh.setRow, AMesh.setRows, toA, AMesh.mk.injEq, true_and, and_true]
  refine ⟨?_, ?_, ?_, ?_, ?_, ?_⟩
  · funext d; cases d <;> simp [num]
  · exact b.symm
  · funext d; cases d <;> simp [List.map_set, a0, a1]
  · funext d; cases d <;> simp [List.map_set, a0, a1]
  · funext d; cases d <;> simp
  · funext l; cases l <;> simp [fset, List.map_set, a0, a1]

theorem insertFrom_nb12 {i : Nat} {r : List Nat} {v : ECell} (hv : D.E[i]? = some v)
    (hl : v.polygons.length = r.length) (hr : ∀ x ∈ r, x < D.num .d2) :
    D.mesh.insertFrom .nb12 i 0 r =
      ok ({ D with E := D.E.set i { v with polygons := r } } : MeshData α).mesh := by
  unfold mesh
  rw [AMesh.insertFrom_conc D.toA_ok (l := .nb12) (r := v.polygons) (by
    show (D.E.map (·.polygons))[i]? = _
    simp [hv]) (by omega) hr, List.take_zero, List.nil_append, setRow_nb12 hv]

theorem resizeRowOf_nb12 {i k : Nat} {v : ECell} (hv : D.E[i]? = some v) :
    D.mesh.resizeRowOf .nb12 i k =
      ok ({ D with E := D.E.set i { v with polygons := vresize v.polygons k (Lst.fillOne .nb12) } }
        : MeshData α).mesh := by
  unfold mesh
  rw [AMesh.resizeRowOf_conc D.toA_ok (l := .nb12) (r := v.polygons) (by
    show (D.E.map (·.polygons))[i]? = _
    simp [hv]) (by simp), setRow_nb12 hv]

theorem setRows_nb12 {R : List (List Nat)} (hR : R.length = D.E.length) :
    D.toA.setRows .nb12 R =
      ({ D with E := List.zipWith (fun v r => { v with polygons := r }) D.E R } : MeshData α).toA := by
  have a0 := map_zipWith_left (f := fun (v : ECell) r => { v with polygons := r }) (g := ECell.mark) (g' := ECell.mark) (fun _ _ => rfl) hR
  have a1 := map_zipWith_left (f := fun (v : ECell) r => { v with polygons := r }) (g := ECell.act) (g' := ECell.act) (fun _ _ => rfl) hR
  have a2 := map_zipWith_right (f := fun (v : ECell) r => { v with polygons := r }) (g := ECell.polygons) (fun _ _ => rfl) hR
  have b : (List.zipWith (fun (v : ECell) r => { v with polygons := r }) D.E R).flatMap (fun e => [e.origin, e.finish]) = D.E.flatMap fun e => [e.origin, e.finish] := by
    rw [List.flatMap_def, List.flatMap_def, map_zipWith_left (g' := fun e : ECell => [e.origin, e.finish]) (fun _ _ => rfl) hR]
  simp only [AMesh.setRows, toA, AMesh.mk.injEq, true_and, and_true]
  refine ⟨?_, ?_, ?_, ?_, ?_, ?_⟩
  · funext d; cases d <;> simp [num, hR]
  · exact b.symm
  · funext d; cases d <;> simp [a0, a1, a2]
  · funext d; cases d <;> simp [a0, a1, a2]
  · funext d; cases d <;> simp [hR]
  · funext l; cases l <;> simp [fset, a0, a1, a2, hR]

theorem setMark_P {i : Nat} {a : Nat} {v : PCell} (hv : D.P[i]? = some v) :
    D.mesh.setMark .d2 i a =
      ok ({ D with P := D.P.set i { v with mark := a } } : MeshData α).mesh := by
  have hi : i < D.P.length := (List.getElem?_eq_some_iff.1 hv).1
  unfold mesh
  rw [AMesh.setMark_conc D.toA_ok (d := .d2) hi]
  congr 2
  have a0 := set_map_same PCell.act hv
  have a1 := set_map_same PCell.verts hv
  have a2 := set_map_same PCell.edges hv
  simp only [toA, AMesh.mk.injEq, true_and, and_true]
  refine ⟨?_, ?_, ?_, ?_, ?_⟩
  · funext d; cases d <;> simp [num]
  · funext d; cases d <;> simp [fset, List.map_set, a0, a1, a2]
  · funext d; cases d <;> simp [fset, List.map_set, a0, a1, a2]
  · funext d; cases d <;> simp
  · funext l; cases l <;> simp [List.map_set, a0, a1, a2]

theorem setAct_P {i : Nat} {a : Bool} {v : PCell} (hv : D.P[i]? = some v) :
    D.mesh.setAct .d2 i a =
      ok ({ D with P := D.P.set i { v with act := a } } : MeshData α).mesh := by
  have hi : i < D.P.length := (List.getElem?_eq_some_iff.1 hv).1
  unfold mesh
  rw [AMesh.setAct_conc D.toA_ok (d := .d2) hi]
  congr 2
  have a0 := set_map_same PCell.mark hv
  have a1 := set_map_same PCell.verts hv
  have a2 := set_map_same PCell.edges hv
  simp only [toA, AMesh.mk.injEq, true_and, and_true]
  refine ⟨?_, ?_, ?_, ?_, ?_⟩
  · funext d; cases d <;> simp [num]
  · funext d; cases d <;> simp [fset, List.map_set, a0, a1, a2]
  · funext d; cases d <;> simp [fset, List.map_set, a0, a1, a2]
  · funext d; cases d <;> simp
  · funext l; cases l <;> simp [List.map_set, a0, a1, a2]

theorem setRow_vert2 {i : Nat} {r : List Nat} {v : PCell} (hv : D.P[i]? = some v) :
    D.toA.setRow .vert2 i r = ({ D with P := D.P.set i { v with verts := r } } : MeshData α).toA := by
  have a0 := set_map_same PCell.mark hv
  have a1 := set_map_same PCell.act hv
  have a2 := set_map_same PCell.edges hv
  simp only [AMesh.setRow, AMesh.setRows, toA, AMesh.mk.injEq, true_and, and_true]
  refine ⟨?_, ?_, ?_, ?_, ?_⟩
  · funext d; cases d <;> simp [num]
  · funext d; cases d <;> simp [List.map_set, a0, a1, a2]
  · funext d; cases d <;> simp [List.map_set, a0, a1, a2]
  · funext d; cases d <;> simp
  · funext l; cases l <;> simp [fset, List.map_set, a0, a1, a2]

theorem insertFrom_vert2 {i : Nat} {r : List Nat} {v : PCell} (hv : D.P[i]? = some v)
    (hl : v.verts.length = r.length) (hr : ∀ x ∈ r, x < D.num .d0) :
    D.mesh.insertFrom .vert2 i 0 r =
      ok ({ D with P := D.P.set i { v with verts := r } } : MeshData α).mesh := by
  unfold mesh
  rw [AMesh.insertFrom_conc D.toA_ok (l := .vert2) (r := v.verts) (by
    show (D.P.map (·.verts))[i]? = _
    simp [hv]) (by omega) hr, List.take_zero, List.nil_append, setRow_vert2 hv]

theorem resizeRowOf_vert2 {i k : Nat} {v : PCell} (hv : D.P[i]? = some v) :
    D.mesh.resizeRowOf .vert2 i k =
      ok ({ D with P := D.P.set i { v with verts := vresize v.verts k (Lst.fillOne .vert2) } }
        : MeshData α).mesh := by
  unfold mesh
  rw [AMesh.resizeRowOf_conc D.toA_ok (l := .vert2) (r := v.verts) (by
    show (D.P.map (·.verts))[i]? = _
    simp [hv]) (by simp), setRow_vert2 hv]

theorem setRows_vert2 {R : List (List Nat)} (hR : R.length = D.P.length) :
    D.toA.setRows .vert2 R =
      ({ D with P := List.zipWith (fun v r => { v with verts := r }) D.P R } : MeshData α).toA := by
  have a0 := map_zipWith_left (f := fun (v : PCell) r => { v with verts := r }) (g := PCell.mark) (g' := PCell.mark) (fun _ _ => rfl) hR
  have a1 := map_zipWith_left (f := fun (v : PCell) r => { v with verts := r }) (g := PCell.act) (g' := PCell.act) (fun _ _ => rfl) hR
  have a2 := map_zipWith_left (f := fun (v : PCell) r => { v with verts := r }) (g := PCell.edges) (g' := PCell.edges) (fun _ _ => rfl) hR
  have a3 := map_zipWith_right (f := fun (v : PCell) r => { v with verts := r }) (g := PCell.verts) (fun _ _ => rfl) hR
  simp only [AMesh.setRows, toA, AMesh.mk.injEq, true_and, and_true]
  refine ⟨?_, ?_, ?_, ?_, ?_⟩
  · funext d; cases d <;> simp [num, hR]
  · funext d; cases d <;> simp [a0, a1, a2, a3]
  · funext d; cases d <;> simp [a0, a1, a2, a3]
  · funext d; cases d <;> simp [hR]
  · funext l; cases l <;> simp [fset, a0, a1, a2, a3, hR]

theorem setRow_edge2 {i : Nat} {r : List Nat} {v : PCell} (hv : D.P[i]? = some v) :
    D.toA.setRow .edge2 i r = ({ D with P := D.P.set i { v with edges := r } } : MeshData α).toA := by
  have a0 := set_map_same PCell.mark hv
  have a1 := set_map_same PCell.act hv
  have a2 := set_map_same PCell.verts hv
  simp only [AMesh.setRow, AMesh.setRows, toA, AMesh.mk.injEq, true_and, and_true]
  refine ⟨?_, ?_, ?_, ?_, ?_⟩
  · funext d; cases d <;> simp [num]
  · funext d; cases d <;> simp [List.map_set, a0, a1, a2]
  · funext d; cases d <;> simp [List.map_set, a0, a1, a2]
  · funext d; cases d <;> simp
  · funext l; cases l <;> simp [fset, List.map_set, a0, a1, a2]

theorem insertFrom_edge2 {i : Nat} {r : List Nat} {v : PCell} (hv : D.P[i]? = some v)
    (hl : v.edges.length = r.length) (hr : ∀ x ∈ r, x < D.num .d1) :
    D.mesh.insertFrom .edge2 i 0 r =
      ok ({ D with P := D.P.set i { v with edges := r } } : MeshData α).mesh := by
  unfold mesh
  rw [AMesh.insertFrom_conc D.toA_ok (l := .edge2) (r := v.edges) (by
    show (D.P.map (·.edges))[i]? = _
    simp [hv]) (by omega) hr, List.take_zero, List.nil_append, setRow_edge2 hv]

theorem resizeRowOf_edge2 {i k : Nat} {v : PCell} (hv : D.P[i]? = some v) :
    D.mesh.resizeRowOf .edge2 i k =
      ok ({ D with P := D.P.set i { v with edges := vresize v.edges k (Lst.fillOne .edge2) } }
        : MeshData α).mesh := by
  unfold mesh
  rw [AMesh.resizeRowOf_conc D.toA_ok (l := .edge2) (r := v.edges) (by
    show (D.P.map (·.edges))[i]? = _
    simp [hv]) (by simp), setRow_edge2 hv]

theorem setRows_edge2 {R : List (List Nat)} (hR : R.length = D.P.length) :
    D.toA.setRows .edge2 R =
      ({ D with P := List.zipWith (fun v r => { v with edges := r }) D.P R } : MeshData α).toA := by
  have a0 := map_zipWith_left (f := fun (v : PCell) r => { v with edges := r }) (g := PCell.mark) (g' := PCell.mark) (fun _ _ => rfl) hR
  have a1 := map_zipWith_left (f := fun (v : PCell) r => { v with edges := r }) (g := PCell.act) (g' := PCell.act) (fun _ _ => rfl) hR
  have a2 := map_zipWith_left (f := fun (v : PCell) r => { v with edges := r }) (g := PCell.verts) (g' := PCell.verts) (fun _ _ => rfl) hR
  have a3 := map_zipWith_right (f := fun (v : PCell) r => { v with edges := r }) (g := PCell.edges) (fun _ _ => rfl) hR
  simp only [AMesh.setRows, toA, AMesh.mk.injEq, true_and, and_true]
  refine ⟨?_, ?_, ?_, ?_, ?_⟩
  · funext d; cases d <;> simp [num, hR]
  · funext d; cases d <;> simp [a0, a1, a2, a3]
  · funext d; cases d <;> simp [a0, a1, a2, a3]
  · funext d; cases d <;> simp [hR]
  · funext l; cases l <;> simp [fset, a0, a1, a2, a3, hR]

theorem setMark_C {i : Nat} {a : Nat} {v : CCell} (hv : D.C[i]? = some v) :
    D.mesh.setMark .d3 i a =
      ok ({ D with C := D.C.set i { v with mark := a } } : MeshData α).mesh := by
  have hi : i < D.C.length := (List.getElem?_eq_some_iff.1 hv).1
  unfold mesh
  rw [AMesh.setMark_conc D.toA_ok (d := .d3) hi]
  congr 2
  have a0 := set_map_same CCell.act hv
  have a1 := set_map_same CCell.verts hv
  have a2 := set_map_same CCell.edges hv
  have a3 := set_map_same CCell.faces hv
  simp only [toA, AMesh.mk.injEq, true_and, and_true]
  refine ⟨?_, ?_, ?_, ?_, ?_⟩
  · funext d; cases d <;> simp [num]
  · funext d; cases d <;> simp [fset, List.map_set, a0, a1, a2, a3]
  · funext d; cases d <;> simp [fset, List.map_set, a0, a1, a2, a3]
  · funext d; cases d <;> simp
  · funext l; cases l <;> simp [List.map_set, a0, a1, a2, a3]

theorem setAct_C {i : Nat} {a : Bool} {v : CCell} (hv : D.C[i]? = some v) :
    D.mesh.setAct .d3 i a =
      ok ({ D with C := D.C.set i { v with act := a } } : MeshData α).mesh := by
  have hi : i < D.C.length := (List.getElem?_eq_some_iff.1 hv).1
  unfold mesh
  rw [AMesh.setAct_conc D.toA_ok (d := .d3) hi]
  congr 2
  have a0 := set_map_same CCell.mark hv
  have a1 := set_map_same CCell.verts hv
  have a2 := set_map_same CCell.edges hv
  have a3 := set_map_same CCell.faces hv
  simp only [toA, AMesh.mk.injEq, true_and, and_true]
  refine ⟨?_, ?_, ?_, ?_, ?_⟩
  · funext d; cases d <;> simp [num]
  · funext d; cases d <;> simp [fset, List.map_set, a0, a1, a2, a3]
  · funext d; cases d <;> simp [fset, List.map_set, a0, a1, a2, a3]
  · funext d; cases d <;> simp
  · funext l; cases l <;> simp [List.map_set, a0, a1, a2, a3]

theorem setRow_vert3 {i : Nat} {r : List Nat} {v : CCell} (hv : D.C[i]? = some v) :
    D.toA.setRow .vert3 i r = ({ D with C := D.C.set i { v with verts := r } } : MeshData α).toA := by
  have a0 := set_map_same CCell.mark hv
  have a1 := set_map_same CCell.act hv
  have a2 := set_map_same CCell.edges hv
  have a3 := set_map_same CCell.faces hv
  simp only [AMesh.setRow, AMesh.setRows, toA, AMesh.mk.injEq, true_and, and_true]
  refine ⟨?_, ?_, ?_, ?_, ?_⟩
  · funext d; cases d <;> simp [num]
  · funext d; cases d <;> simp [List.map_set, a0, a1, a2, a3]
  · funext d; cases d <;> simp [List.map_set, a0, a1, a2, a3]
  · funext d; cases d <;> simp
  · funext l; cases l <;> simp [fset, List.map_set, a0, a1, a2, a3]

theorem insertFrom_vert3 {i : Nat} {r : List Nat} {v : CCell} (hv : D.C[i]? = some v)
    (hl : v.verts.length = r.length) (hr : ∀ x ∈ r, x < D.num .d0) :
    D.mesh.insertFrom .vert3 i 0 r =
      ok ({ D with C := D.C.set i { v with verts := r } } : MeshData α).mesh := by
  unfold mesh
  rw [AMesh.insertFrom_conc D.toA_ok (l := .vert3) (r := v.verts) (by
    show (D.C.map (·.verts))[i]? = _
    simp [hv]) (by omega) hr, List.take_zero, List.nil_append, setRow_vert3 hv]

theorem resizeRowOf_vert3 {i k : Nat} {v : CCell} (hv : D.C[i]? = some v) :
    D.mesh.resizeRowOf .vert3 i k =
      ok ({ D with C := D.C.set i { v with verts := vresize v.verts k (Lst.fillOne .vert3) } }
        : MeshData α).mesh := by
  unfold mesh
  rw [AMesh.resizeRowOf_conc D.toA_ok (l := .vert3) (r := v.verts) (by
    show (D.C.map (·.verts))[i]? = _
    simp [hv]) (by simp), setRow_vert3 hv]

theorem setRows_vert3 {R : List (List Nat)} (hR : R.length = D.C.length) :
    D.toA.setRows .vert3 R =
      ({ D with C := List.zipWith (fun v r => { v with verts := r }) D.C R } : MeshData α).toA := by
  have a0 := map_zipWith_left (f := fun (v : CCell) r => { v with verts := r }) (g := CCell.mark) (g' := CCell.mark) (fun _ _ => rfl) hR
  have a1 := map_zipWith_left (f := fun (v : CCell) r => { v with verts := r }) (g := CCell.act) (g' := CCell.act) (fun _ _ => rfl) hR
  have a2 := map_zipWith_left (f := fun (v : CCell) r => { v with verts := r }) (g := CCell.edges) (g' := CCell.edges) (fun _ _ => rfl) hR
  have a3 := map_zipWith_left (f := fun (v : CCell) r => { v with verts := r }) (g := CCell.faces) (g' := CCell.faces) (fun _ _ => rfl) hR
  have a4 := map_zipWith_right (f := fun (v : CCell) r => { v with verts := r }) (g := CCell.verts) (fun _ _ => rfl) hR
  simp only [AMesh.setRows, toA, AMesh.mk.injEq, true_and, and_true]
  refine ⟨?_, ?_, ?_, ?_, ?_⟩
  · funext d; cases d <;> simp [num, hR]
  · funext d; cases d <;> simp [a0, a1, a2, a3, a4]
  · funext d; cases d <;> simp [a0, a1, a2, a3, a4]
  · funext d; cases d <;> simp [hR]
  · funext l; cases l <;> simp [fset, a0, a1, a2, a3, a4, hR]

theorem setRow_edge3 {i : Nat} {r : List Nat} {v : CCell} (hv : D.C[i]? = some v) :
    D.toA.setRow .edge3 i r = ({ D with C := D.C.set i { v with edges := r } } : MeshData α).toA := by
  have a0 := set_map_same CCell.mark hv
  have a1 := set_map_same CCell.act hv
  have a2 := set_map_same CCell.verts hv
  have a3 := set_map_same CCell.faces hv
  simp only [AMesh.setRow, AMesh.setRows, toA, AMesh.mk.injEq, true_and, and_true]
  refine ⟨?_, ?_, ?_, ?_, ?_⟩
  · funext d; cases d <;> simp [num]
  · funext d; cases d <;> simp [List.map_set, a0, a1, a2, a3]
  · funext d; cases d <;> simp [List.map_set, a0, a1, a2, a3]
  · funext d; cases d <;> simp
  · funext l; cases l <;> simp [fset, List.map_set, a0, a1, a2, a3]

theorem insertFrom_edge3 {i : Nat} {r : List Nat} {v : CCell} (hv : D.C[i]? = some v)
    (hl : v.edges.length = r.length) (hr : ∀ x ∈ r, x < D.num .d1) :
    D.mesh.insertFrom .edge3 i 0 r =
      ok ({ D with C := D.C.set i { v with edges := r } } : MeshData α).mesh := by
  unfold mesh
  rw [AMesh.insertFrom_conc D.toA_ok (l := .edge3) (r := v.edges) (by
    show (D.C.map (·.edges))[i]? = _
    simp [hv]) (by omega) hr, List.take_zero, List.nil_append, setRow_edge3 hv]

theorem resizeRowOf_edge3 {i k : Nat} {v : CCell} (hv : D.C[i]? = some v) :
    D.mesh.resizeRowOf .edge3 i k =
      ok ({ D with C := D.C.set i { v with edges := vresize v.edges k (Lst.fillOne .edge3) } }
        : MeshData α).mesh := by
  unfold mesh
  rw [AMesh.resizeRowOf_conc D.toA_ok (l := .edge3) (r := v.edges) (by
    show (D.C.map (·.edges))[i]? = _
    simp [hv]) (by simp), setRow_edge3 hv]

theorem setRows_edge3 {R : List (List Nat)} (hR : R.length = D.C.length) :
    D.toA.setRows .edge3 R =
      ({ D with C := List.zipWith (fun v r => { v with edges := r }) D.C R } : MeshData α).toA := by
  have a0 := map_zipWith_left (f := fun (v : CCell) r => { v with edges := r }) (g := CCell.mark) (g' := CCell.mark) (fun _ _ => rfl) hR
  have a1 := map_zipWith_left (f := fun (v : CCell) r => { v with edges := r }) (g := CCell.act) (g' := CCell.act) (fun _ _ => rfl) hR
  have a2 := map_zipWith_left (f := fun (v : CCell) r => { v with edges := r }) (g := CCell.verts) (g' := CCell.verts) (fun _ _ => rfl) hR
  have a3 := map_zipWith_left (f := fun (v : CCell) r => { v with edges := r }) (g := CCell.faces) (g' := CCell.faces) (fun _ _ => rfl) hR
  have a4 := map_zipWith_right (f := fun (v : CCell) r => { v with edges := r }) (g := CCell.edges) (fun _ _ => rfl) hR
  simp only [AMesh.setRows, toA, AMesh.mk.injEq, true_and, and_true]
  refine ⟨?_, ?_, ?_, ?_, ?_⟩
  · funext d; cases d <;> simp [num, hR]
  · funext d; cases d <;> simp [a0, a1, a2, a3, a4]
  · funext d; cases d <;> simp [a0, a1, a2, a3, a4]
  · funext d; cases d <;> simp [hR]
  · funext l; cases l <;> simp [fset, a0, a1, a2, a3, a4, hR]

theorem setRow_face3 {i : Nat} {r : List Nat} {v : CCell} (hv : D.C[i]? = some v) :
    D.toA.setRow .face3 i r = ({ D with C := D.C.set i { v with faces := r } } : MeshData α).toA := by
  have a0 := set_map_same CCell.mark hv
  have a1 := set_map_same CCell.act hv
  have a2 := set_map_same CCell.verts hv
  have a3 := set_map_same CCell.edges hv
  simp only [AMesh.setRow, AMesh.setRows, toA, AMesh.mk.injEq, true_and, and_true]
  refine ⟨?_, ?_, ?_, ?_, ?_⟩
  · funext d; cases d <;> simp [num]
  · funext d; cases d <;> simp [List.map_set, a0, a1, a2, a3]
  · funext d; cases d <;> simp [List.map_set, a0, a1, a2, a3]
  · funext d; cases d <;> simp
  · funext l; cases l <;> simp [fset, List.map_set, a0, a1, a2, a3]

theorem insertFrom_face3 {i : Nat} {r : List Nat} {v : CCell} (hv : D.C[i]? = some v)
    (hl : v.faces.length = r.length) (hr : ∀ x ∈ r, x < D.num .d2) :
    D.mesh.insertFrom .face3 i 0 r =
      ok ({ D with C := D.C.set i { v with faces := r } } : MeshData α).mesh := by
  unfold mesh
  rw [AMesh.insertFrom_conc D.toA_ok (l := .face3) (r := v.faces) (by
    show (D.C.map (·.faces))[i]? = _
    simp [hv]) (by omega) hr, List.take_zero, List.nil_append, setRow_face3 hv]

theorem resizeRowOf_face3 {i k : Nat} {v : CCell} (hv : D.C[i]? = some v) :
    D.mesh.resizeRowOf .face3 i k =
      ok ({ D with C := D.C.set i { v with faces := vresize v.faces k (Lst.fillOne .face3) } }
        : MeshData α).mesh := by
  unfold mesh
  rw [AMesh.resizeRowOf_conc D.toA_ok (l := .face3) (r := v.faces) (by
    show (D.C.map (·.faces))[i]? = _
    simp [hv]) (by simp), setRow_face3 hv]

theorem setRows_face3 {R : List (List Nat)} (hR : R.length = D.C.length) :
    D.toA.setRows .face3 R =
      ({ D with C := List.zipWith (fun v r => { v with faces := r }) D.C R } : MeshData α).toA := by
  have a0 := map_zipWith_left (f := fun (v : CCell) r => { v with faces := r }) (g := CCell.mark) (g' := CCell.mark) (fun _ _ => rfl) hR
  have a1 := map_zipWith_left (f := fun (v : CCell) r => { v with faces := r }) (g := CCell.act) (g' := CCell.act) (fun _ _ => rfl) hR
  have a2 := map_zipWith_left (f := fun (v : CCell) r => { v with faces := r }) (g := CCell.verts) (g' := CCell.verts) (fun _ _ => rfl) hR
  have a3 := map_zipWith_left (f := fun (v : CCell) r => { v with faces := r }) (g := CCell.edges) (g' := CCell.edges) (fun _ _ => rfl) hR
  have a4 := map_zipWith_right (f := fun (v : CCell) r => { v with faces := r }) (g := CCell.faces) (fun _ _ => rfl) hR
  simp only [AMesh.setRows, toA, AMesh.mk.injEq, true_and, and_true]
  refine ⟨?_, ?_, ?_, ?_, ?_⟩
  · funext d; cases d <;> simp [num, hR]
  · funext d; cases d <;> simp [a0, a1, a2, a3, a4]
  · funext d; cases d <;> simp [a0, a1, a2, a3, a4]
  · funext d; cases d <;> simp [hR]
  · funext l; cases l <;> simp [fset, a0, a1, a2, a3, a4, hR]

theorem insertCoord_V {i : Nat} {x y z : α} {v : VCell α} (hv : D.V[i]? = some v) :
    D.mesh.insertCoord i x y z =
      ok ({ D with V := D.V.set i { v with x := x, y := y, z := z } } : MeshData α).mesh := by
  have hi : i < D.V.length := (List.getElem?_eq_some_iff.1 hv).1
  unfold mesh
  rw [AMesh.insertCoord_conc D.toA_ok hi]
  congr 2
  have a0 := set_map_same VCell.mark hv
  have a1 := set_map_same VCell.act hv
  have b := set3 VCell.x VCell.y VCell.z D.V i { v with x := x, y := y, z := z } hi
  simp only [toA, AMesh.mk.injEq, true_and, and_true]
  refine ⟨?_, ?_, ?_, ?_, ?_⟩
  · funext d; cases d <;> simp [num]
  · exact b
  · funext d; cases d <;> simp [List.map_set, a0]
  · funext d; cases d <;> simp [List.map_set, a1]
  · funext l; cases l <;> simp

theorem insertExt_E {i a b : Nat} {v : ECell} (hv : D.E[i]? = some v) :
    D.mesh.insertExt i a b =
      ok ({ D with E := D.E.set i { v with origin := a, finish := b } } : MeshData α).mesh := by
  have hi : i < D.E.length := (List.getElem?_eq_some_iff.1 hv).1
  unfold mesh
  rw [AMesh.insertExt_conc D.toA_ok hi]
  congr 2
  have a0 := set_map_same ECell.mark hv
  have a1 := set_map_same ECell.act hv
  have a2 := set_map_same ECell.polygons hv
  have b := set2 ECell.origin ECell.finish D.E i { v with origin := a, finish := b } hi
  simp only [toA, AMesh.mk.injEq, true_and, and_true]
  refine ⟨?_, ?_, ?_, ?_, ?_, ?_⟩
  · funext d; cases d <;> simp [num]
  · exact b
  · funext d; cases d <;> simp [List.map_set, a0]
  · funext d; cases d <;> simp [List.map_set, a1]
  · funext d; cases d <;> simp
  · funext l; cases l <;> simp [List.map_set, a2]

/-! ### Initialisation -/

theorem empty_mesh : (Mesh.empty : Mesh α) = (⟨0, [], [], [], []⟩ : MeshData α).mesh := by
  unfold Mesh.empty mesh AMesh.conc toA
  simp only [Mesh.mk.injEq, List.flatMap_nil, true_and]
  refine ⟨?_, ?_, ?_, ?_, rfl, ?_⟩
  · funext d; cases d <;> rfl
  · funext d; cases d <;> rfl
  · funext d; cases d <;> rfl
  · funext d; cases d <;> rfl
  · funext l; cases l <;> rfl

theorem initDim_mesh (n : Nat) :
    { D.mesh with dimension := n } = ({ D with dimension := n } : MeshData α).mesh := rfl

theorem resizeOff_nil (n : Nat) : (Csr.ofRows ([] : List (List Nat))).resizeOff n =
    Csr.ofRows (List.replicate n []) := by
  unfold Csr.resizeOff Csr.ofRows
  simp only [List.length_nil, List.length_replicate, Csr.mk.injEq]
  constructor
  · apply List.ext_getElem
    · simp
    · intro i h1 h2
      simp only [List.getElem_map, List.getElem_range]
      have : Csr.offsetOf (List.replicate n ([] : List Nat)) i = 0 := by
        unfold Csr.offsetOf; simp
      rw [this]
      simp only [vresize, Csr.offsetOf]
      cases i with
      | zero => simp [List.getElem_append, List.range_succ]
      | succ i => simp [List.getElem_append, List.range_succ]
  · simp

theorem init_V [Zero α] (h : D.V = []) (n : Nat) : D.mesh.init .d0 n =
    ({ D with V := List.replicate n ⟨0, 0, 0, 0, false⟩ } : MeshData α).mesh := by
  have hc : ∀ n, (List.replicate (3 * n) (0 : α)) =
      (List.replicate n (⟨0, 0, 0, 0, false⟩ : VCell α)).flatMap fun v => [v.x, v.y, v.z] := by
    intro n
    induction n with
    | zero => rfl
    | succ n ih =>
      rw [Nat.mul_add, Nat.mul_one, List.replicate_succ (n := n), List.flatMap_cons, ← ih]
      rfl
  simp only [Mesh.init, Mesh.init0, Mesh.resizeOffOf, Mesh.resizePropOffs, mesh, AMesh.conc, toA,
    Mesh.mk.injEq, true_and, and_true, h]
  refine ⟨?_, ?_, ?_, ?_, ?_, ?_⟩
  · funext d; cases d <;> simp [num, fset]
  · simp [vresize, hc]
  · funext d; cases d <;> simp [fset, vresize]
  · funext d; cases d <;> simp [fset, vresize]
  · funext d; cases d <;> simp [fset]
  · funext l; cases l <;> simp [fset, Lst.owner, num, resizeOff_nil]

theorem init_E [Zero α] (h : D.E = []) (n : Nat) : D.mesh.init .d1 n =
    ({ D with E := List.replicate n ⟨0, 0, 0, false, []⟩ } : MeshData α).mesh := by
  have hc : ∀ n, (List.replicate (2 * n) 0) =
      (List.replicate n (⟨0, 0, 0, false, []⟩ : ECell)).flatMap fun e => [e.origin, e.finish] := by
    intro n
    induction n with
    | zero => rfl
    | succ n ih =>
      rw [Nat.mul_add, Nat.mul_one, List.replicate_succ (n := n), List.flatMap_cons, ← ih]
      rfl
  simp only [Mesh.init, Mesh.init1, Mesh.resizeOffOf, Mesh.resizePropOffs, mesh, AMesh.conc, toA,
    Mesh.mk.injEq, true_and, and_true, h]
  refine ⟨?_, ?_, ?_, ?_, ?_, ?_, ?_⟩
  · funext d; cases d <;> simp [num, fset]
  · simp [vresize, hc]
  · funext d; cases d <;> simp [fset, vresize]
  · funext d; cases d <;> simp [fset, vresize]
  · funext d; cases d <;> simp [fset, vresize]
  · funext d; cases d <;> simp [fset]
  · funext l; cases l <;> simp [fset, Lst.owner, num, resizeOff_nil]

theorem init_P [Zero α] (h : D.P = []) (n : Nat) : D.mesh.init .d2 n =
    ({ D with P := List.replicate n ⟨[], [], 0, false⟩ } : MeshData α).mesh := by
  simp only [Mesh.init, Mesh.init2, Mesh.resizeOffOf, Mesh.resizePropOffs, mesh, AMesh.conc, toA,
    Mesh.mk.injEq, true_and, and_true, h]
  refine ⟨?_, ?_, ?_, ?_, ?_, ?_⟩
  · funext d; cases d <;> simp [num, fset]
  · funext d; cases d <;> simp [fset, vresize]
  · funext d; cases d <;> simp [fset, vresize]
  · funext d; cases d <;> simp [fset, vresize]
  · funext d; cases d <;> simp [fset]
  · funext l; cases l <;> simp [fset, Lst.owner, num, resizeOff_nil]

theorem init_C [Zero α] (h : D.C = []) (n : Nat) : D.mesh.init .d3 n =
    ({ D with C := List.replicate n ⟨[], [], [], 0, false⟩ } : MeshData α).mesh := by
  simp only [Mesh.init, Mesh.init3, Mesh.resizeOffOf, Mesh.resizePropOffs, mesh, AMesh.conc, toA,
    Mesh.mk.injEq, true_and, and_true, h]
  refine ⟨?_, ?_, ?_, ?_, ?_, ?_⟩
  · funext d; cases d <;> simp [num, fset]
  · funext d; cases d <;> simp [fset, vresize]
  · funext d; cases d <;> simp [fset, vresize]
  · funext d; cases d <;> simp [fset, vresize]
  · funext d; cases d <;> simp [fset]
  · funext l; cases l <;> simp [fset, Lst.owner, num, resizeOff_nil]

theorem cut_replicate {β : Type} (sizes : List Nat) (x : β) :
    Csr.cut sizes (List.replicate sizes.sum x) = sizes.map (List.replicate · x) := by
  induction sizes with
  | nil => rfl
  | cons k ks ih => simp [Csr.cut, ih]

theorem initRows_empty {A : AMesh α} (h : A.Ok) {l : Lst} (hl : ∀ r ∈ A.rows l, r = [])
    (sizes : List Nat) (hs : sizes.length = A.num l.owner) :
    A.conc.initRows l sizes = ok (A.setRows l (sizes.map (List.replicate · l.fillAll))).conc := by
  have he : (A.conc.lists l).el = [] := by
    show (Csr.ofRows (A.rows l)).el = []
    rw [Csr.ofRows_el]
    simpa using hl
  unfold Mesh.initRows
  rw [assert_true (show sizes.length = A.conc.num l.owner from hs), ok_bind,
    Csr.initSizes_spec _ ((AMesh.wf_conc h).lists l).first, AMesh.setRows_conc, he]
  congr 3
  rw [← cut_replicate]
  simp [vresize]

theorem initRowsConst_empty {A : AMesh α} (h : A.Ok) {l : Lst} (hl : ∀ r ∈ A.rows l, r = []) (k : Nat) :
    A.conc.initRowsConst l k =
      (A.setRows l (List.replicate (A.num l.owner) (List.replicate k l.fillAll))).conc := by
  have he : (A.conc.lists l).el = [] := by
    show (Csr.ofRows (A.rows l)).el = []
    rw [Csr.ofRows_el]
    simpa using hl
  unfold Mesh.initRowsConst
  rw [Csr.initConst_spec _ ((AMesh.wf_conc h).lists l).first, AMesh.setRows_conc, he]
  congr 2
  have := cut_replicate (List.replicate (A.num l.owner) k) l.fillAll
  simp only [List.sum_replicate_nat, List.map_replicate] at this
  rw [← this]
  simp [vresize]

/-! ### Reading -/

theorem coordinates_V {i : Nat} {v : VCell α} (hv : D.V[i]? = some v) :
    D.mesh.coordinates i = ok (v.x, v.y, v.z) := by
  obtain ⟨hi, hv⟩ := List.getElem?_eq_some_iff.1 hv
  have h : ∀ (L : List (VCell α)) (i : Nat) (hi : i < L.length),
      (L.flatMap fun v => [v.x, v.y, v.z])[3 * i]? = some (L[i]).x ∧
      (L.flatMap fun v => [v.x, v.y, v.z])[3 * i + 1]? = some (L[i]).y ∧
      (L.flatMap fun v => [v.x, v.y, v.z])[3 * i + 2]? = some (L[i]).z := by
    intro L
    induction L with
    | nil => intro i hi; simp at hi
    | cons a L ih =>
      intro i hi
      cases i with
      | zero => simp
      | succ i =>
        have := ih i (by simpa using hi)
        simpa [List.flatMap_cons, Nat.mul_add] using this
  obtain ⟨h1, h2, h3⟩ := h D.V i hi
  unfold Mesh.coordinates
  rw [assert_true (show i < D.mesh.num .d0 from hi), ok_bind,
    vget_eq_ok.2 (show D.mesh.coord[3 * i]? = _ from h1), ok_bind,
    vget_eq_ok.2 (show D.mesh.coord[3 * i + 1]? = _ from h2), ok_bind,
    vget_eq_ok.2 (show D.mesh.coord[3 * i + 2]? = _ from h3), ok_bind, hv]

theorem extremes_E {i : Nat} {v : ECell} (hv : D.E[i]? = some v) :
    D.mesh.extremes i = ok (v.origin, v.finish) := by
  obtain ⟨hi, hv⟩ := List.getElem?_eq_some_iff.1 hv
  have h : ∀ (L : List ECell) (i : Nat) (hi : i < L.length),
      (L.flatMap fun e => [e.origin, e.finish])[2 * i]? = some (L[i]).origin ∧
      (L.flatMap fun e => [e.origin, e.finish])[2 * i + 1]? = some (L[i]).finish := by
    intro L
    induction L with
    | nil => intro i hi; simp at hi
    | cons a L ih =>
      intro i hi
      cases i with
      | zero => simp
      | succ i =>
        have := ih i (by simpa using hi)
        simpa [List.flatMap_cons, Nat.mul_add] using this
  obtain ⟨h1, h2⟩ := h D.E i hi
  unfold Mesh.extremes
  rw [assert_true (show i < D.mesh.num .d1 from hi), ok_bind,
    vget_eq_ok.2 (show D.mesh.ext[2 * i]? = _ from h1), ok_bind,
    vget_eq_ok.2 (show D.mesh.ext[2 * i + 1]? = _ from h2), ok_bind, hv]

theorem marker_V {i : Nat} {v : VCell α} (hv : D.V[i]? = some v) :
    D.mesh.marker .d0 i = ok v.mark := by
  obtain ⟨hi, hv⟩ := List.getElem?_eq_some_iff.1 hv
  unfold Mesh.marker
  rw [assert_true (show i < D.mesh.num .d0 from hi), ok_bind]
  refine vget_eq_ok.2 ?_
  show (D.V.map (·.mark))[i]? = _
  simp [hi, hv]

theorem active_V {i : Nat} {v : VCell α} (hv : D.V[i]? = some v) :
    D.mesh.active .d0 i = ok v.act := by
  obtain ⟨hi, hv⟩ := List.getElem?_eq_some_iff.1 hv
  unfold Mesh.active
  rw [assert_true (show i < D.mesh.num .d0 from hi), ok_bind]
  refine vget_eq_ok.2 ?_
  show (D.V.map (·.act))[i]? = _
  simp [hi, hv]

theorem marker_E {i : Nat} {v : ECell} (hv : D.E[i]? = some v) :
    D.mesh.marker .d1 i = ok v.mark := by
  obtain ⟨hi, hv⟩ := List.getElem?_eq_some_iff.1 hv
  unfold Mesh.marker
  rw [assert_true (show i < D.mesh.num .d1 from hi), ok_bind]
  refine vget_eq_ok.2 ?_
  show (D.E.map (·.mark))[i]? = _
  simp [hi, hv]

theorem active_E {i : Nat} {v : ECell} (hv : D.E[i]? = some v) :
    D.mesh.active .d1 i = ok v.act := by
  obtain ⟨hi, hv⟩ := List.getElem?_eq_some_iff.1 hv
  unfold Mesh.active
  rw [assert_true (show i < D.mesh.num .d1 from hi), ok_bind]
  refine vget_eq_ok.2 ?_
  show (D.E.map (·.act))[i]? = _
  simp [hi, hv]

theorem marker_P {i : Nat} {v : PCell} (hv : D.P[i]? = some v) :
    D.mesh.marker .d2 i = ok v.mark := by
  obtain ⟨hi, hv⟩ := List.getElem?_eq_some_iff.1 hv
  unfold Mesh.marker
  rw [assert_true (show i < D.mesh.num .d2 from hi), ok_bind]
  refine vget_eq_ok.2 ?_
  show (D.P.map (·.mark))[i]? = _
  simp [hi, hv]

theorem active_P {i : Nat} {v : PCell} (hv : D.P[i]? = some v) :
    D.mesh.active .d2 i = ok v.act := by
  obtain ⟨hi, hv⟩ := List.getElem?_eq_some_iff.1 hv
  unfold Mesh.active
  rw [assert_true (show i < D.mesh.num .d2 from hi), ok_bind]
  refine vget_eq_ok.2 ?_
  show (D.P.map (·.act))[i]? = _
  simp [hi, hv]

theorem marker_C {i : Nat} {v : CCell} (hv : D.C[i]? = some v) :
    D.mesh.marker .d3 i = ok v.mark := by
  obtain ⟨hi, hv⟩ := List.getElem?_eq_some_iff.1 hv
  unfold Mesh.marker
  rw [assert_true (show i < D.mesh.num .d3 from hi), ok_bind]
  refine vget_eq_ok.2 ?_
  show (D.C.map (·.mark))[i]? = _
  simp [hi, hv]

theorem active_C {i : Nat} {v : CCell} (hv : D.C[i]? = some v) :
    D.mesh.active .d3 i = ok v.act := by
  obtain ⟨hi, hv⟩ := List.getElem?_eq_some_iff.1 hv
  unfold Mesh.active
  rw [assert_true (show i < D.mesh.num .d3 from hi), ok_bind]
  refine vget_eq_ok.2 ?_
  show (D.C.map (·.act))[i]? = _
  simp [hi, hv]

theorem row_nb12 {i : Nat} {v : ECell} (hv : D.E[i]? = some v) :
    D.mesh.row .nb12 i = ok v.polygons := by
  unfold mesh
  refine AMesh.row_conc D.toA_ok (l := .nb12) ?_
  show (D.E.map (·.polygons))[i]? = _
  simp [hv]

theorem row_vert2 {i : Nat} {v : PCell} (hv : D.P[i]? = some v) :
    D.mesh.row .vert2 i = ok v.verts := by
  unfold mesh
  refine AMesh.row_conc D.toA_ok (l := .vert2) ?_
  show (D.P.map (·.verts))[i]? = _
  simp [hv]

theorem row_edge2 {i : Nat} {v : PCell} (hv : D.P[i]? = some v) :
    D.mesh.row .edge2 i = ok v.edges := by
  unfold mesh
  refine AMesh.row_conc D.toA_ok (l := .edge2) ?_
  show (D.P.map (·.edges))[i]? = _
  simp [hv]

theorem row_vert3 {i : Nat} {v : CCell} (hv : D.C[i]? = some v) :
    D.mesh.row .vert3 i = ok v.verts := by
  unfold mesh
  refine AMesh.row_conc D.toA_ok (l := .vert3) ?_
  show (D.C.map (·.verts))[i]? = _
  simp [hv]

theorem row_edge3 {i : Nat} {v : CCell} (hv : D.C[i]? = some v) :
    D.mesh.row .edge3 i = ok v.edges := by
  unfold mesh
  refine AMesh.row_conc D.toA_ok (l := .edge3) ?_
  show (D.C.map (·.edges))[i]? = _
  simp [hv]

theorem row_face3 {i : Nat} {v : CCell} (hv : D.C[i]? = some v) :
    D.mesh.row .face3 i = ok v.faces := by
  unfold mesh
  refine AMesh.row_conc D.toA_ok (l := .face3) ?_
  show (D.C.map (·.faces))[i]? = _
  simp [hv]

end MeshData
end Verif
