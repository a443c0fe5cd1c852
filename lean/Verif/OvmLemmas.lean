import Verif.OvmSpec
import Verif.FillProps
import Verif.FillLemmas
import Verif.CheckLemmas
import Verif.ExtractLemmas
import Verif.BisectLemmas
import Verif.BisectStepLemmas
import Verif.MeshUpdLemmas

/-
Lemmas for the conversion of meshes to OVM meshes and back.
-/
namespace Verif

open Res

variable {K : Type}

theorem mapRes_range_exists {α : Type} {f : Nat → Res α} {n : Nat} {R : Nat → α → Prop}
    (h : ∀ i, i < n → ∃ a, f i = ok a ∧ R i a) :
    ∃ l, mapRes f (List.range n) = ok l ∧ l.length = n ∧ ∀ (i : Nat) x, l[i]? = some x → R i x := by
  obtain ⟨l, hl, ha⟩ := mapRes_forall₂ (f := f) (l := List.range n) (R := R) fun i hi => h i (List.mem_range.1 hi)
  have hn := ha.length_eq
  rw [List.length_range] at hn
  refine ⟨l, hl, hn.symm, ?_⟩
  intro i x hx
  obtain ⟨hi, rfl⟩ := List.getElem?_eq_some_iff.1 hx
  have hi' : i < (List.range n).length := by simp; omega
  have := (List.forall₂_iff_get.1 ha).2 i hi' hi
  simpa using this

theorem mapRes_range_list {α β : Type} (f : Nat → Res α) (L : List β) (g : β → α) {n : Nat} (hn : n = L.length)
    (h : ∀ (i : Nat) x, L[i]? = some x → f i = ok (g x)) : mapRes f (List.range n) = ok (L.map g) := by
  subst hn
  exact mapRes_range_eq f g L fun i hi => h i _ (List.getElem?_eq_getElem hi)

theorem pairs_even (E : List (Nat × Nat)) (i : Nat) :
    (E.flatMap fun e => [(e.1, e.2), (e.2, e.1)])[2 * i]? = E[i]? := by
  induction E generalizing i with
  | nil => simp
  | cons x E ih =>
    cases i with
    | zero => simp
    | succ i =>
      rw [List.flatMap_cons, show 2 * (i + 1) = 2 * i + 1 + 1 by omega]
      simp only [List.cons_append, List.nil_append, List.getElem?_cons_succ]
      exact ih i

theorem pairs_odd (E : List (Nat × Nat)) (i : Nat) :
    (E.flatMap fun e => [(e.1, e.2), (e.2, e.1)])[2 * i + 1]? = E[i]?.map Prod.swap := by
  induction E generalizing i with
  | nil => simp
  | cons x E ih =>
    cases i with
    | zero => simp [Prod.swap]
    | succ i =>
      rw [List.flatMap_cons, show 2 * (i + 1) + 1 = 2 * i + 1 + 1 + 1 by omega]
      simp only [List.cons_append, List.nil_append, List.getElem?_cons_succ]
      exact ih i

theorem pairs_length (E : List (Nat × Nat)) : (E.flatMap fun e => [(e.1, e.2), (e.2, e.1)]).length = 2 * E.length := by
  induction E with
  | nil => rfl
  | cons x E ih => rw [List.flatMap_cons, List.length_append, ih]; simp; omega

/-- The OVM mesh of a mesh, cell by cell. -/
structure OvmOf (m : Mesh K) (orientation : List (List Bool)) (o : OvmMesh K) (E : List (Nat × Nat)) : Prop where
  num0 : o.num0 = m.num .d0 ∧ o.points.length = m.num .d0
  num1 : o.num1 = m.num .d1 ∧ E.length = m.num .d1
  num2 : o.num2 = m.num .d2 ∧ o.faces.length = m.num .d2
  num3 : o.num3 = m.num .d3 ∧ o.solids.length = m.num .d3
  half : o.halfEdges = E.flatMap fun e => [(e.1, e.2), (e.2, e.1)]
  point : ∀ (i : Nat) p, o.points[i]? = some p → m.coordinates i = ok (p.x, p.y, p.z)
  edge : ∀ (i : Nat) x, E[i]? = some x → m.extremes i = ok x
  face : ∀ (f : Nat) c, o.faces[f]? = some c → ∃ vs es, m.row .vert2 f = ok vs ∧ m.row .edge2 f = ok es ∧
    c.length = vs.length ∧ ∀ (i : Nat) x, c[i]? = some x → ∃ e y, vs[i]? = some x.1 ∧ es[i]? = some e ∧ m.extremes e = ok y ∧
      x.2 = if y.1 = x.1 then 2 * e else 2 * e + 1
  solid : ∀ (c : Nat) s, o.solids[c]? = some s → ∃ fs, m.row .face3 c = ok fs ∧ orientation[c]? = some s.2 ∧
    s.1.length = fs.length ∧ ∀ (i : Nat) h, s.1[i]? = some h → ∃ f b, fs[i]? = some f ∧ s.2[i]? = some b ∧
      h = if b = true then 2 * f else 2 * f + 1

theorem toOvm_of {m : Mesh K} (hw : m.WF) {orientation : List (List Bool)} (h : OvmReady m orientation) :
    ∃ o E, m.toOvm orientation = ok o ∧ OvmOf m orientation o E := by
  obtain ⟨ps, p1, p2, p3⟩ := mapRes_range_exists (f := m.point) (n := m.num .d0)
    (R := fun i p => m.coordinates i = ok (p.x, p.y, p.z)) (by
      intro i hi
      obtain ⟨c, hc⟩ := Mesh.coordinates_exists hw hi
      exact ⟨⟨c.1, c.2.1, c.2.2⟩, by simp [Mesh.point, hc], hc⟩)
  obtain ⟨E, e1, e2, e3⟩ := mapRes_range_exists (f := m.extremes) (n := m.num .d1) (R := fun i x => m.extremes i = ok x) (by
      intro i hi
      obtain ⟨c, hc⟩ := Mesh.extremes_exists hw hi
      exact ⟨c, hc, hc⟩)
  obtain ⟨fs, f1, f2, f3⟩ := mapRes_range_exists (f := m.ovmFace) (n := m.num .d2)
    (R := fun f c => ∃ vs es, m.row .vert2 f = ok vs ∧ m.row .edge2 f = ok es ∧
      c.length = vs.length ∧ ∀ (i : Nat) x, c[i]? = some x → ∃ e y, vs[i]? = some x.1 ∧ es[i]? = some e ∧ m.extremes e = ok y ∧
      x.2 = if y.1 = x.1 then 2 * e else 2 * e + 1) (by
      intro f hf
      obtain ⟨vs, hvs⟩ := Mesh.row_exists hw .vert2 (i := f) hf
      obtain ⟨es, hes⟩ := Mesh.row_exists hw .edge2 (i := f) hf
      obtain ⟨g1, g2, g3⟩ := h.faces f vs es hvs hes
      obtain ⟨c, c1, c2, c3⟩ := mapRes_range_exists (f := m.ovmSide vs es) (n := vs.length)
        (R := fun i x => ∃ e y, vs[i]? = some x.1 ∧ es[i]? = some e ∧ m.extremes e = ok y ∧
          x.2 = if y.1 = x.1 then 2 * e else 2 * e + 1) (by
          intro i hi
          have he : i < es.length := by omega
          obtain ⟨y, hy⟩ := Mesh.extremes_exists hw (g3 es[i] (List.getElem_mem he))
          refine ⟨(vs[i], if y.1 = vs[i] then 2 * es[i] else 2 * es[i] + 1), ?_, es[i], y, ?_, ?_, hy, rfl⟩
          · simp only [Mesh.ovmSide, vget_of_lt hi, vget_of_lt he, ok_bind, hy]
          · simp [hi]
          · simp [he])
      exact ⟨c, by simp only [Mesh.ovmFace, hvs, hes, ok_bind, c1], vs, es, hvs, hes, c2, c3⟩)
  obtain ⟨cs, s1, s2, s3⟩ := mapRes_range_exists (f := m.ovmBody orientation) (n := m.num .d3)
    (R := fun c s => ∃ fs, m.row .face3 c = ok fs ∧ orientation[c]? = some s.2 ∧
    s.1.length = fs.length ∧ ∀ (i : Nat) h, s.1[i]? = some h → ∃ f b, fs[i]? = some f ∧ s.2[i]? = some b ∧
      h = if b = true then 2 * f else 2 * f + 1) (by
      intro c hc
      obtain ⟨fs, hfs⟩ := Mesh.row_exists hw .face3 (i := c) hc
      have hc' : c < orientation.length := by rw [h.orientations]; exact hc
      have ho := h.orientation c fs _ hfs (List.getElem?_eq_getElem hc')
      obtain ⟨hs, c1, c2, c3⟩ := mapRes_range_exists (n := fs.length) (f := fun i => do
          let f ← vget fs i
          let b ← vget orientation[c] i
          ok (if b = true then 2 * f else 2 * f + 1))
        (R := fun i h => ∃ f b, fs[i]? = some f ∧ orientation[c][i]? = some b ∧ h = if b = true then 2 * f else 2 * f + 1) (by
          intro i hi
          have hi' : i < orientation[c].length := by omega
          refine ⟨if orientation[c][i] = true then 2 * fs[i] else 2 * fs[i] + 1, ?_, fs[i], orientation[c][i], ?_, ?_, rfl⟩
          · simp only [vget_of_lt hi, vget_of_lt hi', ok_bind]
          · simp [hi]
          · simp [hi'])
      refine ⟨(hs, orientation[c]), ?_, fs, hfs, List.getElem?_eq_getElem hc', c2, c3⟩
      simp only [Mesh.ovmBody, hfs, ok_bind, vget_of_lt hc']
      rw [c1]
      rfl)
  refine ⟨⟨m.num .d0, m.num .d1, m.num .d2, m.num .d3, ps, E.flatMap fun e => [(e.1, e.2), (e.2, e.1)], fs, cs⟩, E, ?_,
    ⟨⟨rfl, p2⟩, ⟨rfl, e2⟩, ⟨rfl, f2⟩, ⟨rfl, s2⟩, rfl, p3, e3, f3, s3⟩⟩
  simp only [Mesh.toOvm, p1, e1, f1, s1, ok_bind]

theorem ovmEdgeOf_half (e : Nat) (p : Prop) [Decidable p] : ovmEdgeOf (if p then 2 * e else 2 * e + 1) = e := by
  unfold ovmEdgeOf
  split_ifs <;> omega

theorem ovmFaceOf_half (f : Nat) (b : Bool) :
    ovmFaceOf (if b = true then 2 * f else 2 * f + 1) b = f := by
  unfold ovmFaceOf
  cases b
  · simp only [Bool.false_eq_true, if_false]
    unfold usub
    rw [if_pos (by omega)]
    omega
  · simp

theorem ovmCollect_eq {m : Mesh K} (hw : m.WF) {f : Nat} {vs es : List Nat} (hv : m.row .vert2 f = ok vs)
    (he : m.row .edge2 f = ok es) (hl : es.length = vs.length) (s : List Nat × List Nat) :
    m.ovmCollect s f = ok (vs.foldl setInsert s.1, es.foldl setInsert s.2) := by
  unfold Mesh.ovmCollect
  rw [rowSize_of_row hw hv, ok_bind]
  have key : ∀ k, k ≤ vs.length → foldRes (fun (s : List Nat × List Nat) k => (do
      let v ← m.entry .vert2 f k
      let e ← m.entry .edge2 f k
      ok (setInsert s.1 v, setInsert s.2 e) : Res (List Nat × List Nat))) s (List.range k) =
      ok ((vs.take k).foldl setInsert s.1, (es.take k).foldl setInsert s.2) := by
    intro k
    induction k with
    | zero => intro _; simp [foldRes]
    | succ k ih =>
      intro hk
      have h1 : vs[k]? = some vs[k] := List.getElem?_eq_getElem (by omega)
      have h2 : es[k]? = some es[k] := List.getElem?_eq_getElem (by omega)
      rw [List.range_succ, foldRes_append, ih (by omega), ok_bind]
      simp only [foldRes, entry_of_row hw hv h1, entry_of_row hw he h2, ok_bind]
      rw [List.take_succ, List.take_succ, h1, h2, Option.toList_some, Option.toList_some, List.foldl_append, List.foldl_append]
      rfl
  have := key vs.length (le_refl _)
  rw [List.take_length, ← hl, List.take_length, hl] at this
  exact this

theorem ovmCollect_all {m : Mesh K} (hw : m.WF) (fs : List Nat)
    (hr : ∀ f ∈ fs, ∃ vs es, m.row .vert2 f = ok vs ∧ m.row .edge2 f = ok es ∧ es.length = vs.length) :
    ∀ s : List Nat × List Nat, s.1.Nodup → s.2.Nodup → ∃ A B, foldRes m.ovmCollect s fs = ok (A, B) ∧ A.Nodup ∧ B.Nodup ∧
      (∀ v, v ∈ A ↔ v ∈ s.1 ∨ ∃ f ∈ fs, ∃ vs, m.row .vert2 f = ok vs ∧ v ∈ vs) ∧
      ∀ e, e ∈ B ↔ e ∈ s.2 ∨ ∃ f ∈ fs, ∃ es, m.row .edge2 f = ok es ∧ e ∈ es := by
  induction fs with
  | nil => intro s h1 h2; exact ⟨s.1, s.2, rfl, h1, h2, by simp, by simp⟩
  | cons f fs ih =>
    intro s h1 h2
    obtain ⟨vs, es, hv, he, hl⟩ := hr f (List.mem_cons_self ..)
    obtain ⟨A, B, q, qa, qb, ma, mb⟩ := ih (fun g hg => hr g (List.mem_cons_of_mem _ hg))
      (vs.foldl setInsert s.1, es.foldl setInsert s.2) (foldl_setInsert_nodup h1) (foldl_setInsert_nodup h2)
    refine ⟨A, B, ?_, qa, qb, ?_, ?_⟩
    · simp only [foldRes, ovmCollect_eq hw hv he hl, ok_bind, q]
    · intro v
      rw [ma, foldl_setInsert_mem]
      simp only [List.mem_cons, exists_eq_or_imp, hv, ok.injEq, exists_eq_left', or_assoc]
    · intro v
      rw [mb, foldl_setInsert_mem]
      simp only [List.mem_cons, exists_eq_or_imp, he, ok.injEq, exists_eq_left', or_assoc]

theorem ovmSolid_spec {m : Mesh K} (hw : m.WF) {order : List Nat → List Nat} (ho : ∀ l, (order l).Perm l) {fs : List Nat}
    (hr : ∀ f ∈ fs, ∃ vs es, m.row .vert2 f = ok vs ∧ m.row .edge2 f = ok es ∧ es.length = vs.length)
    {s : List Nat × List Bool} (hl : s.1.length = fs.length)
    (hs : ∀ (i : Nat) h, s.1[i]? = some h → ∃ f b, fs[i]? = some f ∧ s.2[i]? = some b ∧ ovmFaceOf h b = f) :
    ∃ p, m.ovmSolid order s = ok p ∧ p.faces = fs ∧ p.verts.Nodup ∧ p.edges.Nodup ∧
      (∀ v, v ∈ p.verts ↔ ∃ f ∈ fs, ∃ vs, m.row .vert2 f = ok vs ∧ v ∈ vs) ∧
      ∀ e, e ∈ p.edges ↔ ∃ f ∈ fs, ∃ es, m.row .edge2 f = ok es ∧ e ∈ es := by
  obtain ⟨A, B, q, qa, qb, ma, mb⟩ := ovmCollect_all hw fs hr ([], []) List.nodup_nil List.nodup_nil
  have hm : mapRes (fun i => (do
      let h ← vget s.1 i
      let b ← vget s.2 i
      ok (ovmFaceOf h b) : Res Nat)) (List.range s.1.length) = ok fs := by
    have := mapRes_range_list (fun i => (do
      let h ← vget s.1 i
      let b ← vget s.2 i
      ok (ovmFaceOf h b) : Res Nat)) fs id hl (by
        intro i f hf
        have hi := (List.getElem?_eq_some_iff.1 hf).1
        have hh := List.getElem?_eq_getElem (show i < s.1.length by omega)
        obtain ⟨f', b, g1, g2, g3⟩ := hs i _ hh
        rw [hf] at g1
        obtain rfl : f = f' := by simpa using g1
        simp only [vget, hh, g2, ok_bind, g3, id])
    simpa using this
  refine ⟨⟨order A, order B, fs⟩, ?_, rfl, (ho A).nodup_iff.2 qa, (ho B).nodup_iff.2 qb, ?_, ?_⟩
  · unfold Mesh.ovmSolid
    rw [hm, ok_bind, q, ok_bind]
  · intro v
    rw [(ho A).mem_iff, ma]; simp
  · intro v
    rw [(ho B).mem_iff, mb]; simp

end Verif
