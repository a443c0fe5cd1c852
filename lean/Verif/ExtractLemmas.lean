import Verif.ExtractSpec
import Verif.FillLemmas
import Verif.MeshProps
import Verif.MetisLemmas

/-
The loops of the extraction.
-/
namespace Verif

open Res

/-- The new number of an old cell: its position among the selected cells, or the sentinel. -/
def Renum (f : List Nat) (a a' : Nat) : Prop := f[a']? = some a ∨ (a ∉ f ∧ a' = UINT_MAX)

theorem Renum.of_mem {f : List Nat} {a a' : Nat} (h : Renum f a a') (ha : a ∈ f) : f[a']? = some a := by
  rcases h with h | ⟨h, _⟩
  · exact h
  · exact absurd ha h

theorem Renum.lt_iff {f : List Nat} {a a' : Nat} (h : Renum f a a') (hs : f.length ≤ UINT_MAX) :
    a' < f.length ↔ a ∈ f := by
  rcases h with h | ⟨h, rfl⟩
  · exact ⟨fun _ => List.mem_of_getElem? h, fun _ => (List.getElem?_eq_some_iff.1 h).1⟩
  · exact ⟨fun h' => by omega, fun h' => absurd h' h⟩

theorem InverseOf.vat {f o : List Nat} {n a : Nat} (h : InverseOf f n o) (ha : a < n) :
    ∃ a', vat o a = ok a' ∧ Renum f a a' := by
  by_cases hf : a ∈ f
  · obtain ⟨i, hi, rfl⟩ := List.mem_iff_getElem.1 hf
    exact ⟨i, vat_of_getElem? (h.selected i _ (List.getElem?_eq_getElem hi)),
      Or.inl (List.getElem?_eq_getElem hi)⟩
  · exact ⟨UINT_MAX, vat_of_getElem? (h.others a ha hf), Or.inr ⟨hf, rfl⟩⟩

/-- A loop of calls that all succeed. -/
theorem mapRes_forall₂ {β γ : Type} {f : β → Res γ} {R : β → γ → Prop} {l : List β}
    (h : ∀ b ∈ l, ∃ c, f b = ok c ∧ R b c) : ∃ cs, mapRes f l = ok cs ∧ List.Forall₂ R l cs := by
  induction l with
  | nil => exact ⟨[], rfl, .nil⟩
  | cons b l ih =>
    obtain ⟨c, hc, hr⟩ := h b (by simp)
    obtain ⟨cs, hcs, hrs⟩ := ih fun b' hb => h b' (by simp [hb])
    exact ⟨c :: cs, by simp [mapRes, hc, hcs], .cons hr hrs⟩

theorem forall₂_getElem? {β γ : Type} {R : β → γ → Prop} {l : List β} {l' : List γ}
    (h : List.Forall₂ R l l') {i : Nat} {b : β} (hb : l[i]? = some b) : ∃ c, l'[i]? = some c ∧ R b c := by
  induction h generalizing i with
  | nil => simp at hb
  | cons hr _ ih =>
    cases i with
    | zero =>
      simp only [List.getElem?_cons_zero, Option.some.injEq] at hb
      subst hb
      exact ⟨_, rfl, hr⟩
    | succ i => simpa using ih (by simpa using hb)

theorem forall₂_mem {β γ : Type} {R : β → γ → Prop} {l : List β} {l' : List γ}
    (h : List.Forall₂ R l l') {c : γ} (hc : c ∈ l') : ∃ b, b ∈ l ∧ R b c := by
  induction h with
  | nil => simp at hc
  | cons hr _ ih =>
    rcases List.mem_cons.1 hc with rfl | hc
    · exact ⟨_, by simp, hr⟩
    · obtain ⟨b, hb, h⟩ := ih hc
      exact ⟨b, by simp [hb], h⟩

namespace Mesh

variable {α : Type}

theorem extractLoop_take {β : Type} {f : List Nat} {n : Nat} {read : Nat → Res β} {R : Nat → β → Prop}
    (hn : f.Nodup) (hr : ∀ x ∈ f, x < n) (h : ∀ x ∈ f, ∃ b, read x = ok b ∧ R x b) (k : Nat)
    (hk : k ≤ f.length) :
    ∃ o bs, foldRes (fun (s : List Nat × List Nat × List β) v => do
        let old ← vget f v
        let n2o ← vset s.1 v old
        let o2n ← vset s.2.1 old v
        let b ← read old
        ok (n2o, o2n, s.2.2 ++ [b]))
        (List.replicate f.length UINT_MAX, List.replicate n UINT_MAX, []) (List.range k) =
          ok (f.take k ++ List.replicate (f.length - k) UINT_MAX, o, bs) ∧
        InverseOf (f.take k) n o ∧ List.Forall₂ R (f.take k) bs := by
  induction k with
  | zero =>
    refine ⟨List.replicate n UINT_MAX, [], by simp, ⟨by simp, by simp, ?_⟩, by simp⟩
    intro x hx _
    simp [hx]
  | succ k ih =>
    obtain ⟨o, bs, h1, h2, h3⟩ := ih (by omega)
    have hk' : k < f.length := by omega
    have hm : f[k] ∈ f := List.getElem_mem _
    obtain ⟨b, hb, hR⟩ := h _ hm
    have hlo : f[k] < o.length := by rw [h2.length]; exact hr _ hm
    have e : f.take (k + 1) = f.take k ++ [f[k]] := by
      rw [List.take_add_one, List.getElem?_eq_getElem hk']; rfl
    have hnot : f[k] ∉ f.take k := by
      intro h'
      have hn' : (f.take k ++ [f[k]]).Nodup := by
        rw [← e]; exact (List.take_sublist _ _).nodup hn
      exact (List.nodup_append.1 hn').2.2 _ h' _ (by simp) rfl
    refine ⟨o.set f[k] k, bs ++ [b], ?_, ⟨by simp [h2.length], ?_, ?_⟩, ?_⟩
    · rw [List.range_succ, foldRes_append, h1]
      simp only [ok_bind, foldRes_cons, foldRes_nil]
      have hv : vset (List.take k f ++ List.replicate (f.length - k) UINT_MAX) k f[k] =
          ok ((List.take k f ++ List.replicate (f.length - k) UINT_MAX).set k f[k]) :=
        vset_of_lt _ (by simp; omega)
      have hw : vset o f[k] k = ok (o.set f[k] k) := vset_of_lt _ hlo
      simp only [vget_of_lt hk', ok_bind, hv, hw, hb]
      congr 2
      have hl : (f.take k).length = k := by simp; omega
      obtain ⟨j, hj⟩ : ∃ j, f.length - k = j + 1 := ⟨f.length - k - 1, by omega⟩
      rw [List.set_append_right _ _ (by omega), hl, Nat.sub_self, hj, List.replicate_succ,
        List.set_cons_zero, show f.length - (k + 1) = j by omega, e, List.append_assoc]
      rfl
    · intro i x hx
      rw [e] at hx
      by_cases hi : i < k
      · rw [List.getElem?_append_left (by simp; omega)] at hx
        have hne : f[k] ≠ x := by
          rintro rfl
          exact hnot (List.mem_of_getElem? hx)
        rw [List.getElem?_set_ne hne]
        exact h2.selected i x hx
      · have hik : i = k := by
          have := (List.getElem?_eq_some_iff.1 hx).1
          simp at this
          omega
        subst hik
        have : f[i] = x := by
          rw [List.getElem?_append_right (by simp)] at hx
          simpa [Nat.min_eq_left hk'.le] using hx
        subst this
        simp [hlo]
    · intro x hx hxn
      rw [e] at hxn
      simp only [List.mem_append, List.mem_singleton, not_or] at hxn
      rw [List.getElem?_set_ne (fun h => hxn.2 h.symm)]
      exact h2.others x hx hxn.1
    · rw [e]
      exact List.rel_append h3 (.cons hR .nil)

/-- The loop over the selected cells returns the selected cells, their inverse and the data of every
selected cell. -/
theorem extractLoop_eq {β : Type} {f : List Nat} {n : Nat} {read : Nat → Res β} (R : Nat → β → Prop)
    (hn : f.Nodup) (hr : ∀ x ∈ f, x < n) (h : ∀ x ∈ f, ∃ b, read x = ok b ∧ R x b) :
    ∃ o bs, extractLoop f n read = ok (f, o, bs) ∧ InverseOf f n o ∧ List.Forall₂ R f bs := by
  obtain ⟨o, bs, h1, h2, h3⟩ := extractLoop_take hn hr h f.length (Nat.le_refl _)
  simp only [List.take_length, Nat.sub_self, List.replicate_zero, List.append_nil] at h1 h2 h3
  exact ⟨o, bs, h1, h2, h3⟩

variable {m : Mesh α}

theorem row_exists (h : m.WF) (l : Lst) {i : Nat} (hi : i < m.num l.owner) : ∃ r, m.row l i = ok r := by
  have := (c02_getters_defined m h).2.2.2.2.2.2.1 l i
  rw [if_pos hi] at this
  obtain ⟨_, _, ⟨r, hr, _⟩, _⟩ := this
  exact ⟨r, hr⟩

theorem coordinates_exists (h : m.WF) {i : Nat} (hi : i < m.num .d0) : ∃ c, m.coordinates i = ok c := by
  have := (c02_getters_defined m h).1 i
  rwa [if_pos hi] at this

theorem extremes_exists (h : m.WF) {i : Nat} (hi : i < m.num .d1) : ∃ c, m.extremes i = ok c := by
  have := (c02_getters_defined m h).2.1 i
  rwa [if_pos hi] at this

/-- What the loops know about a point, an edge, a polygon and a polyhedron. -/
def PointData (m : Mesh α) (x : Nat) (p : V3 α) : Prop := m.coordinates x = ok (p.x, p.y, p.z)

def EdgeData (m : Mesh α) (f0 : List Nat) (x : Nat) (e : Nat × Nat) : Prop :=
  ∃ a b, m.extremes x = ok (a, b) ∧ Renum f0 a e.1 ∧ Renum f0 b e.2

def RowData (m : Mesh α) (l : Lst) (f : List Nat) (x : Nat) (r' : List Nat) : Prop :=
  ∃ r, m.row l x = ok r ∧ List.Forall₂ (Renum f) r r'

def PolygonData (m : Mesh α) (f0 f1 : List Nat) (x : Nat) (p : List (Nat × Nat)) : Prop :=
  m.RowData .vert2 f0 x (p.map Prod.fst) ∧ m.RowData .edge2 f1 x (p.map Prod.snd)

def PolyhedronData (m : Mesh α) (f0 f1 f2 : List Nat) (x : Nat) (c : Polyhedron) : Prop :=
  m.RowData .vert3 f0 x c.verts ∧ m.RowData .edge3 f1 x c.edges ∧ m.RowData .face3 f2 x c.faces

theorem readPoint_eq (h : m.WF) {x : Nat} (hx : x < m.num .d0) :
    ∃ p, m.readPoint x = ok p ∧ m.PointData x p := by
  obtain ⟨c, hc⟩ := coordinates_exists h hx
  exact ⟨⟨c.1, c.2.1, c.2.2⟩, by simp [readPoint, hc], by simp [PointData, hc]⟩

theorem readEdge_eq (h : m.WF) {x : Nat} (hx : x < m.num .d1) {f0 o0 : List Nat}
    (ho : InverseOf f0 (m.num .d0) o0)
    (he : ∀ a b, m.extremes x = ok (a, b) → a < m.num .d0 ∧ b < m.num .d0) :
    ∃ e, m.readEdge o0 x = ok e ∧ m.EdgeData f0 x e := by
  obtain ⟨⟨a, b⟩, hc⟩ := extremes_exists h hx
  obtain ⟨a', ha, ra⟩ := ho.vat (he a b hc).1
  obtain ⟨b', hb, rb⟩ := ho.vat (he a b hc).2
  exact ⟨(a', b'), by simp [readEdge, hc, ha, hb], a, b, hc, ra, rb⟩

theorem mapVat_eq {f o r : List Nat} {n : Nat} (ho : InverseOf f n o) (hr : ∀ y ∈ r, y < n) :
    ∃ r', mapRes (vat o) r = ok r' ∧ List.Forall₂ (Renum f) r r' :=
  mapRes_forall₂ fun y hy => ho.vat (hr y hy)

theorem mapVatZip_eq {f0 f1 o0 o1 : List Nat} {n0 n1 : Nat} (h0 : InverseOf f0 n0 o0)
    (h1 : InverseOf f1 n1 o1) {r s : List Nat} (hl : r.length = s.length) (hr : ∀ y ∈ r, y < n0)
    (hs : ∀ y ∈ s, y < n1) :
    ∃ ps, mapRes (fun p : Nat × Nat => do
        let a ← vat o0 p.1
        let b ← vat o1 p.2
        ok (a, b)) (r.zip s) = ok ps ∧
      List.Forall₂ (Renum f0) r (ps.map Prod.fst) ∧ List.Forall₂ (Renum f1) s (ps.map Prod.snd) := by
  induction r generalizing s with
  | nil =>
    obtain rfl : s = [] := List.eq_nil_of_length_eq_zero hl.symm
    exact ⟨[], rfl, .nil, .nil⟩
  | cons a r ih =>
    obtain ⟨b, s, rfl⟩ : ∃ b t, s = b :: t := by
      cases s with
      | nil => simp at hl
      | cons b t => exact ⟨b, t, rfl⟩
    obtain ⟨a', ha, ra⟩ := h0.vat (hr a (by simp))
    obtain ⟨b', hb, rb⟩ := h1.vat (hs b (by simp))
    obtain ⟨ps, e, e1, e2⟩ := ih (by simpa using hl) (fun y hy => hr y (by simp [hy]))
      (fun y hy => hs y (by simp [hy]))
    exact ⟨(a', b') :: ps, by simp [mapRes, ha, hb, e], .cons ra e1, .cons rb e2⟩

theorem readPolygon_eq (h : m.WF) {x : Nat} (hx : x < m.num .d2) {f0 f1 o0 o1 : List Nat}
    (h0 : InverseOf f0 (m.num .d0) o0) (h1 : InverseOf f1 (m.num .d1) o1)
    (hv : ∀ r, m.row .vert2 x = ok r → ∀ y ∈ r, y < m.num .d0)
    (he : ∀ r, m.row .edge2 x = ok r → ∀ y ∈ r, y < m.num .d1)
    (hl : ∀ r r', m.row .vert2 x = ok r → m.row .edge2 x = ok r' → r.length = r'.length) :
    ∃ p, m.readPolygon o0 o1 x = ok p ∧ m.PolygonData f0 f1 x p := by
  obtain ⟨r, hr⟩ := row_exists h .vert2 (i := x) hx
  obtain ⟨s, hs⟩ := row_exists h .edge2 (i := x) hx
  obtain ⟨ps, e, e1, e2⟩ := mapVatZip_eq h0 h1 (hl r s hr hs) (hv r hr) (he s hs)
  refine ⟨ps, ?_, ⟨r, hr, e1⟩, ⟨s, hs, e2⟩⟩
  unfold readPolygon
  rw [hr, ok_bind, hs, ok_bind, assert_true (hl r s hr hs), ok_bind, e]

theorem readPolyhedron_eq (h : m.WF) {x : Nat} (hx : x < m.num .d3) {f0 f1 f2 o0 o1 o2 : List Nat}
    (h0 : InverseOf f0 (m.num .d0) o0) (h1 : InverseOf f1 (m.num .d1) o1)
    (h2 : InverseOf f2 (m.num .d2) o2)
    (hv : ∀ r, m.row .vert3 x = ok r → ∀ y ∈ r, y < m.num .d0)
    (he : ∀ r, m.row .edge3 x = ok r → ∀ y ∈ r, y < m.num .d1)
    (hf : ∀ r, m.row .face3 x = ok r → ∀ y ∈ r, y < m.num .d2) :
    ∃ p, m.readPolyhedron o0 o1 o2 x = ok p ∧ m.PolyhedronData f0 f1 f2 x p := by
  obtain ⟨r, hr⟩ := row_exists h .vert3 (i := x) hx
  obtain ⟨s, hs⟩ := row_exists h .edge3 (i := x) hx
  obtain ⟨t, ht⟩ := row_exists h .face3 (i := x) hx
  obtain ⟨r', er, fr⟩ := mapVat_eq h0 (hv r hr)
  obtain ⟨s', es, fs⟩ := mapVat_eq h1 (he s hs)
  obtain ⟨t', et, ft⟩ := mapVat_eq h2 (hf t ht)
  exact ⟨⟨r', s', t'⟩, by simp [readPolyhedron, hr, hs, ht, er, es, et], ⟨r, hr, fr⟩, ⟨s, hs, fs⟩, t, ht, ft⟩

/-- The mesh with other markers and states for the cells of one dimension. -/
def withMarks (m : Mesh α) (d : Dim) (ms : List Nat) (as : List Bool) : Mesh α :=
  { m with mark := fset m.mark d ms, act := fset m.act d as }

theorem withMarks_wf (h : m.WF) {d : Dim} {ms : List Nat} {as : List Bool} (h1 : ms.length = m.num d)
    (h2 : as.length = m.num d) : (m.withMarks d ms as).WF :=
  { h with
    mark := fun e => by
      by_cases he : e = d
      · subst he; simp [withMarks, fset, h1]
      · simp [withMarks, fset, he, h.mark e]
    act := fun e => by
      by_cases he : e = d
      · subst he; simp [withMarks, fset, h2]
      · simp [withMarks, fset, he, h.act e] }

theorem setMark_of {d : Dim} {i a : Nat} (hi : i < m.num d) (hl : i < (m.mark d).length) :
    m.setMark d i a = ok { m with mark := fset m.mark d ((m.mark d).set i a) } := by
  unfold setMark
  rw [assert_true hi, ok_bind, vset_of_lt _ hl]
  rfl

theorem setAct_of {d : Dim} {i : Nat} {a : Bool} (hi : i < m.num d) (hl : i < (m.act d).length) :
    m.setAct d i a = ok { m with act := fset m.act d ((m.act d).set i a) } := by
  unfold setAct
  rw [assert_true hi, ok_bind, vset_of_lt _ hl]
  rfl

theorem copyMarks_eq {m' : Mesh α} (h : m.WF) (h' : m'.WF) {d : Dim} {f : List Nat}
    (hf : ∀ x ∈ f, x < m.num d) (hn : m'.num d = f.length) :
    ∃ ms as, m.copyMarks d f m' = ok (m'.withMarks d ms as) ∧ ms.length = f.length ∧
      as.length = f.length ∧
      ∀ i x : Nat, f[i]? = some x → ∃ k a, m.marker d x = ok k ∧ m.active d x = ok a ∧
        ms[i]? = some k ∧ as[i]? = some a := by
  have hl : ((m'.mark d).zip (m'.act d)).length = f.length := by
    simp [h'.mark d, h'.act d, hn]
  have e0 : (m'.withMarks d (((m'.mark d).zip (m'.act d)).map Prod.fst)
      (((m'.mark d).zip (m'.act d)).map Prod.snd)) = m' := by
    rw [List.map_fst_zip (by rw [h'.mark d, h'.act d]), List.map_snd_zip (by rw [h'.mark d, h'.act d])]
    unfold withMarks
    congr 1 <;> (funext e; by_cases he : e = d <;> simp [fset, he])
  have hmark : ∀ x ∈ f, m.marker d x = ok ((m.mark d)[x]?.getD 0) := by
    intro x hx
    have hx' := hf x hx
    unfold marker
    rw [assert_true hx', ok_bind, vget_of_lt (by rw [h.mark d]; exact hx'),
      List.getElem?_eq_getElem (by rw [h.mark d]; exact hx')]
    rfl
  have hact : ∀ x ∈ f, m.active d x = ok ((m.act d)[x]?.getD false) := by
    intro x hx
    have hx' := hf x hx
    unfold active
    rw [assert_true hx', ok_bind, vget_of_lt (by rw [h.act d]; exact hx'),
      List.getElem?_eq_getElem (by rw [h.act d]; exact hx')]
    rfl
  have key := foldRange (σ := Mesh α) (fun s v => do
      let old ← vget f v
      let k ← m.marker d old
      let s ← s.setMark d v k
      let a ← m.active d old
      s.setAct d v a)
    (fun cs => m'.withMarks d (cs.map Prod.fst) (cs.map Prod.snd))
    (fun i _ => ((m.mark d)[f[i]?.getD 0]?.getD 0, (m.act d)[f[i]?.getD 0]?.getD false))
    ((m'.mark d).zip (m'.act d)) (by
      intro cs i b hi hcl _ hb
      rw [hl] at hi
      have hmem : f[i] ∈ f := List.getElem_mem _
      have hic : i < cs.length := by omega
      simp only [vget_of_lt hi, ok_bind, hmark _ hmem, hact _ hmem]
      have e1 : (m'.withMarks d (cs.map Prod.fst) (cs.map Prod.snd)).setMark d i
          ((m.mark d)[f[i]]?.getD 0) =
          ok (m'.withMarks d ((cs.map Prod.fst).set i ((m.mark d)[f[i]]?.getD 0)) (cs.map Prod.snd)) := by
        rw [setMark_of (by show i < m'.num d; omega) (by simpa [withMarks, fset] using hic)]
        simp only [withMarks, fset, if_true]
        congr 2
        funext e
        by_cases he : e = d <;> simp [fset, he]
      rw [e1, ok_bind]
      rw [setAct_of (by show i < m'.num d; omega) (by simpa [withMarks, fset] using hic)]
      simp only [withMarks, fset, if_true, List.getElem?_eq_getElem hi, Option.getD_some, List.map_set]
      congr 2
      funext e
      by_cases he : e = d <;> simp [fset, he])
  rw [e0, hl] at key
  refine ⟨_, _, key, by simp [h'.mark d, h'.act d, hn], by simp [h'.mark d, h'.act d, hn], ?_⟩
  intro i x hx
  have hi := (List.getElem?_eq_some_iff.1 hx).1
  have hm : x ∈ f := List.mem_of_getElem? hx
  refine ⟨_, _, hmark x hm, hact x hm, ?_, ?_⟩
  · rw [List.getElem?_map, List.getElem?_mapIdx,
      List.getElem?_eq_getElem (l := (m'.mark d).zip (m'.act d)) (i := i) (by omega)]
    simp [hx]
  · rw [List.getElem?_map, List.getElem?_mapIdx,
      List.getElem?_eq_getElem (l := (m'.mark d).zip (m'.act d)) (i := i) (by omega)]
    simp [hx]

/-- A row of selected cells. -/
theorem rowData_mem {l : Lst} {f : List Nat} {x : Nat} {r' : List Nat} (h : m.RowData l f x r')
    (hc : ∀ r, m.row l x = ok r → ∀ y ∈ r, y ∈ f) :
    ∃ r, m.row l x = ok r ∧ r'.map (fun y => f[y]?) = r.map some := by
  obtain ⟨r, hr, h2⟩ := h
  refine ⟨r, hr, ?_⟩
  have hc := hc r hr
  clear hr
  induction h2 with
  | nil => rfl
  | cons hab _ ih =>
    simp only [List.map_cons]
    rw [hab.of_mem (hc _ (by simp)), ih fun y hy => hc y (by simp [hy])]

/-- The new numbers are in range exactly when the row has selected cells only. -/
theorem rowData_range {l : Lst} {f : List Nat} {x : Nat} {r' : List Nat} (h : m.RowData l f x r')
    (hs : f.length ≤ UINT_MAX) :
    (∀ y ∈ r', y < f.length) ↔ ∀ r, m.row l x = ok r → ∀ y ∈ r, y ∈ f := by
  obtain ⟨r, hr, h2⟩ := h
  have : (∀ r, m.row l x = ok r → ∀ y ∈ r, y ∈ f) ↔ ∀ y ∈ r, y ∈ f := by
    constructor
    · exact fun h => h r hr
    · intro h r₁ hr₁
      rw [hr] at hr₁
      cases hr₁
      exact h
  rw [this]
  clear hr this
  induction h2 with
  | nil => simp
  | cons hab _ ih => simp only [List.mem_cons, forall_eq_or_imp]; rw [hab.lt_iff hs]; exact and_congr_right fun _ => ih

/-- The collected data of all selected cells. -/
structure Collected (m : Mesh α) (f : Dim → List Nat) (ps : List (V3 α)) (es : List (Nat × Nat))
    (fs : List (List (Nat × Nat))) (cs : List Polyhedron) : Prop where
  points : List.Forall₂ m.PointData (f .d0) ps
  edges : List.Forall₂ (m.EdgeData (f .d0)) (f .d1) es
  polygons : List.Forall₂ (m.PolygonData (f .d0) (f .d1)) (f .d2) fs
  polyhedra : List.Forall₂ (m.PolyhedronData (f .d0) (f .d1) (f .d2)) (f .d3) cs

variable {f : Dim → List Nat} {ps : List (V3 α)} {es : List (Nat × Nat)} {fs : List (List (Nat × Nat))}
  {cs : List Polyhedron}

theorem forall₂_range {β γ : Type} {R : β → γ → Prop} {l : List β} {l' : List γ} {P : β → Prop}
    {Q : γ → Prop} (h : List.Forall₂ R l l') (hpq : ∀ b c, b ∈ l → R b c → (Q c ↔ P b)) :
    (∀ c ∈ l', Q c) ↔ ∀ b ∈ l, P b := by
  induction h with
  | nil => simp
  | cons hr _ ih =>
    simp only [List.mem_cons, forall_eq_or_imp]
    rw [hpq _ _ (by simp) hr, ih fun b c hb => hpq b c (by simp [hb])]

/-- The collected data are in range exactly when the selection is closed. -/
theorem Collected.range_iff (h : m.Collected f ps es fs cs) (hs : ∀ d, (f d).length ≤ UINT_MAX) :
    (EdgesInRange ps.length es ∧ RowsInRange ps.length (fs.map (·.map Prod.fst)) ∧
      RowsInRange es.length (fs.map (·.map Prod.snd)) ∧ RowsInRange ps.length (cs.map (·.verts)) ∧
      RowsInRange es.length (cs.map (·.edges)) ∧ RowsInRange fs.length (cs.map (·.faces))) ↔
    m.ClosedFilter f := by
  have l0 : ps.length = (f .d0).length := h.points.length_eq.symm
  have l1 : es.length = (f .d1).length := h.edges.length_eq.symm
  have l2 : fs.length = (f .d2).length := h.polygons.length_eq.symm
  rw [l0, l1, l2]
  have k1 : EdgesInRange (f .d0).length es ↔
      ∀ x ∈ f .d1, ∀ a b, m.extremes x = ok (a, b) → a ∈ f .d0 ∧ b ∈ f .d0 := by
    refine forall₂_range h.edges ?_
    rintro x e _ ⟨a, b, hx, ha, hb⟩
    rw [ha.lt_iff (hs _), hb.lt_iff (hs _)]
    constructor
    · intro h' a' b' hx'
      rw [hx] at hx'
      cases hx'
      exact h'
    · exact fun h' => h' a b hx
  have k2 : RowsInRange (f .d0).length (fs.map (·.map Prod.fst)) ↔
      ∀ x ∈ f .d2, ∀ r, m.row .vert2 x = ok r → ∀ y ∈ r, y ∈ f .d0 := by
    unfold RowsInRange
    rw [List.forall_mem_map]
    exact forall₂_range h.polygons fun x p _ hp => rowData_range hp.1 (hs _)
  have k3 : RowsInRange (f .d1).length (fs.map (·.map Prod.snd)) ↔
      ∀ x ∈ f .d2, ∀ r, m.row .edge2 x = ok r → ∀ y ∈ r, y ∈ f .d1 := by
    unfold RowsInRange
    rw [List.forall_mem_map]
    exact forall₂_range h.polygons fun x p _ hp => rowData_range hp.2 (hs _)
  have k4 : RowsInRange (f .d0).length (cs.map (·.verts)) ↔
      ∀ x ∈ f .d3, ∀ r, m.row .vert3 x = ok r → ∀ y ∈ r, y ∈ f .d0 := by
    unfold RowsInRange
    rw [List.forall_mem_map]
    exact forall₂_range h.polyhedra fun x p _ hp => rowData_range hp.1 (hs _)
  have k5 : RowsInRange (f .d1).length (cs.map (·.edges)) ↔
      ∀ x ∈ f .d3, ∀ r, m.row .edge3 x = ok r → ∀ y ∈ r, y ∈ f .d1 := by
    unfold RowsInRange
    rw [List.forall_mem_map]
    exact forall₂_range h.polyhedra fun x p _ hp => rowData_range hp.2.1 (hs _)
  have k6 : RowsInRange (f .d2).length (cs.map (·.faces)) ↔
      ∀ x ∈ f .d3, ∀ r, m.row .face3 x = ok r → ∀ y ∈ r, y ∈ f .d2 := by
    unfold RowsInRange
    rw [List.forall_mem_map]
    exact forall₂_range h.polyhedra fun x p _ hp => rowData_range hp.2.2 (hs _)
  rw [k1, k2, k3, k4, k5, k6]
  constructor
  · rintro ⟨h1, h2, h3, h4, h5, h6⟩
    refine ⟨h1, ?_⟩
    intro l hl
    cases l <;> first | assumption | simp [Lst.isKept] at hl
  · intro hc
    exact ⟨hc.extremes, hc.rows .vert2 rfl, hc.rows .edge2 rfl, hc.rows .vert3 rfl, hc.rows .edge3 rfl,
      hc.rows .face3 rfl⟩

/-- A mesh that stores the collected data is the restriction. -/
theorem Collected.extracted (h : m.Collected f ps es fs cs) (hc : m.ClosedFilter f) {m' : Mesh α}
    (h0 : m'.ReportsPoints ps) (h1 : m'.ReportsEdges es)
    (h2 : m'.ReportsPolygons (fs.map (·.map Prod.fst)) (fs.map (·.map Prod.snd)))
    (h3 : m'.ReportsPolyhedra cs) (hp : m'.Plain) : m.Extracted f m' := by
  refine ⟨?_, ?_, ?_, ?_, hp⟩
  · intro d
    cases d
    · rw [h0.1, h.points.length_eq]
    · rw [h1.1, h.edges.length_eq]
    · rw [h2.1, List.length_map, h.polygons.length_eq]
    · rw [h3.1, h.polyhedra.length_eq]
  · intro i x hx
    obtain ⟨p, hp, hd⟩ := forall₂_getElem? h.points hx
    rw [h0.2 i p hp, hd]
  · intro i x hx
    obtain ⟨e, he, a, b, hx', ha, hb⟩ := forall₂_getElem? h.edges hx
    obtain ⟨ma, mb⟩ := hc.extremes x (List.mem_of_getElem? hx) a b hx'
    exact ⟨a, b, e.1, e.2, hx', h1.2 i e he, ha.of_mem ma, hb.of_mem mb⟩
  · intro l hl i x hx
    have hm := List.mem_of_getElem? hx
    have hcl := hc.rows l hl x hm
    cases l <;> first | simp [Lst.isKept] at hl | skip
    · obtain ⟨p, hp, hd, _⟩ := forall₂_getElem? h.polygons hx
      obtain ⟨r, hr, e⟩ := rowData_mem hd hcl
      exact ⟨r, _, hr, h2.2.2.1 i _ (by simp [hp]), e⟩
    · obtain ⟨p, hp, _, hd⟩ := forall₂_getElem? h.polygons hx
      obtain ⟨r, hr, e⟩ := rowData_mem hd hcl
      exact ⟨r, _, hr, h2.2.2.2 i _ (by simp [hp]), e⟩
    · obtain ⟨p, hp, hd, _⟩ := forall₂_getElem? h.polyhedra hx
      obtain ⟨r, hr, e⟩ := rowData_mem hd hcl
      exact ⟨r, _, hr, (h3.2 i p hp).1, e⟩
    · obtain ⟨p, hp, _, hd, _⟩ := forall₂_getElem? h.polyhedra hx
      obtain ⟨r, hr, e⟩ := rowData_mem hd hcl
      exact ⟨r, _, hr, (h3.2 i p hp).2.1, e⟩
    · obtain ⟨p, hp, _, _, hd⟩ := forall₂_getElem? h.polyhedra hx
      obtain ⟨r, hr, e⟩ := rowData_mem hd hcl
      exact ⟨r, _, hr, (h3.2 i p hp).2.2, e⟩

theorem Extracted.withMarks {m' : Mesh α} (h : m.Extracted f m') (d : Dim) (ms : List Nat)
    (as : List Bool) : m.Extracted f (m'.withMarks d ms as) where
  num := h.num
  coordinates := h.coordinates
  extremes := h.extremes
  rows := h.rows
  plain := ⟨h.plain.neighbours, h.plain.original, h.plain.updated, h.plain.properties⟩

theorem marker_withMarks_same {m' : Mesh α} {d : Dim} {ms : List Nat} {as : List Bool} {i k : Nat}
    (hi : i < m'.num d) (h : ms[i]? = some k) : (m'.withMarks d ms as).marker d i = ok k := by
  unfold marker
  rw [assert_true (show i < (m'.withMarks d ms as).num d from hi), ok_bind]
  simpa [Mesh.withMarks, fset, vget_eq_ok] using h

theorem active_withMarks_same {m' : Mesh α} {d : Dim} {ms : List Nat} {as : List Bool} {i : Nat}
    {a : Bool} (hi : i < m'.num d) (h : as[i]? = some a) :
    (m'.withMarks d ms as).active d i = ok a := by
  unfold active
  rw [assert_true (show i < (m'.withMarks d ms as).num d from hi), ok_bind]
  simpa [Mesh.withMarks, fset, vget_eq_ok] using h

theorem marker_withMarks_ne {m' : Mesh α} {d e : Dim} {ms : List Nat} {as : List Bool} {i : Nat}
    (he : e ≠ d) : (m'.withMarks d ms as).marker e i = m'.marker e i := by
  have e1 : (m'.withMarks d ms as).mark e = m'.mark e := by simp [Mesh.withMarks, fset, he]
  unfold marker
  rw [e1]
  rfl

theorem active_withMarks_ne {m' : Mesh α} {d e : Dim} {ms : List Nat} {as : List Bool} {i : Nat}
    (he : e ≠ d) : (m'.withMarks d ms as).active e i = m'.active e i := by
  have e1 : (m'.withMarks d ms as).act e = m'.act e := by simp [Mesh.withMarks, fset, he]
  unfold active
  rw [e1]
  rfl

/-- Copying the markers and states of one dimension. -/
theorem copyMarks_extracted {m' : Mesh α} (h : m.WF) (h' : m'.WF) (hv : ∀ x ∈ f d, x < m.num d)
    (hx : m.Extracted f m') :
    ∃ m'', m.copyMarks d (f d) m' = ok m'' ∧ m''.WF ∧ m''.dimension = m'.dimension ∧ m.Extracted f m'' ∧
      (∀ i x : Nat, (f d)[i]? = some x → m''.marker d i = m.marker d x ∧ m''.active d i = m.active d x) ∧
      ∀ e, e ≠ d → ∀ i, m''.marker e i = m'.marker e i ∧ m''.active e i = m'.active e i := by
  obtain ⟨ms, as, e, l1, l2, hr⟩ := copyMarks_eq h h' hv (hx.num d)
  refine ⟨_, e, withMarks_wf h' (by rw [l1, hx.num]) (by rw [l2, hx.num]), rfl, hx.withMarks d ms as, ?_, ?_⟩
  · intro i x hi
    obtain ⟨k, a, e1, e2, e3, e4⟩ := hr i x hi
    have hlt : i < m'.num d := by rw [hx.num]; exact (List.getElem?_eq_some_iff.1 hi).1
    rw [marker_withMarks_same hlt e3, active_withMarks_same hlt e4, e1, e2]
    exact ⟨rfl, rfl⟩
  · intro e he i
    exact ⟨marker_withMarks_ne he, active_withMarks_ne he⟩

end Mesh
end Verif
