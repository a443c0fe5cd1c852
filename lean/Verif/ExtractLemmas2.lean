import Verif.ExtractLemmas
import Verif.PolygonLemmas

/-
The filters, and the extraction as a whole.
-/
namespace Verif

open Res

/-! ### Sets as sorted lists -/

theorem mem_sortedInsert {x y : Nat} {s : List Nat} : y ∈ sortedInsert x s ↔ y = x ∨ y ∈ s := by
  induction s with
  | nil => simp [sortedInsert]
  | cons z s ih =>
    simp only [sortedInsert]
    split
    · simp
    · split
      · rename_i h; subst h; simp
      · simp only [List.mem_cons, ih]
        tauto

theorem sorted_sortedInsert {x : Nat} {s : List Nat} (h : s.Pairwise (· < ·)) :
    (sortedInsert x s).Pairwise (· < ·) := by
  induction s with
  | nil => simp [sortedInsert]
  | cons z s ih =>
    simp only [sortedInsert]
    obtain ⟨h1, h2⟩ := List.pairwise_cons.1 h
    split
    · rename_i hx
      refine List.pairwise_cons.2 ⟨?_, h⟩
      intro y hy
      rcases List.mem_cons.1 hy with rfl | hy
      · exact hx
      · exact Nat.lt_trans hx (h1 y hy)
    · split
      · exact h
      · refine List.pairwise_cons.2 ⟨?_, ih h2⟩
        intro y hy
        rcases mem_sortedInsert.1 hy with rfl | hy
        · omega
        · exact h1 y hy

namespace Mesh

theorem Lists.congr {s : List Nat} {p q : Nat → Prop} (h : Lists s p) (hpq : ∀ x, p x ↔ q x) : Lists s q :=
  ⟨h.1, fun x => (h.2 x).trans (hpq x)⟩

theorem Lists.insert {s : List Nat} {p : Nat → Prop} (h : Lists s p) (x : Nat) :
    Lists (sortedInsert x s) (fun y => p y ∨ y = x) :=
  ⟨sorted_sortedInsert h.1, fun y => by rw [mem_sortedInsert, h.2 y, or_comm]⟩

theorem Lists.insertAll {s : List Nat} {p : Nat → Prop} (h : Lists s p) (r : List Nat) :
    Lists (r.foldl (fun s x => sortedInsert x s) s) (fun y => p y ∨ y ∈ r) := by
  induction r generalizing s p with
  | nil => exact h.congr (by simp)
  | cons x r ih =>
    refine (ih (h.insert x)).congr fun y => ?_
    simp only [List.mem_cons]
    tauto

end Mesh

theorem foldRes_inv {σ β : Type} {f : σ → β → Res σ} (I : List β → σ → Prop) (xs : List β) (s : σ)
    (h0 : I [] s)
    (hstep : ∀ pre x t, x ∈ xs → I pre t → ∃ t', f t x = ok t' ∧ I (pre ++ [x]) t') :
    ∃ t, foldRes f s xs = ok t ∧ I xs t := by
  have gen : ∀ (ys pre : List β) (t : σ), (∀ y ∈ ys, y ∈ xs) → I pre t →
      ∃ t', foldRes f t ys = ok t' ∧ I (pre ++ ys) t' := by
    intro ys
    induction ys with
    | nil => intro pre t _ h; exact ⟨t, rfl, by simpa using h⟩
    | cons y ys ih =>
      intro pre t hy h
      obtain ⟨t', e, h'⟩ := hstep pre y t (hy y (by simp)) h
      obtain ⟨t'', e', h''⟩ := ih (pre ++ [y]) t' (fun z hz => hy z (by simp [hz])) h'
      exact ⟨t'', by rw [foldRes_cons, e, ok_bind, e'], by simpa using h''⟩
  simpa using gen xs [] s (fun _ h => h) h0

namespace Mesh

variable {α : Type} {m : Mesh α}

/-! ### The filters -/

theorem entries_of_row (h : m.WF) {l : Lst} {c : Nat} {r : List Nat} (hr : m.row l c = ok r) :
    m.rowSize l c = ok r.length ∧ ∀ k (hk : k < r.length), m.entry l c k = ok r[k] := by
  obtain ⟨A, hA, rfl⟩ := AMesh.exists_conc h
  have hc : c < A.num l.owner := by
    by_contra hc
    unfold row at hr
    rw [assert_false (show ¬ c < A.conc.num l.owner from hc)] at hr
    cases hr
  obtain ⟨r', hr'⟩ := AMesh.getElem?_row hA hc
  rw [AMesh.row_conc hA hr'] at hr
  cases hr
  refine ⟨AMesh.rowSize_conc hA hr', ?_⟩
  intro k hk
  rw [AMesh.entry_conc hA hr']
  unfold agetD
  rw [List.getElem?_eq_getElem hk]

theorem collectRow_eq (h : m.WF) {l : Lst} {c : Nat} {r : List Nat} (hr : m.row l c = ok r)
    (s : List Nat) : m.collectRow l c s = ok (r.foldl (fun s x => sortedInsert x s) s) := by
  obtain ⟨h1, h2⟩ := entries_of_row h hr
  unfold collectRow
  rw [h1, ok_bind]
  exact foldRes_index r (fun s i hi => by rw [h2 i hi]; rfl) s

/-- Whether a cell is active, as a function. -/
def keeps (m : Mesh α) (d : Dim) (c : Nat) : Bool :=
  match m.active d c with
  | ok b => b
  | _ => false

theorem active_keeps (h : m.WF) {d : Dim} {c : Nat} (hc : c < m.num d) :
    m.active d c = ok (m.keeps d c) := by
  have := (c02_getters_defined m h).2.2.2.1 d c
  rw [if_pos hc] at this
  obtain ⟨a, ha⟩ := this
  unfold keeps
  rw [ha]

/-- A cell of the row of one of the given active cells. -/
def UsedBy (m : Mesh α) (d : Dim) (l : Lst) (cells : List Nat) (x : Nat) : Prop :=
  ∃ c ∈ cells.filter (m.keeps d), ∃ r, m.row l c = ok r ∧ x ∈ r

theorem usedBy_append {d : Dim} {l : Lst} {pre : List Nat} {c x : Nat} :
    m.UsedBy d l (pre ++ [c]) x ↔
      m.UsedBy d l pre x ∨ (m.keeps d c = true ∧ ∃ r, m.row l c = ok r ∧ x ∈ r) := by
  unfold UsedBy
  simp only [List.filter_append, List.mem_append]
  constructor
  · rintro ⟨c', h | h, r, hr, hx⟩
    · exact Or.inl ⟨c', h, r, hr, hx⟩
    · simp only [List.mem_filter, List.mem_singleton] at h
      obtain ⟨rfl, hk⟩ := h
      exact Or.inr ⟨hk, r, hr, hx⟩
  · rintro (⟨c', h, r, hr, hx⟩ | ⟨hk, r, hr, hx⟩)
    · exact ⟨c', Or.inl h, r, hr, hx⟩
    · exact ⟨c, Or.inr (by simp [hk]), r, hr, hx⟩

theorem lists_usedBy_step {d : Dim} {l : Lst} {pre : List Nat} {c : Nat} {s r : List Nat}
    (h : Lists s (m.UsedBy d l pre)) (hk : m.keeps d c = true) (hr : m.row l c = ok r) :
    Lists (r.foldl (fun s x => sortedInsert x s) s) (m.UsedBy d l (pre ++ [c])) := by
  refine (h.insertAll r).congr fun x => ?_
  rw [usedBy_append]
  constructor
  · rintro (h | h)
    · exact Or.inl h
    · exact Or.inr ⟨hk, r, hr, h⟩
  · rintro (h | ⟨_, r', hr', h⟩)
    · exact Or.inl h
    · rw [hr] at hr'
      cases hr'
      exact Or.inr h

theorem lists_usedBy_skip {d : Dim} {l : Lst} {pre : List Nat} {c : Nat} {s : List Nat}
    (h : Lists s (m.UsedBy d l pre)) (hk : m.keeps d c = false) :
    Lists s (m.UsedBy d l (pre ++ [c])) :=
  h.congr fun x => by rw [usedBy_append]; simp [hk]

theorem lists_usedBy_nil {d : Dim} {l : Lst} : Lists [] (m.UsedBy d l []) :=
  ⟨List.Pairwise.nil, by simp [UsedBy]⟩

theorem filterMesh3D_eq (h : m.WF) {cells : List Nat} (hc : ∀ c ∈ cells, c < m.num .d3) :
    ∃ F, m.filterMesh3D cells = ok F ∧ F.c3 = cells.filter (m.keeps .d3) ∧
      Lists F.c0 (m.UsedBy .d3 .vert3 cells) ∧ Lists F.c1 (m.UsedBy .d3 .edge3 cells) ∧
      Lists F.c2 (m.UsedBy .d3 .face3 cells) := by
  unfold filterMesh3D
  refine foldRes_inv (fun pre (F : CellLists) => F.c3 = pre.filter (m.keeps .d3) ∧
      Lists F.c0 (m.UsedBy .d3 .vert3 pre) ∧ Lists F.c1 (m.UsedBy .d3 .edge3 pre) ∧
      Lists F.c2 (m.UsedBy .d3 .face3 pre)) cells _
    ⟨rfl, lists_usedBy_nil, lists_usedBy_nil, lists_usedBy_nil⟩ ?_
  rintro pre c t hm ⟨h3, h0, h1, h2⟩
  have hlt := hc c hm
  rw [active_keeps h hlt, ok_bind]
  by_cases hk : m.keeps .d3 c = true
  · rw [if_pos hk]
    obtain ⟨r, hr⟩ := row_exists h .vert3 (i := c) hlt
    obtain ⟨s, hs⟩ := row_exists h .edge3 (i := c) hlt
    obtain ⟨u, hu⟩ := row_exists h .face3 (i := c) hlt
    rw [collectRow_eq h hr, ok_bind, collectRow_eq h hs, ok_bind, collectRow_eq h hu, ok_bind]
    exact ⟨_, rfl, by simp [h3, hk], lists_usedBy_step h0 hk hr, lists_usedBy_step h1 hk hs,
      lists_usedBy_step h2 hk hu⟩
  · have hk' : m.keeps .d3 c = false := by simpa using hk
    rw [if_neg hk]
    exact ⟨_, rfl, by simp [h3, hk'], lists_usedBy_skip h0 hk', lists_usedBy_skip h1 hk',
      lists_usedBy_skip h2 hk'⟩

theorem foldl_zip_pair {r s : List Nat} (hl : r.length = s.length) (t : List Nat × List Nat) :
    (r.zip s).foldl (fun (t : List Nat × List Nat) p => (sortedInsert p.1 t.1, sortedInsert p.2 t.2)) t =
      (r.foldl (fun s x => sortedInsert x s) t.1, s.foldl (fun s x => sortedInsert x s) t.2) := by
  induction r generalizing s t with
  | nil =>
    obtain rfl : s = [] := List.eq_nil_of_length_eq_zero hl.symm
    rfl
  | cons a r ih =>
    cases s with
    | nil => simp at hl
    | cons b s =>
      simp only [List.zip_cons_cons, List.foldl_cons]
      rw [ih (by simpa using hl)]

theorem filterMesh2D_eq (h : m.WF) {cells : List Nat} (hc : ∀ c ∈ cells, c < m.num .d2)
    (hl : ∀ c ∈ cells, ∀ r s, m.row .vert2 c = ok r → m.row .edge2 c = ok s → r.length = s.length) :
    ∃ F, m.filterMesh2D cells = ok F ∧ F.c2 = cells.filter (m.keeps .d2) ∧
      Lists F.c0 (m.UsedBy .d2 .vert2 cells) ∧ Lists F.c1 (m.UsedBy .d2 .edge2 cells) ∧ F.c3 = [] := by
  unfold filterMesh2D
  obtain ⟨t, e, h2, h0, h1⟩ := foldRes_inv (f := fun (s : List Nat × List Nat × List Nat) c => do
    let a ← m.active .d2 c
    if a = true then
      let n ← m.rowSize .vert2 c
      let t ← foldRes (fun (t : List Nat × List Nat) v => do
        let x ← m.entry .vert2 c v
        let y ← m.entry .edge2 c v
        ok (sortedInsert x t.1, sortedInsert y t.2)) s.2 (List.range n)
      ok (s.1 ++ [c], t)
    else
      ok s) (fun pre F => F.1 = pre.filter (m.keeps .d2) ∧
      Lists F.2.1 (m.UsedBy .d2 .vert2 pre) ∧ Lists F.2.2 (m.UsedBy .d2 .edge2 pre)) cells ([], [], [])
    ⟨rfl, lists_usedBy_nil, lists_usedBy_nil⟩ (by
      rintro pre c t hm ⟨h2, h0, h1⟩
      have hlt := hc c hm
      simp only [active_keeps h hlt, ok_bind]
      by_cases hk : m.keeps .d2 c = true
      · rw [if_pos hk]
        obtain ⟨r, hr⟩ := row_exists h .vert2 (i := c) hlt
        obtain ⟨s, hs⟩ := row_exists h .edge2 (i := c) hlt
        have hrs := hl c hm r s hr hs
        obtain ⟨k1, k2⟩ := entries_of_row h hr
        obtain ⟨_, k3⟩ := entries_of_row h hs
        have hz : (r.zip s).length = r.length := by simp [hrs]
        have := foldRes_index (f := fun (t : List Nat × List Nat) v => do
            let x ← m.entry .vert2 c v
            let y ← m.entry .edge2 c v
            ok (sortedInsert x t.1, sortedInsert y t.2))
          (g := fun (t : List Nat × List Nat) p => (sortedInsert p.1 t.1, sortedInsert p.2 t.2))
          (r.zip s) (fun t i hi => by
            rw [k2 i (by omega), ok_bind, k3 i (by omega), ok_bind]
            simp) t.2
        rw [hz, foldl_zip_pair hrs] at this
        rw [k1, ok_bind, this, ok_bind]
        exact ⟨_, rfl, by simp [h2, hk], lists_usedBy_step h0 hk hr, lists_usedBy_step h1 hk hs⟩
      · have hk' : m.keeps .d2 c = false := by simpa using hk
        rw [if_neg hk]
        exact ⟨_, rfl, by simp [h2, hk'], lists_usedBy_skip h0 hk', lists_usedBy_skip h1 hk'⟩)
  rw [e]
  exact ⟨_, rfl, h2, h0, h1, rfl⟩

theorem filterMesh1D_eq (h : m.WF) {cells : List Nat} (hc : ∀ c ∈ cells, c < m.num .d1) :
    ∃ F, m.filterMesh1D cells = ok F ∧ F.c1 = cells.filter (m.keeps .d1) ∧
      Lists F.c0 (fun x => ∃ c ∈ F.c1, ∃ a b, m.extremes c = ok (a, b) ∧ (x = a ∨ x = b)) ∧
      F.c2 = [] ∧ F.c3 = [] := by
  unfold filterMesh1D
  obtain ⟨t, e, h1, h0⟩ := foldRes_inv (f := fun (s : List Nat × List Nat) c => do
    let a ← m.active .d1 c
    if a = true then
      let e ← m.extremes c
      ok (s.1 ++ [c], sortedInsert e.2 (sortedInsert e.1 s.2))
    else
      ok s) (fun pre F => F.1 = pre.filter (m.keeps .d1) ∧
      Lists F.2 (fun x => ∃ c ∈ F.1, ∃ a b, m.extremes c = ok (a, b) ∧ (x = a ∨ x = b))) cells ([], [])
    ⟨rfl, List.Pairwise.nil, by simp⟩ (by
      rintro pre c t hm ⟨h1, h0⟩
      have hlt := hc c hm
      simp only [active_keeps h hlt, ok_bind]
      by_cases hk : m.keeps .d1 c = true
      · rw [if_pos hk]
        obtain ⟨⟨a, b⟩, hab⟩ := extremes_exists h hlt
        rw [hab, ok_bind]
        refine ⟨_, rfl, by simp [h1, hk], ((h0.insert a).insert b).congr fun x => ?_⟩
        simp only [List.mem_append, List.mem_singleton]
        constructor
        · rintro ((⟨c', hc', r⟩ | rfl) | rfl)
          · exact ⟨c', Or.inl hc', r⟩
          · exact ⟨c, Or.inr rfl, _, b, hab, Or.inl rfl⟩
          · exact ⟨c, Or.inr rfl, a, _, hab, Or.inr rfl⟩
        · rintro ⟨c', hc' | rfl, a', b', h', hx⟩
          · exact Or.inl (Or.inl ⟨c', hc', a', b', h', hx⟩)
          · rw [hab] at h'
            cases h'
            rcases hx with rfl | rfl
            · exact Or.inl (Or.inr rfl)
            · exact Or.inr rfl
      · have hk' : m.keeps .d1 c = false := by simpa using hk
        rw [if_neg hk]
        exact ⟨_, rfl, by simp [h1, hk'], h0⟩)
  rw [e]
  exact ⟨_, rfl, h1, h0, rfl, rfl⟩

/-! ### The extraction -/

/-- All loops of the extraction. -/
theorem collect_eq (h : m.WF) {f : Dim → List Nat} (hv : m.ValidFilter f) :
    ∃ o0 o1 o2 o3 ps es fs cs,
      extractLoop (f .d0) (m.num .d0) m.readPoint = ok (f .d0, o0, ps) ∧
      extractLoop (f .d1) (m.num .d1) (m.readEdge o0) = ok (f .d1, o1, es) ∧
      extractLoop (f .d2) (m.num .d2) (m.readPolygon o0 o1) = ok (f .d2, o2, fs) ∧
      extractLoop (f .d3) (m.num .d3) (m.readPolyhedron o0 o1 o2) = ok (f .d3, o3, cs) ∧
      InverseOf (f .d0) (m.num .d0) o0 ∧ InverseOf (f .d1) (m.num .d1) o1 ∧
      InverseOf (f .d2) (m.num .d2) o2 ∧ InverseOf (f .d3) (m.num .d3) o3 ∧
      m.Collected f ps es fs cs := by
  obtain ⟨o0, ps, e0, i0, c0⟩ := extractLoop_eq m.PointData (hv.nodup .d0) (hv.range .d0)
    fun x hx => readPoint_eq h (hv.range .d0 x hx)
  obtain ⟨o1, es, e1, i1, c1⟩ := extractLoop_eq (m.EdgeData (f .d0)) (hv.nodup .d1) (hv.range .d1)
    fun x hx => readEdge_eq h (hv.range .d1 x hx) i0 (hv.extremes x hx)
  obtain ⟨o2, fs, e2, i2, c2⟩ := extractLoop_eq (m.PolygonData (f .d0) (f .d1)) (hv.nodup .d2)
    (hv.range .d2) fun x hx => readPolygon_eq h (hv.range .d2 x hx) i0 i1 (hv.rows .vert2 rfl x hx)
      (hv.rows .edge2 rfl x hx) (hv.sizes x hx)
  obtain ⟨o3, cs, e3, i3, c3⟩ := extractLoop_eq (m.PolyhedronData (f .d0) (f .d1) (f .d2))
    (hv.nodup .d3) (hv.range .d3) fun x hx => readPolyhedron_eq h (hv.range .d3 x hx) i0 i1 i2
      (hv.rows .vert3 rfl x hx) (hv.rows .edge3 rfl x hx) (hv.rows .face3 rfl x hx)
  exact ⟨o0, o1, o2, o3, ps, es, fs, cs, e0, e1, e2, e3, i0, i1, i2, i3, c0, c1, c2, c3⟩

end Mesh

namespace MeshData

variable {α : Type}

theorem fillMesh1D'_eq [Zero α] (ps : List (V3 α)) (es : List (Nat × Nat)) :
    (do
      let m' ← ({ (Mesh.empty : Mesh α) with dimension := 1 } : Mesh α).fillPoints ps
      m'.fillEdges es) =
      if EdgesInRange ps.length es then ok (filled 1 ps es [] [] []).mesh else abort := by
  rw [empty_mesh, initDim_mesh]
  simp only
  rw [fillPoints_eq rfl, ok_bind, fillEdges_eq rfl]
  simp only [List.length_map]
  rfl

end MeshData
end Verif
