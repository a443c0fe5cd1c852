import Verif.MergeLemmas
import Verif.CutProps

/-
C112: joining polygons. C113: joining polyhedra.
-/
namespace Verif

open Res

variable {α : Type}

/-- C112 for less than two polygons: nothing changes; the number returned is that of the polygon, or the number of
polygons if there is none. -/
theorem c112_join_small [Zero α] (ord : List Nat → List Nat) (m : Mesh α) (vs es rem0 rem1 : List Nat)
    (orig : List (List Nat)) (c : Nat) :
    m.mergeCell2Ds ord [] vs es rem0 rem1 orig = ok (m, m.num .d2, orig) ∧
    m.mergeCell2Ds ord [c] vs es rem0 rem1 orig = ok (m, c, orig) := ⟨rfl, rfl⟩

/-- C112, what is proved: for at least two polygons the function succeeds and keeps the mesh well formed. The last polygon
is new; it has the given vertices and edges, the greatest marker and the polyhedra of the joined polygons, each once. The
joined polygons and the removed vertices and edges become inactive; everything else about the old cells is kept, except
the polygons around the vertices and edges of the new polygon. In the lists of the edges the joined polygons are replaced by
the new one. A vertex that has other polygons lists them and the new polygon; a vertex without other polygons keeps its
list, where the property asks for the new polygon as well. -/
theorem c112_join_partial [Zero α] (ord : List Nat → List Nat) (hord : ∀ l, (ord l).Perm l) (m : Mesh α) (h : m.WF)
    (subs vs es rem0 rem1 : List Nat) (orig : List (List Nat)) (hl : 2 ≤ subs.length)
    (hs : ∀ c ∈ subs, c < m.num .d2) (ho : orig.length = m.num .d2) (hv : ∀ x ∈ vs, x < m.num .d0)
    (he : ∀ x ∈ es, x < m.num .d1) (nv : vs.Nodup) (ne : es.Nodup) (hr0 : ∀ x ∈ rem0, x < m.num .d0)
    (hr1 : ∀ x ∈ rem1, x < m.num .d1) (hfresh : ∀ x ∈ vs, ∀ r, m.row .nb02 x = ok r → m.num .d2 ∉ r) :
    ∃ m', m.mergeCell2Ds ord subs vs es rem0 rem1 orig =
        ok (m', m.num .d2, orig ++ [subs.flatMap fun c => (orig[c]?).getD []]) ∧ m'.WF ∧
      KeptExcept m m' .d2 (fun d i => (d = .d2 ∧ i ∈ subs) ∨ (d = .d1 ∧ i ∈ rem1) ∨ (d = .d0 ∧ i ∈ rem0))
        (fun l i => (l = .nb02 ∧ i ∈ vs) ∨ (l = .nb12 ∧ i ∈ es)) ∧
      IsMerged m m' .d2 subs (m.num .d2) ∧ m'.row .vert2 (m.num .d2) = ok vs ∧ m'.row .edge2 (m.num .d2) = ok es ∧
      m'.row .sub2 (m.num .d2) = ok [] ∧
      (∃ r, m'.row .nb23 (m.num .d2) = ok r ∧ r.Nodup ∧ ∀ y, y ∈ r ↔ ∃ c ∈ subs, ∃ k, HoldsAt m .nb23 c k y) ∧
      (∀ x ∈ vs, OthersAndNew m m' .nb02 subs (m.num .d2) x) ∧
      ∀ x ∈ es, JoinedReplaced m m' .nb12 subs (m.num .d2) x := by
  obtain ⟨A, hA, rfl⟩ := AMesh.exists_conc h
  have hs' : ∀ c ∈ subs, c < A.num .d2 := hs
  have ho' : orig.length = A.num .d2 := ho
  have hv' : ∀ x ∈ vs, x < A.num .d0 := hv
  have he' : ∀ x ∈ es, x < A.num .d1 := he
  have hr0' : ∀ x ∈ rem0, x < A.num .d0 := hr0
  have hr1' : ∀ x ∈ rem1, x < A.num .d1 := hr1
  obtain ⟨hnB, hnB2, hBrow, hBnew, hBk, hBa⟩ := AMesh.append_one hA .d2
  have hA1 := AMesh.ok_append hA .d2 1
  obtain ⟨t, et, tm, tc, -, tk1, tk2, tQ⟩ := AMesh.mergeFold_conc (d := .d2) (l := some .nb23)
    (by rintro l' ⟨⟩; rfl) (orig := orig) (cs := subs) hA1
    (fun c hc => by rw [hnB2]; have := hs' c hc; omega) (fun c hc => by have := hs' c hc; omega)
    ⟨(A.append .d2 1).conc, 0, [], []⟩ rfl
  have tQ := tQ .nb23 rfl
  have hGok := AMesh.ok_offAll hA1 .d2 subs
  have sG := AMesh.sameFrame_offAll (A.append .d2 1) .d2 subs
  obtain ⟨-, -, -, -, mG, -, -, -, -, rG⟩ := AMesh.offAll_frame (A.append .d2 1) .d2 subs
  have aG := AMesh.offAll_act (A.append .d2 1) .d2 subs
  have lG := AMesh.offAll_act_length (A.append .d2 1) .d2 subs
  have memQ : ∀ y, y ∈ t.polyhedra.map Prod.fst ↔ ∃ c ∈ subs, ∃ k, HoldsAt A.conc .nb23 c k y := by
    have held : ∀ c ∈ subs, ∀ k y, (∃ r, ((A.append .d2 1).rows .nb23)[c]? = some r ∧ r[k]? = some y ∧
        y < (A.append .d2 1).num (Lst.target .nb23)) ↔ HoldsAt A.conc .nb23 c k y := by
      intro c hc k y
      rw [AMesh.holdsAt_conc hA, hBrow .nb23 c (hs' c hc), hnB _ (by simp [Lst.target])]
    intro y
    rw [tQ.mem]
    constructor
    · rintro (h | ⟨c, hc, r, hr, k, hy⟩)
      · simp at h
      · exact ⟨c, hc, k, (held c hc k y).1 ⟨r, hr, hy⟩⟩
    · rintro ⟨c, hc, k, hy⟩
      obtain ⟨r, hr, hy⟩ := (held c hc k y).2 hy
      exact Or.inr ⟨c, hc, r, hr, k, hy⟩
  have pqs : (ord (t.polyhedra.map Prod.fst)).Perm (t.polyhedra.map Prod.fst) := hord _
  generalize hqs : ord (t.polyhedra.map Prod.fst) = qs at pqs
  generalize hG : (A.append .d2 1).offAll .d2 subs = G at *
  have gn : ∀ d, d ≠ .d2 → G.num d = A.num d := by intro d hd; rw [sG.num, hnB d hd]
  have gn2 : G.num .d2 = A.num .d2 + 1 := by rw [sG.num, hnB2]
  have hnG : A.num .d2 < G.num .d2 := by omega
  have gv : ∀ x ∈ vs, x < G.num .d0 := by intro x hx; rw [gn _ (by simp)]; exact hv' x hx
  have ge : ∀ x ∈ es, x < G.num .d1 := by intro x hx; rw [gn _ (by simp)]; exact he' x hx
  obtain ⟨hrun, hFok⟩ := AMesh.mergeFinish2_conc (subs := subs) (vs := vs) (es := es) (rem0 := rem0) (rem1 := rem1)
    (qs := qs) (new := A.num .d2) hGok t.marker hnG (fun c hc => by rw [gn2]; have := hs' c hc; omega)
    (by rw [rG]; exact hBnew .nb23 rfl) gv ge
    (by
      intro q hq
      obtain ⟨c, hc, k, hh⟩ := (memQ q).1 (pqs.subset hq)
      rw [gn _ (by simp)]
      exact hh.choose_spec.2.2)
    (by rw [gn _ (by simp)]; exact hr0') (by rw [gn _ (by simp)]; exact hr1')
  generalize hF : G.mergedA2 subs vs es rem0 rem1 (A.num .d2) t.marker qs = F at hrun hFok
  obtain ⟨sF, mF, aF, rF⟩ := AMesh.mergedA2_facts hGok subs rem0 rem1 t.marker qs hnG gv ge nv ne F hF
  have sBF := sG.trans sF
  have hAl : ∀ d i, i < A.num d → i < (G.act d).length := by
    intro d i hi
    rw [lG, hA1.act]
    by_cases hd : d = .d2
    · subst hd; omega
    · rw [hnB d hd]; exact hi
  have hmark : ∀ e i, i < A.num e → (F.mark e)[i]? = (A.mark e)[i]? := by
    intro e i hi
    rw [← hBk e i hi, mF, mG]
    by_cases he : e = .d2
    · subst he
      rw [fset_self, List.getElem?_set_ne (by omega)]
    · rw [fset_ne _ _ he]
  have hact : ∀ e i, i < A.num e → (F.act e)[i]? = if (e = .d2 ∧ i ∈ subs) ∨ (e = .d1 ∧ i ∈ rem1) ∨ (e = .d0 ∧ i ∈ rem0)
      then some false else (A.act e)[i]? := by
    intro e i hi
    have h1 := hAl e i hi
    rw [aF]
    by_cases he : e = .d2
    · subst he
      rw [if_neg (by simp), fset_self, List.getElem?_set_ne (by omega), aG, ← lG, ← hBa _ i hi]
      simp [h1]
    · have e1 : (G.act e)[i]? = (A.act e)[i]? := by rw [aG, if_neg (fun hh => he hh.1), hBa _ i hi]
      rw [fset_ne _ _ he, e1]
      simp [h1, he]
  have hrows : ∀ l i, i < A.num l.owner → ¬ ((l = .nb02 ∧ i ∈ vs) ∨ (l = .nb12 ∧ i ∈ es)) →
      (F.rows l)[i]? = (A.rows l)[i]? := by
    intro l i hi hne
    rw [rF, if_neg (fun hh => hne (Or.inr hh)), if_neg (fun hh => hne (Or.inl hh)),
      if_neg (by rintro ⟨rfl, rfl⟩; exact absurd hi (lt_irrefl _)),
      if_neg (by rintro ⟨rfl, rfl⟩; exact absurd hi (lt_irrefl _)),
      if_neg (by rintro ⟨rfl, rfl⟩; exact absurd hi (lt_irrefl _)), rG, hBrow l i hi]
  have hkept := AMesh.keptExcept_conc (d := .d2) hA hFok sBF hmark (fun e i hi hne => by rw [hact e i hi, if_neg hne])
    (fun e i hi hh => by rw [hact e i hi, if_pos hh]) hrows
  have hmerged := AMesh.isMerged_conc (d := .d2) hA (by simp) sBF hs' (by intro e; rw [e] at hl; simp at hl)
    (fun c hc k' hk' => tk1 c hc k' (by rw [hBk _ c (hs' c hc)]; exact hk'))
    (tk2.imp id fun ⟨c, hc, hk⟩ => ⟨c, hc, by rw [← hBk _ c (hs' c hc)]; exact hk⟩)
    (by rw [mF, fset_self, List.getElem?_set_self (by rw [hGok.mark]; exact hnG)])
    (by rw [aF, if_neg (by simp), fset_self, List.getElem?_set_self (by rw [hGok.act]; exact hnG)])
  refine ⟨F.conc, ?_, AMesh.wf_conc hFok, hkept, hmerged, ?_, ?_, ?_, ⟨qs, ?_, ?_, ?_⟩, ?_, ?_⟩
  · have := mergeCell2Ds_eq ord A.conc subs vs es rem0 rem1 orig hl (m1 := (A.append .d2 1).conc) (m2 := F.conc) (t := t)
      (AMesh.append_conc hA .d2 1) ho et (by rw [tm, hqs]; exact hrun)
    rw [tc] at this
    exact this
  · apply AMesh.row_conc hFok
    show (F.rows .vert2)[A.num .d2]? = _
    rw [rF]
    simp
  · apply AMesh.row_conc hFok
    show (F.rows .edge2)[A.num .d2]? = _
    rw [rF]
    simp
  · apply AMesh.row_conc hFok
    show (F.rows .sub2)[A.num .d2]? = _
    rw [rF, rG, hBnew .sub2 rfl]
    simp
  · apply AMesh.row_conc hFok
    show (F.rows .nb23)[A.num .d2]? = _
    rw [rF]
    simp
  · exact pqs.nodup_iff.2 (tQ.nodup (by simp))
  · intro y
    rw [pqs.mem_iff, memQ]
  · intro x hx
    refine AMesh.othersAndNew_conc (l := .nb02) hA hFok (hfresh x hx) ?_
    rw [rF, if_neg (by simp), if_pos ⟨rfl, hx⟩, rG, hBrow .nb02 x (hv' x hx), gn2]
    rfl
  · intro x hx
    refine AMesh.joinedReplaced_conc (l := .nb12) hA hFok ?_
    rw [rF, if_pos ⟨rfl, hx⟩, rG, hBrow .nb12 x (he' x hx)]
    rfl

/-- C113, the information: the faces, edges and vertices of at least two polyhedra are each either kept or removed, and
none is listed twice. A face is removed if it has two or more neighbours, all of them joined; an edge if all faces around it
are removed; a vertex if all edges at it are removed. -/
theorem c113_information (m : Mesh α) (h : m.WF) (subs : List Nat) (hl : 2 ≤ subs.length)
    (hs : ∀ c ∈ subs, c < m.num .d3) (hf : ∀ c ∈ subs, ∀ r, m.row .face3 c = ok r → ∀ x ∈ r, x < m.num .d2)
    (he : ∀ c ∈ subs, ∀ r, m.row .edge3 c = ok r → ∀ x ∈ r, x < m.num .d1)
    (hv : ∀ c ∈ subs, ∀ r, m.row .vert3 c = ok r → ∀ x ∈ r, x < m.num .d0) :
    ∃ i, m.mergeInfo subs = ok i ∧ PartsSorted m .face3 .nb23 2 subs subs i.faces ∧
      PartsSorted m .edge3 .nb12 0 subs i.faces.2 i.edges ∧ PartsSorted m .vert3 .nb01 0 subs i.edges.2 i.vertices := by
  obtain ⟨A, hA, rfl⟩ := AMesh.exists_conc h
  obtain ⟨f, ef, sf⟩ := AMesh.sortCells_conc hA (b := .face3) (l := .nb23) (min := 2) (subs := subs) (cs := subs) hs hf
  obtain ⟨e, ee, se⟩ := AMesh.sortCells_conc hA (b := .edge3) (l := .nb12) (min := 0) (subs := f.2) (cs := subs) hs he
  obtain ⟨v, ev, sv⟩ := AMesh.sortCells_conc hA (b := .vert3) (l := .nb01) (min := 0) (subs := e.2) (cs := subs) hs hv
  refine ⟨⟨f, e, v⟩, ?_, sf, se, sv⟩
  unfold Mesh.mergeInfo
  rw [if_neg (by omega), ef, ok_bind, ee, ok_bind, ev, ok_bind]

/-- C113, the information for less than two polyhedra: nothing is kept or removed. -/
theorem c113_information_small (m : Mesh α) (subs : List Nat) (hl : subs.length < 2) :
    m.mergeInfo subs = ok ⟨([], []), ([], []), ([], [])⟩ := by
  unfold Mesh.mergeInfo
  rw [if_pos hl]

/-- C113 for less than two polyhedra: nothing changes; the number returned is that of the polyhedron, or the number of
polyhedra if there is none. -/
theorem c113_join_small [Zero α] (m : Mesh α) (vs es fs rem0 rem1 rem2 : List Nat) (orig : List (List Nat)) (c : Nat) :
    m.mergeCell3Ds [] vs es fs rem0 rem1 rem2 orig = ok (m, m.num .d3, orig) ∧
    m.mergeCell3Ds [c] vs es fs rem0 rem1 rem2 orig = ok (m, c, orig) := ⟨rfl, rfl⟩

/-- C113, what is proved: for at least two polyhedra the function succeeds and keeps the mesh well formed. The last
polyhedron is new; it has the given vertices, edges and faces and the greatest marker of the joined polyhedra. These and the
removed vertices, edges and faces become inactive; everything else about the old cells is kept, except the polyhedra around
the parts of the new polyhedron. In the lists of the faces the joined polyhedra are replaced by the new one. A vertex or edge
that has other polyhedra lists them and the new one; a vertex or edge without other polyhedra keeps its list, where the
property asks for the new polyhedron as well. -/
theorem c113_join_partial [Zero α] (m : Mesh α) (h : m.WF) (subs vs es fs rem0 rem1 rem2 : List Nat)
    (orig : List (List Nat)) (hl : 2 ≤ subs.length)
    (hs : ∀ c ∈ subs, c < m.num .d3) (ho : orig.length = m.num .d3) (hv : ∀ x ∈ vs, x < m.num .d0)
    (he : ∀ x ∈ es, x < m.num .d1) (hf : ∀ x ∈ fs, x < m.num .d2) (nv : vs.Nodup) (ne : es.Nodup) (nf : fs.Nodup)
    (hr0 : ∀ x ∈ rem0, x < m.num .d0) (hr1 : ∀ x ∈ rem1, x < m.num .d1) (hr2 : ∀ x ∈ rem2, x < m.num .d2)
    (hfv : ∀ x ∈ vs, ∀ r, m.row .nb03 x = ok r → m.num .d3 ∉ r)
    (hfe : ∀ x ∈ es, ∀ r, m.row .nb13 x = ok r → m.num .d3 ∉ r) :
    ∃ m', m.mergeCell3Ds subs vs es fs rem0 rem1 rem2 orig =
        ok (m', m.num .d3, orig ++ [subs.flatMap fun c => (orig[c]?).getD []]) ∧ m'.WF ∧
      KeptExcept m m' .d3
        (fun d i => (d = .d3 ∧ i ∈ subs) ∨ (d = .d2 ∧ i ∈ rem2) ∨ (d = .d1 ∧ i ∈ rem1) ∨ (d = .d0 ∧ i ∈ rem0))
        (fun l i => (l = .nb03 ∧ i ∈ vs) ∨ (l = .nb13 ∧ i ∈ es) ∨ (l = .nb23 ∧ i ∈ fs)) ∧
      IsMerged m m' .d3 subs (m.num .d3) ∧ m'.row .vert3 (m.num .d3) = ok vs ∧ m'.row .edge3 (m.num .d3) = ok es ∧
      m'.row .face3 (m.num .d3) = ok fs ∧
      (∀ x ∈ vs, OthersAndNew m m' .nb03 subs (m.num .d3) x) ∧
      (∀ x ∈ es, OthersAndNew m m' .nb13 subs (m.num .d3) x) ∧
      ∀ x ∈ fs, JoinedReplaced m m' .nb23 subs (m.num .d3) x := by
  obtain ⟨A, hA, rfl⟩ := AMesh.exists_conc h
  have hs' : ∀ c ∈ subs, c < A.num .d3 := hs
  have ho' : orig.length = A.num .d3 := ho
  have hv' : ∀ x ∈ vs, x < A.num .d0 := hv
  have he' : ∀ x ∈ es, x < A.num .d1 := he
  have hf' : ∀ x ∈ fs, x < A.num .d2 := hf
  have hr0' : ∀ x ∈ rem0, x < A.num .d0 := hr0
  have hr1' : ∀ x ∈ rem1, x < A.num .d1 := hr1
  have hr2' : ∀ x ∈ rem2, x < A.num .d2 := hr2
  obtain ⟨hnB, hnB3, hBrow, hBnew, hBk, hBa⟩ := AMesh.append_one hA .d3
  have hA1 := AMesh.ok_append hA .d3 1
  obtain ⟨t, et, tm, tc, -, tk1, tk2, -⟩ := AMesh.mergeFold_conc (d := .d3) (l := none)
    (by rintro l' ⟨⟩) (orig := orig) (cs := subs) hA1
    (fun c hc => by rw [hnB3]; have := hs' c hc; omega) (fun c hc => by have := hs' c hc; omega)
    ⟨(A.append .d3 1).conc, 0, [], []⟩ rfl
  have hGok := AMesh.ok_offAll hA1 .d3 subs
  have sG := AMesh.sameFrame_offAll (A.append .d3 1) .d3 subs
  obtain ⟨-, -, -, -, mG, -, -, -, -, rG⟩ := AMesh.offAll_frame (A.append .d3 1) .d3 subs
  have aG := AMesh.offAll_act (A.append .d3 1) .d3 subs
  have lG := AMesh.offAll_act_length (A.append .d3 1) .d3 subs
  generalize hG : (A.append .d3 1).offAll .d3 subs = G at *
  have gn : ∀ d, d ≠ .d3 → G.num d = A.num d := by intro d hd; rw [sG.num, hnB d hd]
  have gn3 : G.num .d3 = A.num .d3 + 1 := by rw [sG.num, hnB3]
  have hnG : A.num .d3 < G.num .d3 := by omega
  have gv : ∀ x ∈ vs, x < G.num .d0 := by intro x hx; rw [gn _ (by simp)]; exact hv' x hx
  have ge : ∀ x ∈ es, x < G.num .d1 := by intro x hx; rw [gn _ (by simp)]; exact he' x hx
  have gf : ∀ x ∈ fs, x < G.num .d2 := by intro x hx; rw [gn _ (by simp)]; exact hf' x hx
  obtain ⟨hrun, hFok⟩ := AMesh.mergeFinish3_conc (subs := subs) (vs := vs) (es := es) (fs := fs) (rem0 := rem0)
    (rem1 := rem1) (rem2 := rem2) (new := A.num .d3) hGok t.marker hnG
    (fun c hc => by rw [gn3]; have := hs' c hc; omega) gv ge gf
    (by rw [gn _ (by simp)]; exact hr0') (by rw [gn _ (by simp)]; exact hr1') (by rw [gn _ (by simp)]; exact hr2')
  generalize hF : G.mergedA3 subs vs es fs rem0 rem1 rem2 (A.num .d3) t.marker = F at hrun hFok
  obtain ⟨sF, mF, aF, rF⟩ := AMesh.mergedA3_facts hGok subs rem0 rem1 rem2 t.marker hnG gv ge gf nv ne nf F hF
  have sBF := sG.trans sF
  have hAl : ∀ d i, i < A.num d → i < (G.act d).length := by
    intro d i hi
    rw [lG, hA1.act]
    by_cases hd : d = .d3
    · subst hd; omega
    · rw [hnB d hd]; exact hi
  have hmark : ∀ e i, i < A.num e → (F.mark e)[i]? = (A.mark e)[i]? := by
    intro e i hi
    rw [← hBk e i hi, mF, mG]
    by_cases he : e = .d3
    · subst he
      rw [fset_self, List.getElem?_set_ne (by omega)]
    · rw [fset_ne _ _ he]
  have hact : ∀ e i, i < A.num e → (F.act e)[i]? =
      if (e = .d3 ∧ i ∈ subs) ∨ (e = .d2 ∧ i ∈ rem2) ∨ (e = .d1 ∧ i ∈ rem1) ∨ (e = .d0 ∧ i ∈ rem0)
      then some false else (A.act e)[i]? := by
    intro e i hi
    have h1 := hAl e i hi
    rw [aF]
    by_cases he : e = .d3
    · subst he
      rw [if_neg (by simp), fset_self, List.getElem?_set_ne (by omega), aG, ← lG, ← hBa _ i hi]
      simp [h1]
    · have e1 : (G.act e)[i]? = (A.act e)[i]? := by rw [aG, if_neg (fun hh => he hh.1), hBa _ i hi]
      rw [fset_ne _ _ he, e1]
      simp [h1, he]
  have hrows : ∀ l i, i < A.num l.owner → ¬ ((l = .nb03 ∧ i ∈ vs) ∨ (l = .nb13 ∧ i ∈ es) ∨ (l = .nb23 ∧ i ∈ fs)) →
      (F.rows l)[i]? = (A.rows l)[i]? := by
    intro l i hi hne
    rw [rF, if_neg (fun hh => hne (Or.inr (Or.inr hh))), if_neg (fun hh => hne (Or.inr (Or.inl hh))),
      if_neg (fun hh => hne (Or.inl hh)),
      if_neg (by rintro ⟨rfl, rfl⟩; exact absurd hi (lt_irrefl _)),
      if_neg (by rintro ⟨rfl, rfl⟩; exact absurd hi (lt_irrefl _)),
      if_neg (by rintro ⟨rfl, rfl⟩; exact absurd hi (lt_irrefl _)), rG, hBrow l i hi]
  have hkept := AMesh.keptExcept_conc (d := .d3) hA hFok sBF hmark (fun e i hi hne => by rw [hact e i hi, if_neg hne])
    (fun e i hi hh => by rw [hact e i hi, if_pos hh]) hrows
  have hmerged := AMesh.isMerged_conc (d := .d3) hA (by simp) sBF hs' (by intro e; rw [e] at hl; simp at hl)
    (fun c hc k' hk' => tk1 c hc k' (by rw [hBk _ c (hs' c hc)]; exact hk'))
    (tk2.imp id fun ⟨c, hc, hk⟩ => ⟨c, hc, by rw [← hBk _ c (hs' c hc)]; exact hk⟩)
    (by rw [mF, fset_self, List.getElem?_set_self (by rw [hGok.mark]; exact hnG)])
    (by rw [aF, if_neg (by simp), fset_self, List.getElem?_set_self (by rw [hGok.act]; exact hnG)])
  refine ⟨F.conc, ?_, AMesh.wf_conc hFok, hkept, hmerged, ?_, ?_, ?_, ?_, ?_, ?_⟩
  · have := mergeCell3Ds_eq A.conc subs vs es fs rem0 rem1 rem2 orig hl (m1 := (A.append .d3 1).conc) (m2 := F.conc)
      (t := t) (AMesh.append_conc hA .d3 1) ho et (by rw [tm]; exact hrun)
    rw [tc] at this
    exact this
  · apply AMesh.row_conc hFok
    show (F.rows .vert3)[A.num .d3]? = _
    rw [rF]
    simp
  · apply AMesh.row_conc hFok
    show (F.rows .edge3)[A.num .d3]? = _
    rw [rF]
    simp
  · apply AMesh.row_conc hFok
    show (F.rows .face3)[A.num .d3]? = _
    rw [rF]
    simp
  · intro x hx
    refine AMesh.othersAndNew_conc (l := .nb03) hA hFok (hfv x hx) ?_
    rw [rF, if_neg (by simp), if_neg (by simp), if_pos ⟨rfl, hx⟩, rG, hBrow .nb03 x (hv' x hx), gn3]
    rfl
  · intro x hx
    refine AMesh.othersAndNew_conc (l := .nb13) hA hFok (hfe x hx) ?_
    rw [rF, if_neg (by simp), if_pos ⟨rfl, hx⟩, rG, hBrow .nb13 x (he' x hx), gn3]
    rfl
  · intro x hx
    refine AMesh.joinedReplaced_conc (l := .nb23) hA hFok ?_
    rw [rF, if_pos ⟨rfl, hx⟩, rG, hBrow .nb23 x (hf' x hx)]
    rfl

/-- The mesh of the triangles `0, 1, 2`, `0, 2, 3` and `1, 4, 2`. -/
def mergeOps : List (Op Int) :=
  [.append .d0 5, .append .d1 7, .append .d2 3, .append .d3 1, .insertExt 0 0 1, .insertExt 1 1 2,
   .insertExt 2 2 0, .insertExt 3 2 3, .insertExt 4 3 0, .insertExt 5 1 4, .insertExt 6 4 2,
   .addRow .vert2 0 [0, 1, 2], .addRow .vert2 1 [0, 2, 3], .addRow .vert2 2 [1, 4, 2],
   .addRow .edge2 0 [0, 1, 2], .addRow .edge2 1 [2, 3, 4], .addRow .edge2 2 [5, 6, 1], .addRow .nb02 0 [0, 1],
   .addRow .nb02 1 [0, 2], .addRow .nb02 2 [0, 1, 2], .addRow .nb02 3 [1], .addRow .nb02 4 [2],
   .addRow .nb12 0 [0], .addRow .nb12 1 [0, 2], .addRow .nb12 2 [0, 1], .addRow .nb12 3 [1],
   .addRow .nb12 4 [1], .addRow .nb12 5 [2], .addRow .nb12 6 [2], .addRow .nb23 0 [0], .addRow .nb23 1 [0],
   .setMark .d2 0 4, .setMark .d2 1 9, .setAct .d2 0 true, .setAct .d2 1 true, .setAct .d1 2 true]

/-- The mesh built by `mergeOps`. -/
def mergeBase : Mesh Int :=
  match (Mesh.empty : Mesh Int).run mergeOps with
  | ok m => m
  | _ => Mesh.empty

theorem mergeBase_wf : mergeBase.WF := by
  refine Mesh.run_wf_of_ok (ops := mergeOps) Mesh.empty_wf (Mesh.along_of_forall ?_ _)
    (show _ = ok mergeBase from rfl)
  intro o ho m
  simp only [mergeOps, List.mem_cons, List.not_mem_nil, or_false] at ho
  repeat (rcases ho with rfl | ho; · trivial)

/-- The hypotheses of `c112_join_partial`. -/
example : (∀ c ∈ [0, 1], c < mergeBase.num .d2) ∧ [[0], [1], [2]].length = mergeBase.num .d2 ∧
    (∀ x ∈ [0, 1, 2, 3], x < mergeBase.num .d0) ∧ (∀ x ∈ [0, 1, 3, 4], x < mergeBase.num .d1) ∧
    (∀ x ∈ [2], x < mergeBase.num .d1) ∧
    ∀ x ∈ [0, 1, 2, 3], ∀ r, mergeBase.row .nb02 x = ok r → mergeBase.num .d2 ∉ r := by
  refine ⟨by decide +kernel, by decide +kernel, by decide +kernel, by decide +kernel, by decide +kernel, ?_⟩
  have key : ∀ x ∈ [0, 1, 2, 3], mergeBase.row .nb02 x = ok ([[0, 1], [0, 2], [0, 1, 2], [1]].getD x []) := by
    decide +kernel
  intro x hx r hr
  rw [key x hx] at hr
  cases hr
  revert x
  decide +kernel

/-- The mesh after the triangles 0 and 1 are joined. -/
def mergeDone : Mesh Int :=
  match mergeBase.mergeCell2Ds id [0, 1] [0, 1, 2, 3] [0, 1, 3, 4] [] [2] [[0], [1], [2]] with
  | ok r => r.1
  | _ => Mesh.empty

example : mergeBase.mergeCell2Ds id [0, 1] [0, 1, 2, 3] [0, 1, 3, 4] [] [2] [[0], [1], [2]] =
      ok (mergeDone, 3, [[0], [1], [2], [0, 1]]) ∧
    mergeDone.row .vert2 3 = ok [0, 1, 2, 3] ∧ mergeDone.row .edge2 3 = ok [0, 1, 3, 4] ∧
    mergeDone.marker .d2 3 = ok 9 ∧ mergeDone.active .d2 3 = ok true ∧ mergeDone.row .nb23 3 = ok [0] ∧
    mergeDone.active .d2 0 = ok false ∧ mergeDone.active .d1 2 = ok false ∧ mergeDone.row .nb02 1 = ok [2, 3] ∧
    mergeDone.row .nb12 1 = ok [3, 2] ∧ mergeDone.row .nb12 4 = ok [3] ∧ KnowsNew mergeDone .nb02 [0, 1] 3 1 :=
  ⟨rfl, by decide +kernel, by decide +kernel, by decide +kernel, by decide +kernel, by decide +kernel,
    by decide +kernel, by decide +kernel, by decide +kernel, by decide +kernel, by decide +kernel,
    [2, 3], by decide +kernel, by decide, by decide⟩

/-- C112 is violated at vertices without other polygons: after two of three triangles are joined, the vertex 0 of the new
polygon still lists the two joined triangles, which are inactive, and not the new polygon. -/
theorem c112_vertices_violated :
    mergeBase.mergeCell2Ds id [0, 1] [0, 1, 2, 3] [0, 1, 3, 4] [] [2] [[0], [1], [2]] =
      ok (mergeDone, 3, [[0], [1], [2], [0, 1]]) ∧
    mergeDone.row .vert2 3 = ok [0, 1, 2, 3] ∧ mergeDone.active .d2 0 = ok false ∧
    mergeDone.row .nb02 0 = ok [0, 1] ∧ ¬ KnowsNew mergeDone .nb02 [0, 1] 3 0 := by
  refine ⟨rfl, by decide +kernel, by decide +kernel, by decide +kernel, ?_⟩
  rintro ⟨r, hr, h3, -⟩
  rw [show mergeDone.row .nb02 0 = ok [0, 1] by decide +kernel] at hr
  cases hr
  revert h3
  decide

/-- The mesh of the tetrahedra `0, 1, 2, 3`, `1, 2, 3, 4` and `2, 3, 4, 5`. -/
def fuseOps : List (Op Int) :=
  [.append .d0 6, .append .d1 12, .append .d2 10, .append .d3 3, .insertExt 0 0 1, .insertExt 1 0 2,
   .insertExt 2 0 3, .insertExt 3 1 2, .insertExt 4 1 3, .insertExt 5 2 3, .insertExt 6 1 4, .insertExt 7 2 4,
   .insertExt 8 3 4, .insertExt 9 2 5, .insertExt 10 3 5, .insertExt 11 4 5, .addRow .vert3 0 [0, 1, 2, 3],
   .addRow .vert3 1 [1, 2, 3, 4], .addRow .vert3 2 [2, 3, 4, 5], .addRow .edge3 0 [0, 1, 2, 3, 4, 5],
   .addRow .edge3 1 [3, 4, 6, 5, 7, 8], .addRow .edge3 2 [5, 7, 9, 8, 10, 11], .addRow .face3 0 [0, 1, 2, 3],
   .addRow .face3 1 [3, 4, 5, 6], .addRow .face3 2 [6, 7, 8, 9], .addRow .nb01 0 [0, 1, 2],
   .addRow .nb01 1 [0, 3, 4, 6], .addRow .nb01 2 [1, 3, 5, 7, 9], .addRow .nb01 3 [2, 4, 5, 8, 10],
   .addRow .nb01 4 [6, 7, 8, 11], .addRow .nb01 5 [9, 10, 11], .addRow .nb12 0 [0, 1], .addRow .nb12 1 [0, 2],
   .addRow .nb12 2 [1, 2], .addRow .nb12 3 [0, 3, 4], .addRow .nb12 4 [1, 3, 5], .addRow .nb12 5 [2, 3, 6, 7],
   .addRow .nb12 6 [4, 5], .addRow .nb12 7 [4, 6, 8], .addRow .nb12 8 [5, 6, 9], .addRow .nb12 9 [7, 8],
   .addRow .nb12 10 [7, 9], .addRow .nb12 11 [8, 9], .addRow .nb03 0 [0], .addRow .nb03 1 [0, 1],
   .addRow .nb03 2 [0, 1, 2], .addRow .nb03 3 [0, 1, 2], .addRow .nb03 4 [1, 2], .addRow .nb03 5 [2],
   .addRow .nb13 0 [0], .addRow .nb13 1 [0], .addRow .nb13 2 [0], .addRow .nb13 3 [0, 1],
   .addRow .nb13 4 [0, 1], .addRow .nb13 5 [0, 1, 2], .addRow .nb13 6 [1], .addRow .nb13 7 [1, 2],
   .addRow .nb13 8 [1, 2], .addRow .nb13 9 [2], .addRow .nb13 10 [2], .addRow .nb13 11 [2],
   .addRow .nb23 0 [0], .addRow .nb23 1 [0], .addRow .nb23 2 [0], .addRow .nb23 3 [0, 1], .addRow .nb23 4 [1],
   .addRow .nb23 5 [1], .addRow .nb23 6 [1, 2], .addRow .nb23 7 [2], .addRow .nb23 8 [2], .addRow .nb23 9 [2],
   .setMark .d3 0 4, .setMark .d3 1 9, .setAct .d3 0 true, .setAct .d3 1 true, .setAct .d2 3 true]

/-- The mesh built by `fuseOps`. -/
def fuseBase : Mesh Int :=
  match (Mesh.empty : Mesh Int).run fuseOps with
  | ok m => m
  | _ => Mesh.empty

set_option maxRecDepth 10000 in
theorem fuseBase_wf : fuseBase.WF := by
  refine Mesh.run_wf_of_ok (ops := fuseOps) Mesh.empty_wf (Mesh.along_of_forall ?_ _)
    (show _ = ok fuseBase from rfl)
  intro o ho m
  simp only [fuseOps, List.mem_cons, List.not_mem_nil, or_false] at ho
  repeat (rcases ho with rfl | ho; · trivial)

/-- The hypotheses of `c113_information`. -/
example : ∀ b ∈ [Lst.face3, Lst.edge3, Lst.vert3], ∀ c ∈ [0, 1], c < fuseBase.num .d3 ∧
    ∀ r, fuseBase.row b c = ok r → ∀ x ∈ r, x < fuseBase.num b.target := by
  have key : ∀ b ∈ [Lst.face3, Lst.edge3, Lst.vert3], ∀ c ∈ [0, 1], c < fuseBase.num .d3 ∧
      (match fuseBase.row b c with
      | ok r => r.all (fun x => decide (x < fuseBase.num b.target))
      | _ => true) = true := by
    decide +kernel
  intro b hb c hc
  obtain ⟨h1, h2⟩ := key b hb c hc
  refine ⟨h1, ?_⟩
  intro r hr
  rw [hr] at h2
  simpa using h2

example : fuseBase.mergeInfo [0, 1] =
    ok ⟨([0, 1, 2, 4, 5, 6], [3]), ([0, 1, 2, 3, 4, 5, 6, 7, 8], []), ([0, 1, 2, 3, 4], [])⟩ := by decide +kernel

example : fuseBase.mergeInfo [1] = ok ⟨([], []), ([], []), ([], [])⟩ := by decide +kernel

/-- The hypotheses of `c113_join_partial`. -/
example : (∀ c ∈ [0, 1], c < fuseBase.num .d3) ∧ [[0], [1], [2]].length = fuseBase.num .d3 ∧
    (∀ x ∈ [0, 1, 2, 3, 4], x < fuseBase.num .d0) ∧ (∀ x ∈ [0, 1, 2, 3, 4, 5, 6, 7, 8], x < fuseBase.num .d1) ∧
    (∀ x ∈ [0, 1, 2, 4, 5, 6], x < fuseBase.num .d2) ∧ (∀ x ∈ [3], x < fuseBase.num .d2) ∧
    (∀ x ∈ [0, 1, 2, 3, 4], ∀ r, fuseBase.row .nb03 x = ok r → fuseBase.num .d3 ∉ r) ∧
    ∀ x ∈ [0, 1, 2, 3, 4, 5, 6, 7, 8], ∀ r, fuseBase.row .nb13 x = ok r → fuseBase.num .d3 ∉ r := by
  have k0 : ∀ x ∈ [0, 1, 2, 3, 4], (match fuseBase.row .nb03 x with
      | ok r => decide (fuseBase.num .d3 ∉ r)
      | _ => true) = true := by decide +kernel
  have k1 : ∀ x ∈ [0, 1, 2, 3, 4, 5, 6, 7, 8], (match fuseBase.row .nb13 x with
      | ok r => decide (fuseBase.num .d3 ∉ r)
      | _ => true) = true := by decide +kernel
  refine ⟨by decide +kernel, by decide +kernel, by decide +kernel, by decide +kernel, by decide +kernel,
    by decide +kernel, ?_, ?_⟩
  · intro x hx r hr
    have := k0 x hx
    rw [hr] at this
    simpa using this
  · intro x hx r hr
    have := k1 x hx
    rw [hr] at this
    simpa using this

/-- The mesh after the tetrahedra 0 and 1 are joined. -/
def fuseDone : Mesh Int :=
  match fuseBase.mergeCell3Ds [0, 1] [0, 1, 2, 3, 4] [0, 1, 2, 3, 4, 5, 6, 7, 8] [0, 1, 2, 4, 5, 6] [] [] [3]
    [[0], [1], [2]] with
  | ok r => r.1
  | _ => Mesh.empty

example : fuseDone.row .face3 3 = ok [0, 1, 2, 4, 5, 6] ∧ fuseDone.marker .d3 3 = ok 9 ∧
    fuseDone.active .d3 3 = ok true ∧ fuseDone.active .d3 0 = ok false ∧ fuseDone.active .d2 3 = ok false ∧
    fuseDone.row .nb03 2 = ok [2, 3] ∧ fuseDone.row .nb13 5 = ok [2, 3] ∧ fuseDone.row .nb23 6 = ok [3, 2] ∧
    KnowsNew fuseDone .nb03 [0, 1] 3 2 :=
  ⟨by decide +kernel, by decide +kernel, by decide +kernel, by decide +kernel, by decide +kernel,
    by decide +kernel, by decide +kernel, by decide +kernel, [2, 3], by decide +kernel, by decide, by decide⟩

set_option maxRecDepth 10000 in
/-- C113 is violated at vertices and edges without other polyhedra: after two of three tetrahedra are joined, with the
vertices, edges and faces the information gives, the vertex 1 and the edge 3 of the new polyhedron still list the two joined
tetrahedra, which are inactive, and not the new one. -/
theorem c113_ends_violated :
    fuseBase.mergeInfo [0, 1] =
      ok ⟨([0, 1, 2, 4, 5, 6], [3]), ([0, 1, 2, 3, 4, 5, 6, 7, 8], []), ([0, 1, 2, 3, 4], [])⟩ ∧
    fuseBase.mergeCell3Ds [0, 1] [0, 1, 2, 3, 4] [0, 1, 2, 3, 4, 5, 6, 7, 8] [0, 1, 2, 4, 5, 6] [] [] [3]
      [[0], [1], [2]] = ok (fuseDone, 3, [[0], [1], [2], [0, 1]]) ∧
    fuseDone.active .d3 0 = ok false ∧ fuseDone.row .nb03 1 = ok [0, 1] ∧ fuseDone.row .nb13 3 = ok [0, 1] ∧
    ¬ KnowsNew fuseDone .nb03 [0, 1] 3 1 ∧ ¬ KnowsNew fuseDone .nb13 [0, 1] 3 3 := by
  refine ⟨by decide +kernel, rfl, by decide +kernel, by decide +kernel, by decide +kernel, ?_, ?_⟩
  · rintro ⟨r, hr, h3, -⟩
    rw [show fuseDone.row .nb03 1 = ok [0, 1] by decide +kernel] at hr
    cases hr
    revert h3
    decide
  · rintro ⟨r, hr, h3, -⟩
    rw [show fuseDone.row .nb13 3 = ok [0, 1] by decide +kernel] at hr
    cases hr
    revert h3
    decide

end Verif
