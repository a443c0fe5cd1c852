import Verif.Pass3Lemmas

/-
Helper lemmas: the loops over the faces of a polyhedron and over the polyhedra of an edge.
-/
namespace Verif

open Res

variable {α : Type}

/-- The table with the new polygons. -/
def tableOf (m : Mesh α) (M : List (Nat × Nat)) (fs : List Nat) : List (Nat × Nat) :=
  M ++ fs.zipIdx.map fun p => (p.1, m.num .d2 + p.2)

theorem tableOf_snoc (m : Mesh α) (M : List (Nat × Nat)) (fs : List Nat) (f : Nat) :
    tableOf m M (fs ++ [f]) = tableOf m M fs ++ [(f, m.num .d2 + fs.length)] := by
  simp [tableOf, List.zipIdx_append]

theorem pairOf_none {M : List (Nat × Nat)} {f : Nat} (h : pairOf M f = none) : ∀ x, (f, x) ∉ M := by
  unfold pairOf at h
  rw [Option.map_eq_none_iff, List.find?_eq_none] at h
  intro x hx
  exact h _ hx (by simp)

theorem pairOf_some {M : List (Nat × Nat)} {f x : Nat} (h : pairOf M f = some x) : (f, x) ∈ M := by
  unfold pairOf at h
  rw [Option.map_eq_some_iff] at h
  obtain ⟨p, hp, rfl⟩ := h
  have h1 := List.mem_of_find?_eq_some hp
  have h2 := List.find?_some hp
  have : p.1 = f := by simpa using h2
  rw [← this]
  exact h1

theorem mem_tableOf {m : Mesh α} {M : List (Nat × Nat)} {fs : List Nat} {f : Nat} :
    (∃ x, (f, x) ∈ tableOf m M fs) ↔ (∃ x, (f, x) ∈ M) ∨ f ∈ fs := by
  unfold tableOf
  constructor
  · rintro ⟨x, hx⟩
    rw [List.mem_append] at hx
    rcases hx with hx | hx
    · exact .inl ⟨x, hx⟩
    · rw [List.mem_map] at hx
      obtain ⟨p, hp, he⟩ := hx
      cases he
      exact .inr (List.fst_mem_of_mem_zipIdx hp)
  · rintro (⟨x, hx⟩ | hx)
    · exact ⟨x, List.mem_append_left _ hx⟩
    · obtain ⟨j, hj⟩ := List.getElem?_of_mem hx
      refine ⟨m.num .d2 + j, List.mem_append_right _ (List.mem_map.2 ⟨(f, j), ?_, rfl⟩)⟩
      rw [List.mem_zipIdx_iff_getElem?]
      exact hj

theorem tableOf_lt {m : Mesh α} {M : List (Nat × Nat)} {fs : List Nat} (hM : ∀ p ∈ M, p.2 < m.num .d2) :
    ∀ p ∈ tableOf m M fs, p.2 < m.num .d2 + fs.length := by
  intro p hp
  unfold tableOf at hp
  rw [List.mem_append] at hp
  rcases hp with hp | hp
  · have := hM p hp
    omega
  · rw [List.mem_map] at hp
    obtain ⟨x, hx, rfl⟩ := hp
    have := List.snd_lt_of_mem_zipIdx hx
    simp only
    omega

theorem findIn_once {l : List Nat} {e k : Nat} (h : ∀ i, l[i]? = some e ↔ i = k) : Mesh.findIn l e = k := by
  have hk := (h k).2 rfl
  have h1 := (findIn_spec l e).2.2 (List.mem_of_getElem? hk)
  exact (h _).1 ((findIn_spec l e).2.1 h1)

theorem findIn_nodup {l : List Nat} (hl : l.Nodup) {e k : Nat} (hk : l[k]? = some e) : Mesh.findIn l e = k := by
  refine findIn_once (fun i => ⟨fun hi => ?_, fun hi => hi ▸ hk⟩)
  obtain ⟨a, ha⟩ := List.getElem?_eq_some_iff.1 hi
  obtain ⟨b, hb⟩ := List.getElem?_eq_some_iff.1 hk
  exact (hl.getElem_inj_iff).1 (ha.trans hb.symm)

theorem findIn_absent {l : List Nat} {e : Nat} (h : e ∉ l) : Mesh.findIn l e = l.length := by
  have h1 := findIn_spec l e
  rcases Nat.lt_or_ge (Mesh.findIn l e) l.length with hlt | hge
  · exact absurd (List.mem_of_getElem? (h1.2.1 hlt)) h
  · exact Nat.le_antisymm h1.1 hge

theorem set_once {l : List Nat} {e k x : Nat} (h : ∀ i, l[i]? = some e ↔ i = k) :
    l.set k x = l.map fun y => if y = e then x else y := by
  apply List.ext_getElem?
  intro i
  rw [List.getElem?_set, List.getElem?_map]
  by_cases hi : k = i
  · subst hi
    have := (h k).2 rfl
    rw [if_pos rfl, if_pos (List.getElem?_eq_some_iff.1 this).1, this]
    simp
  · rw [if_neg hi]
    cases hl : l[i]? with
    | none => rfl
    | some y =>
      have : y ≠ e := by
        rintro rfl
        exact hi ((h i).1 hl).symm
      simp [this]

section

variable [Zero α] {m : Mesh α} {e w h0 h1 : Nat} {directions : List (List (List Bool))} {k : Nat → Nat} {dir : Nat → Bool}
  {vs es : Nat → List Nat} {ns : List Nat} {M : List (Nat × Nat)}

/-- The loop over the faces. -/
theorem faceLoop_spec (he : e < m.num .d1) (hw : w < m.num .d0) (hh0 : h0 < m.num .d1) (hh1 : h1 < m.num .d1)
    {q : Nat} {gs : List Nat} (hq : q < m.num .d3) (hgs : m.row .face3 q = ok gs) (hnd : gs.Nodup)
    (hin : ∀ (p : Nat) f, gs[p]? = some f → FaceInput m e directions k dir vs es q p f)
    (hns : ∀ x ∈ ns, x < m.num .d3) {m0 : Mesh α} {fs : List Nat}
    (hP : PassedOn m m0 e w h0 h1 (fun f => withVertex (vs f) (es f) (k f) w h0 h1 (dir f)) fs ns (tableOf m M fs))
    (hfs : fs.Nodup) (hfs2 : ∀ x ∈ fs, x < m.num .d2) :
    ∀ n, n ≤ gs.length → ∃ m' fs' done,
      foldRes (Mesh.passToFace q e w [h0, h1] directions gs) (m0, gs, tableOf m M fs) (List.range n) =
        ok (m', done ++ gs.drop n, tableOf m M fs') ∧ done.length = n ∧
      PassedOn m m' e w h0 h1 (fun f => withVertex (vs f) (es f) (k f) w h0 h1 (dir f)) fs' ns (tableOf m M fs') ∧
      List.Forall₂ (TakesPlace m e (tableOf m M fs')) (gs.take n) done ∧ fs'.Nodup ∧
      ∀ f, f ∈ fs' ↔ f ∈ fs ∨ f ∈ gs.take n ∧ e ∈ es f ∧ ∀ x, (f, x) ∉ M := by
  intro n
  induction n with
  | zero => exact fun _ => ⟨m0, fs, [], by simp [foldRes], rfl, hP, by simp, hfs, by simp⟩
  | succ n ih =>
    intro hn
    obtain ⟨m', fs', done, hrun, hdone, hP', hall, hnd', hmem⟩ := ih (by omega)
    have hnlt : n < gs.length := by omega
    obtain ⟨f, hf⟩ : ∃ f, gs[n]? = some f := ⟨_, List.getElem?_eq_getElem hnlt⟩
    have htake : gs.take (n + 1) = gs.take n ++ [f] := by rw [List.take_add_one, hf]; rfl
    have hdrop : gs.drop n = f :: gs.drop (n + 1) := by
      rw [List.drop_eq_getElem_cons hnlt]
      rw [(List.getElem?_eq_some_iff.1 hf).2]
    obtain ⟨hb, hside⟩ := hin n f hf
    have hflt : f < m.num .d2 := lt_of_row hb.vertices
    have hfs2' : ∀ x ∈ fs', x < m.num .d2 := by
      intro x hx
      rcases (hmem x).1 hx with hx | ⟨hx, -⟩
      · exact hfs2 x hx
      · obtain ⟨p, hp⟩ := List.getElem?_of_mem (List.mem_of_mem_take hx)
        exact lt_of_row (hin p x hp).1.vertices
    have hb' : BoundedBy m' f (vs f) (es f) :=
      ⟨by rw [hP'.rows _ _ hflt (by simp) (by simp) (by simp) (by simp) (by simp)]; exact hb.vertices,
       by rw [hP'.rows _ _ hflt (by simp) (by simp) (by simp) (by simp) (by simp)]; exact hb.edges, hb.count,
       fun x hx => hP'.lt (hb.vertex_lt x hx), fun x hx => hP'.lt (hb.edge_lt x hx)⟩
    have hgs' : m'.row .face3 q = ok gs := by
      rw [hP'.rows _ _ hq (by simp) (by simp) (by simp) (by simp) (by simp)]; exact hgs
    have hset : ∀ x, vset (done ++ gs.drop n) n x = ok ((done ++ [x]) ++ gs.drop (n + 1)) := by
      intro x
      rw [vset_of_lt _ (by simp [hdone]; omega), hdrop, List.set_append_right _ _ (by omega), hdone]
      simp
    have fold : ∀ {s}, Mesh.passToFace q e w [h0, h1] directions gs (m', done ++ gs.drop n, tableOf m M fs') n = ok s →
        foldRes (Mesh.passToFace q e w [h0, h1] directions gs) (m0, gs, tableOf m M fs) (List.range (n + 1)) = ok s := by
      intro s hs
      rw [List.range_succ, foldRes_append, hrun, ok_bind]
      simp only [foldRes, hs, ok_bind]
    have hstart : Mesh.passToFace q e w [h0, h1] directions gs (m', done ++ gs.drop n, tableOf m M fs') n =
        (if Mesh.findIn (es f) e = (vs f).length then ok (m', done ++ gs.drop n, tableOf m M fs')
        else (do
          assert (n < gs.length)
          match pairOf (tableOf m M fs') f with
          | none => do
              let d3 ← vat directions q
              let d2 ← vat d3 n
              let d ← vat d2 (Mesh.findIn (es f) e)
              let r ← m'.addVertexOnEdge f d (Mesh.findIn (es f) e) [h0, h1] w
              let row ← vset (done ++ gs.drop n) n r.2
              ok (r.1, row, tableOf m M fs' ++ [(f, r.2)])
          | some x => do
              let row ← vset (done ++ gs.drop n) n x
              ok (m', row, tableOf m M fs'))) := by
      unfold Mesh.passToFace
      rw [vat_of_getElem? hf, ok_bind]
      unfold Mesh.findEntry
      rw [hb'.edges, ok_bind, ok_bind, rowSize_of_row hP'.wf hb'.vertices, ok_bind]
      by_cases hx : Mesh.findIn (es f) e = (vs f).length
      · rw [if_pos hx, if_pos hx]
      · rw [if_neg hx, if_neg hx, hgs', ok_bind, ok_bind, findIn_nodup hnd hf]
        rfl
    by_cases hef : e ∈ es f
    · obtain ⟨hk, d3, d2, e3, e2, e1⟩ := hside hef
      have hfind := findIn_once hk
      have hklt : k f < (vs f).length := by
        rw [← hb.count]
        exact (List.getElem?_eq_some_iff.1 ((hk _).2 rfl)).1
      rw [hfind, if_neg (by omega), assert_true hnlt, ok_bind] at hstart
      cases hpair : pairOf (tableOf m M fs') f with
      | some x =>
        rw [hpair] at hstart
        simp only [hset, ok_bind] at hstart
        have hx := pairOf_some hpair
        refine ⟨m', fs', done ++ [x], fold hstart, by simp [hdone], hP', ?_, hnd', ?_⟩
        · rw [htake]
          exact List.rel_append hall (.cons ⟨es f, hb.edges, .inl ⟨hef, hx⟩⟩ .nil)
        · intro g
          rw [hmem, htake, List.mem_append, List.mem_singleton]
          constructor
          · rintro (hg | ⟨hg, hg'⟩)
            · exact .inl hg
            · exact .inr ⟨.inl hg, hg'⟩
          · rintro (hg | ⟨hg | rfl, hg'⟩)
            · exact .inl hg
            · exact .inr ⟨hg, hg'⟩
            · rcases mem_tableOf.1 ⟨x, hx⟩ with ⟨y, hy⟩ | hy
              · exact absurd hy (hg'.2 y)
              · exact (hmem g).1 hy
      | none =>
        rw [hpair] at hstart
        have hno := pairOf_none hpair
        have hno' : f ∉ fs' ∧ ∀ x, (f, x) ∉ M := by
          refine ⟨fun hc => ?_, fun x hx => ?_⟩
          · obtain ⟨x, hx⟩ := (mem_tableOf (m := m) (M := M)).2 (.inr hc)
            exact hno x hx
          · obtain ⟨y, hy⟩ := (mem_tableOf (m := m) (fs := fs')).2 (.inl ⟨x, hx⟩)
            exact hno y hy
        obtain ⟨m'', a1, a2⟩ := addVertexOnEdge_spec (dir := dir f) hP'.wf hb' hklt (hP'.lt hw) (hP'.lt hh0) (hP'.lt hh1)
        simp only [vat_of_getElem? e3, vat_of_getElem? e2, vat_of_getElem? e1, ok_bind, a1, hset] at hstart
        have hnum : m'.num .d2 = m.num .d2 + fs'.length := hP'.num2
        rw [hnum, ← tableOf_snoc] at hstart
        have hsub : ∀ p ∈ tableOf m M fs', p ∈ tableOf m M (fs' ++ [f]) := by
          intro p hp
          rw [tableOf_snoc]
          exact List.mem_append_left _ hp
        refine ⟨m'', fs' ++ [f], done ++ [m.num .d2 + fs'.length], fold hstart, by simp [hdone],
          hP'.face he hflt hno'.1 hsub hfs2' hns a2 rfl, ?_, ?_, ?_⟩
        · rw [htake]
          refine List.rel_append (hall.imp fun _ _ => TakesPlace.mono hsub) (.cons ⟨es f, hb.edges, .inl ⟨hef, ?_⟩⟩ .nil)
          rw [tableOf_snoc]
          simp
        · rw [List.nodup_append]
          exact ⟨hnd', by simp, fun a ha b hb => by
            rw [List.mem_singleton] at hb; rintro rfl; exact hno'.1 (hb ▸ ha)⟩
        · intro g
          rw [List.mem_append, hmem, htake, List.mem_append, List.mem_singleton]
          constructor
          · rintro ((hg | ⟨hg, hg'⟩) | rfl)
            · exact .inl hg
            · exact .inr ⟨.inl hg, hg'⟩
            · exact .inr ⟨.inr rfl, hef, hno'.2⟩
          · rintro (hg | ⟨hg | rfl, hg'⟩)
            · exact .inl (.inl hg)
            · exact .inl (.inr ⟨hg, hg'⟩)
            · exact .inr rfl
    · rw [if_pos (by rw [findIn_absent hef, hb.count])] at hstart
      refine ⟨m', fs', done ++ [f], fold (by rw [hstart, hdrop]; simp), by simp [hdone], hP', ?_, hnd', ?_⟩
      · rw [htake]
        exact List.rel_append hall (.cons ⟨es f, hb.edges, .inr ⟨hef, rfl⟩⟩ .nil)
      · intro g
        rw [hmem, htake, List.mem_append, List.mem_singleton]
        constructor
        · rintro (hg | ⟨hg, hg'⟩)
          · exact .inl hg
          · exact .inr ⟨.inl hg, hg'⟩
        · rintro (hg | ⟨hg | rfl, hg'⟩)
          · exact .inl hg
          · exact .inr ⟨hg, hg'⟩
          · exact absurd hg'.1 hef

/-- The replacement of a polyhedron. -/
theorem passToSolid_spec (he : e < m.num .d1) (hw : w < m.num .d0) (hh0 : h0 < m.num .d1) (hh1 : h1 < m.num .d1) (he0 : h0 ≠ e)
    (he1 : h1 ≠ e) {r : List Nat} (hr : m.row .nb13 e = ok r) (hM : ∀ p ∈ M, p.2 < m.num .d2) {q : Nat}
    {vs3 es3 gs : List Nat} (hs : SolidInput m e directions k dir vs es q vs3 es3 gs) (hqn : q ∉ ns)
    (hns : ∀ x ∈ ns, x < m.num .d3) {m0 : Mesh α} {fs : List Nat} {out : List (Nat × Nat)}
    (hP : PassedOn m m0 e w h0 h1 (fun f => withVertex (vs f) (es f) (k f) w h0 h1 (dir f)) fs ns (tableOf m M fs))
    (hfs : fs.Nodup) (hfs2 : ∀ x ∈ fs, x < m.num .d2) :
    ∃ m' fs', Mesh.passToSolid q e w [h0, h1] directions m0 out (tableOf m M fs) =
        ok (m', out ++ [(q, m.num .d3 + ns.length)], tableOf m M fs') ∧
      PassedOn m m' e w h0 h1 (fun f => withVertex (vs f) (es f) (k f) w h0 h1 (dir f)) fs' (ns ++ [q]) (tableOf m M fs') ∧
      fs'.Nodup ∧ ∀ f, f ∈ fs' ↔ f ∈ fs ∨ f ∈ gs ∧ e ∈ es f ∧ ∀ x, (f, x) ∉ M := by
  have hq : q < m.num .d3 := lt_of_row hs.vertices
  obtain ⟨m', fs', done, hrun, hdone, hP', hall, hnd', hmem⟩ := faceLoop_spec he hw hh0 hh1 hq hs.faces hs.once hs.face hns hP
    hfs hfs2 gs.length le_rfl
  rw [List.drop_length, List.append_nil] at hrun
  rw [List.take_length] at hall hmem
  have hfs2' : ∀ x ∈ fs', x < m.num .d2 := by
    intro x hx
    rcases (hmem x).1 hx with hx | ⟨hx, -⟩
    · exact hfs2 x hx
    · obtain ⟨p, hp⟩ := List.getElem?_of_mem hx
      exact lt_of_row (hs.face p x hp).1.vertices
  have hlt : ∀ x ∈ done, x < m'.num .d2 := by
    intro x hx
    obtain ⟨j, hj⟩ := List.getElem?_of_mem hx
    obtain ⟨hjl, hjx⟩ := List.getElem?_eq_some_iff.1 hj
    have hjg : j < gs.length := by omega
    have := (List.forall₂_iff_get.1 hall).2 j hjg hjl
    obtain ⟨l, hl, h | h⟩ := this
    · have := tableOf_lt (fs := fs') hM _ h.2
      rw [hP'.num2]
      simp only [List.get_eq_getElem] at this
      omega
    · have h2 := h.2
      simp only [List.get_eq_getElem] at h2 hl
      have : gs[j] < m.num .d2 := lt_of_row hl
      rw [hP'.num2]
      omega
  obtain ⟨m'', b1, b2⟩ := hP'.solid hq hqn hfs2' hns hs.toSolidOf hw hh0 hh1 he0 he1 hr hall hlt
  refine ⟨m'', fs', ?_, b2, hnd', hmem⟩
  obtain ⟨i, hi⟩ := hs.edge
  have hil : i < es3.length := (List.getElem?_eq_some_iff.1 ((hi i).2 rfl)).1
  unfold Mesh.passToSolid
  have r1 : m0.row .vert3 q = ok vs3 := by
    rw [hP.rows _ _ hq (by simp) (by simp) (by simp) (by simp) (by simp)]; exact hs.vertices
  have r2 : m0.row .edge3 q = ok es3 := by
    rw [hP.rows _ _ hq (by simp) (by simp) (by simp) (by simp) (by simp)]; exact hs.edges
  have r3 : m0.row .face3 q = ok gs := by
    rw [hP.rows _ _ hq (by simp) (by simp) (by simp) (by simp) (by simp)]; exact hs.faces
  have g0 : vget [h0, h1] 0 = ok h0 := rfl
  have g1 : vget [h0, h1] 1 = ok h1 := rfl
  unfold Mesh.findEntry
  simp only [r1, r2, r3, ok_bind, findIn_once hi, assert_true hil, g0, g1, vset_of_lt _ hil, hrun, set_once hi, b1]
  rfl

/-- The loop over the polyhedra of the edge. -/
theorem aroundLoop_spec (h : m.WF) (he : e < m.num .d1) (hw : w < m.num .d0) (hh0 : h0 < m.num .d1) (hh1 : h1 < m.num .d1)
    (he0 : h0 ≠ e) (he1 : h1 ≠ e) {r : List Nat} (hr : m.row .nb13 e = ok r)
    (hf : ∀ y ∈ r, y < m.num .d3 ∨ m.num .d3 + r.length ≤ y) (hM : ∀ p ∈ M, p.2 < m.num .d2) {c : Nat}
    {vs3 es3 gs : Nat → List Nat}
    (hin : ∀ q ∈ r, q < m.num .d3 → q ≠ c → m.updated .d3 q = ok none →
      SolidInput m e directions k dir vs es q (vs3 q) (es3 q) (gs q)) :
    ∀ n, n ≤ r.length → ∃ m' ns fs,
      foldRes (Mesh.passAround c e w [h0, h1] directions) (m, [], M) (List.range n) =
        ok (m', ns.zipIdx.map (fun p => (p.1, m.num .d3 + p.2)), tableOf m M fs) ∧
      SolidsConcerned m c (r.take n) ns ∧ fs.Nodup ∧
      (∀ f, f ∈ fs ↔ (∃ q ∈ ns, f ∈ gs q) ∧ e ∈ es f ∧ ∀ x, (f, x) ∉ M) ∧
      PassedOn m m' e w h0 h1 (fun f => withVertex (vs f) (es f) (k f) w h0 h1 (dir f)) fs ns (tableOf m M fs) := by
  intro n
  induction n with
  | zero => exact fun _ => ⟨m, [], [], by simp [foldRes, tableOf], ⟨by simp, by simp, by simp⟩, by simp, by simp,
      PassedOn.refl h _ _ _ _ _ _⟩
  | succ n ih =>
    intro hn
    obtain ⟨m', ns, fs, hrun, hc, hnd, hmem, hP⟩ := ih (by omega)
    have hnlt : n < r.length := by omega
    obtain ⟨v, hv⟩ : ∃ v, r[n]? = some v := ⟨_, List.getElem?_eq_getElem hnlt⟩
    have hvr : v ∈ r := List.mem_of_getElem? hv
    have htake : r.take (n + 1) = r.take n ++ [v] := by rw [List.take_add_one, hv]; rfl
    have hnslt : ∀ d ∈ ns, d < m.num .d3 := fun d hd => ((hc.mem d).1 hd).2.1
    have hinns : ∀ q ∈ ns, SolidInput m e directions k dir vs es q (vs3 q) (es3 q) (gs q) := by
      intro q hq
      obtain ⟨a1, a2, a3, a4⟩ := (hc.mem q).1 hq
      exact hin q (List.mem_of_mem_take a1) a2 a3 a4
    have hle : ns.length ≤ n := by
      have := hc.sub.length_le
      rw [List.length_take] at this
      omega
    have hre : m'.row .nb13 e = ok r := by rw [hP.around, hr]
    have hhas := hasEntry_of_row hP.wf hre hv
    have hent := entry_of_row hP.wf hre hv
    have skip : ¬ (v < m.num .d3 ∧ v ≠ c ∧ m.updated .d3 v = ok none) ∨ v ∈ ns →
        Mesh.passAround c e w [h0, h1] directions (m', ns.zipIdx.map (fun p => (p.1, m.num .d3 + p.2)), tableOf m M fs) n =
          ok (m', ns.zipIdx.map (fun p => (p.1, m.num .d3 + p.2)), tableOf m M fs) → ∃ m' ns fs,
        foldRes (Mesh.passAround c e w [h0, h1] directions) (m, [], M) (List.range (n + 1)) =
          ok (m', ns.zipIdx.map (fun p => (p.1, m.num .d3 + p.2)), tableOf m M fs) ∧
        SolidsConcerned m c (r.take (n + 1)) ns ∧ fs.Nodup ∧
        (∀ f, f ∈ fs ↔ (∃ q ∈ ns, f ∈ gs q) ∧ e ∈ es f ∧ ∀ x, (f, x) ∉ M) ∧
        PassedOn m m' e w h0 h1 (fun f => withVertex (vs f) (es f) (k f) w h0 h1 (dir f)) fs ns (tableOf m M fs) := by
      intro hno hstep
      refine ⟨m', ns, fs, ?_, ⟨?_, hc.once, fun d => ?_⟩, hnd, hmem, hP⟩
      · rw [List.range_succ, foldRes_append, hrun, ok_bind]
        simp only [foldRes, hstep, ok_bind]
      · rw [htake]; exact hc.sub.trans (List.sublist_append_left _ _)
      · rw [hc.mem, htake, List.mem_append, List.mem_singleton]
        constructor
        · rintro ⟨q1, q2⟩; exact ⟨.inl q1, q2⟩
        · rintro ⟨q1 | rfl, q2⟩
          · exact ⟨q1, q2⟩
          · rcases hno with hno | hno
            · exact absurd q2 hno
            · exact (hc.mem _).1 hno
    by_cases hlt : v < m.num .d3
    · have hlt' : v < m'.num .d3 := hP.lt hlt
      by_cases hvc : v = c
      · apply skip (.inl (fun q => q.2.1 hvc))
        unfold Mesh.passAround
        simp only [hhas, ok_bind, show Lst.nb13.target = .d3 from rfl, hlt', decide_true, hent, hvc]
        simp
      · by_cases hup : m'.updated .d3 v = ok none
        · have hvn : v ∉ ns := by
            intro hin
            obtain ⟨j, hj⟩ := List.getElem?_of_mem hin
            obtain ⟨-, _, new, -, e2, -⟩ := hP.oldSolids j v hj
            rw [hup] at e2
            cases e2
          have hup' : m.updated .d3 v = ok none := by
            rw [← hP.updated .d3 v hlt (by simp) (by simp [hvn])]; exact hup
          have hs := hin v hvr hlt hvc hup'
          have hfs2 : ∀ x ∈ fs, x < m.num .d2 := by
            intro x hx
            obtain ⟨⟨q, hq, hxq⟩, -⟩ := (hmem x).1 hx
            obtain ⟨p, hp⟩ := List.getElem?_of_mem hxq
            exact lt_of_row ((hinns q hq).face p x hp).1.vertices
          obtain ⟨m'', fs', a1, a2, a3, a4⟩ := passToSolid_spec (out := ns.zipIdx.map (fun p => (p.1, m.num .d3 + p.2)))
            he hw hh0 hh1 he0 he1 hr hM hs hvn hnslt hP hnd hfs2
          refine ⟨m'', ns ++ [v], fs', ?_, ⟨?_, ?_, fun d => ?_⟩, a3, fun f => ?_, a2⟩
          · rw [List.range_succ, foldRes_append, hrun, ok_bind]
            have hstep : Mesh.passAround c e w [h0, h1] directions
                (m', ns.zipIdx.map (fun p => (p.1, m.num .d3 + p.2)), tableOf m M fs) n =
                ok (m'', (ns ++ [v]).zipIdx.map (fun p => (p.1, m.num .d3 + p.2)), tableOf m M fs') := by
              unfold Mesh.passAround
              simp only [hhas, ok_bind, show Lst.nb13.target = .d3 from rfl, hlt', decide_true, hent,
                if_neg hvc, hup]
              rw [if_neg (by simp), if_neg (by simp), a1]
              simp [List.zipIdx_append]
            simp only [foldRes, hstep, ok_bind]
          · rw [htake]; exact hc.sub.append (List.Sublist.refl _)
          · rw [List.nodup_append]
            exact ⟨hc.once, by simp, fun a ha b hb => by
              rw [List.mem_singleton] at hb; rintro rfl; exact hvn (hb ▸ ha)⟩
          · rw [htake, List.mem_append, List.mem_append, hc.mem, List.mem_singleton]
            constructor
            · rintro (⟨q1, q2⟩ | rfl)
              · exact ⟨.inl q1, q2⟩
              · exact ⟨.inr rfl, hlt, hvc, hup'⟩
            · rintro ⟨q1 | q1, q2⟩
              · exact .inl ⟨q1, q2⟩
              · exact .inr q1
          · rw [a4, hmem]
            constructor
            · rintro (⟨⟨q, hq, hfq⟩, hx⟩ | ⟨hfq, hx⟩)
              · exact ⟨⟨q, by simp [hq], hfq⟩, hx⟩
              · exact ⟨⟨v, by simp, hfq⟩, hx⟩
            · rintro ⟨⟨q, hq, hfq⟩, hx⟩
              rw [List.mem_append, List.mem_singleton] at hq
              rcases hq with hq | rfl
              · exact .inl ⟨⟨q, hq, hfq⟩, hx⟩
              · exact .inr ⟨hfq, hx⟩
        · have hu := Mesh.updated_of_lt hlt'
          have hsome : ∃ x, m'.updated .d3 v = ok (some x) := by
            rw [hu] at hup ⊢
            cases hx : mapFind (m'.upd .d3) v with
            | none => rw [hx] at hup; exact absurd rfl hup
            | some x => exact ⟨x, rfl⟩
          obtain ⟨x, hx⟩ := hsome
          refine skip ?_ ?_
          · by_cases hin : v ∈ ns
            · exact .inr hin
            · refine .inl (fun q => hup ?_)
              rw [hP.updated .d3 v hlt (by simp) (by simp [hin])]
              exact q.2.2
          · unfold Mesh.passAround
            simp only [hhas, ok_bind, show Lst.nb13.target = .d3 from rfl, hlt', decide_true, hent,
              if_neg hvc, hx]
            simp
    · have hge : ¬ v < m'.num .d3 := by
        rcases hf v hvr with q | q
        · exact absurd q hlt
        · rw [hP.num3]; omega
      apply skip (.inl (fun q => hlt q.1))
      unfold Mesh.passAround
      simp only [hhas, ok_bind, show Lst.nb13.target = .d3 from rfl, hge, decide_false]
      simp

end

end Verif
