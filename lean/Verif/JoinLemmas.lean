import Verif.JoinSpec
import Verif.CutLemmas

namespace Verif

open Res

theorem join_one {σ β : Type} (f : σ → β → Res σ) (s : σ) (x : β) : foldRes f s [x] = f s x := by
  rw [foldRes_cons]
  cases f s x <;> rfl

namespace AMesh

variable {α : Type} {A : AMesh α}

/-- Cells are made inactive. -/
def offAll (A : AMesh α) (d : Dim) : List Nat → AMesh α
  | [] => A
  | c :: cs => (A.withAct d c false).offAll d cs

theorem ok_offAll (h : A.Ok) (d : Dim) (cs : List Nat) : (A.offAll d cs).Ok := by
  induction cs generalizing A with
  | nil => exact h
  | cons c cs ih => exact ih (ok_withAct h d c false)

theorem offAll_frame (A : AMesh α) (d : Dim) (cs : List Nat) :
    (A.offAll d cs).dimension = A.dimension ∧ (A.offAll d cs).num = A.num ∧ (A.offAll d cs).coord = A.coord ∧
    (A.offAll d cs).ext = A.ext ∧ (A.offAll d cs).mark = A.mark ∧ (A.offAll d cs).orig = A.orig ∧
    (A.offAll d cs).upd = A.upd ∧ (A.offAll d cs).ids = A.ids ∧ (A.offAll d cs).props = A.props ∧
    (A.offAll d cs).rows = A.rows := by
  induction cs generalizing A with
  | nil => exact ⟨rfl, rfl, rfl, rfl, rfl, rfl, rfl, rfl, rfl, rfl⟩
  | cons c cs ih => exact ih (A.withAct d c false)

theorem offAll_act (A : AMesh α) (d : Dim) (cs : List Nat) (d' : Dim) (i : Nat) :
    ((A.offAll d cs).act d')[i]? =
      if d' = d ∧ i ∈ cs ∧ i < (A.act d').length then some false else (A.act d')[i]? := by
  induction cs generalizing A with
  | nil => simp [offAll]
  | cons c cs ih =>
    rw [offAll, ih]
    by_cases hd : d' = d
    · subst hd
      simp only [withAct, fset_self, List.length_set, true_and, List.mem_cons]
      by_cases hi : i < (A.act d').length
      · simp only [hi, and_true]
        by_cases h1 : i ∈ cs
        · simp [h1]
        · by_cases h2 : i = c
          · subst h2; simp [h1, hi]
          · simp [h1, h2, Ne.symm h2]
      · simp [hi]
    · simp [withAct, fset_ne _ _ hd, hd]

theorem offAll_conc (h : A.Ok) {d : Dim} {cs : List Nat} (hc : ∀ c ∈ cs, c < A.num d) :
    foldRes (fun (m : Mesh α) x => m.setAct d x false) A.conc cs = ok (A.offAll d cs).conc := by
  induction cs generalizing A with
  | nil => rfl
  | cons c cs ih =>
    rw [foldRes_cons, setAct_with h (hc c (by simp)), ok_bind]
    exact ih (ok_withAct h d c false) fun c' h' => hc c' (by simp [h'])

/-- The list of the edges that are not joined. -/
theorem otherEdges_conc (h : A.Ok) {l : Lst} {subs : List Nat} {x : Nat} {r : List Nat} (hr : (A.rows l)[x]? = some r) :
    A.conc.otherEdges l subs x = ok (restOf (A.num l.target) subs r) := by
  unfold Mesh.otherEdges
  rw [rowSize_conc h hr, ok_bind]
  have key : ∀ k, k ≤ r.length → foldRes (fun (acc : List Nat) k => do
      let has ← A.conc.hasEntry l x k
      if has then do
        let y ← A.conc.entry l x k
        if y ∈ subs then ok acc else ok (acc ++ [y])
      else ok acc) [] (List.range k) = ok (restOf (A.num l.target) subs (r.take k)) := by
    intro k
    induction k with
    | zero => intro _; rfl
    | succ k ih =>
      intro hk
      have hk' : k < r.length := by omega
      rw [List.range_succ, foldRes_append, ih (by omega), ok_bind, join_one, hasEntry_conc h hr hk', ok_bind,
        entry_conc h hr]
      simp only [agetD, List.getElem?_eq_getElem hk', ok_bind]
      rw [List.take_succ, List.getElem?_eq_getElem hk']
      unfold restOf
      rw [List.filter_append, Option.toList_some]
      by_cases h1 : r[k] < A.num l.target
      · rw [if_pos (by rw [decide_eq_true_iff]; exact h1)]
        by_cases h2 : r[k] ∈ subs
        · rw [if_pos h2]; simp [h2]
        · rw [if_neg h2]; simp [h1, h2]
      · rw [if_neg (by rw [decide_eq_true_iff]; exact h1)]
        simp [h1]
  have := key r.length le_rfl
  rw [List.take_length] at this
  exact this

/-- What is known about neighbours that are collected. -/
structure Coll (A : AMesh α) (l : Lst) (cs : List Nat) (P Q : List (Nat × Nat)) : Prop where
  nodup : (P.map Prod.fst).Nodup → (Q.map Prod.fst).Nodup
  mem : ∀ y, y ∈ Q.map Prod.fst ↔ y ∈ P.map Prod.fst ∨
    ∃ c ∈ cs, ∃ r, (A.rows l)[c]? = some r ∧ ∃ k : Nat, r[k]? = some y ∧ y < A.num l.target
  slot : ∀ p ∈ Q, p ∈ P ∨ ∃ c ∈ cs, ∃ r, (A.rows l)[c]? = some r ∧ r[p.2]? = some p.1 ∧ p.1 < A.num l.target

theorem collect_conc (h : A.Ok) {l : Lst} {c : Nat} {r : List Nat} (hr : (A.rows l)[c]? = some r)
    (P : List (Nat × Nat)) : ∃ Q, A.conc.collect l c P = ok Q ∧ Coll A l [c] P Q := by
  unfold Mesh.collect
  rw [rowSize_conc h hr, ok_bind]
  have key : ∀ k, k ≤ r.length → ∃ Q, foldRes (fun (acc : List (Nat × Nat)) k => do
      let has ← A.conc.hasEntry l c k
      if has then do
        let y ← A.conc.entry l c k
        if y ∈ acc.map Prod.fst then ok acc else ok (acc ++ [(y, k)])
      else ok acc) P (List.range k) = ok Q ∧ ((P.map Prod.fst).Nodup → (Q.map Prod.fst).Nodup) ∧
      (∀ y, y ∈ Q.map Prod.fst ↔ y ∈ P.map Prod.fst ∨ ∃ j, j < k ∧ r[j]? = some y ∧ y < A.num l.target) ∧
      (∀ p ∈ Q, p ∈ P ∨ r[p.2]? = some p.1 ∧ p.1 < A.num l.target) := by
    intro k
    induction k with
    | zero => intro _; exact ⟨P, rfl, id, by simp, fun p hp => Or.inl hp⟩
    | succ k ih =>
      intro hk
      have hk' : k < r.length := by omega
      obtain ⟨Q, e, h1, h2, h3⟩ := ih (by omega)
      rw [List.range_succ, foldRes_append, e, ok_bind, join_one, hasEntry_conc h hr hk', ok_bind, entry_conc h hr]
      simp only [agetD, List.getElem?_eq_getElem hk', ok_bind]
      have keep : (∃ y, r[k]? = some y ∧ (y < A.num l.target → y ∈ Q.map Prod.fst)) →
          ∀ y, y ∈ Q.map Prod.fst ↔ y ∈ P.map Prod.fst ∨ ∃ j, j < k + 1 ∧ r[j]? = some y ∧ y < A.num l.target := by
        rintro ⟨z, hz, hzQ⟩ y
        constructor
        · intro hy
          rcases (h2 y).1 hy with hy | ⟨j, hj, hy⟩
          · exact Or.inl hy
          · exact Or.inr ⟨j, by omega, hy⟩
        · rintro (hy | ⟨j, hj, hy, hlt⟩)
          · exact (h2 y).2 (Or.inl hy)
          · by_cases hjk : j = k
            · subst hjk
              rw [hz, Option.some.injEq] at hy
              subst hy
              exact hzQ hlt
            · exact (h2 y).2 (Or.inr ⟨j, by omega, hy, hlt⟩)
      by_cases hlt : r[k] < A.num l.target
      · rw [if_pos (by rw [decide_eq_true_iff]; exact hlt)]
        by_cases hm : r[k] ∈ Q.map Prod.fst
        · rw [if_pos hm]
          exact ⟨Q, rfl, h1, keep ⟨_, List.getElem?_eq_getElem hk', fun _ => hm⟩, h3⟩
        · rw [if_neg hm]
          refine ⟨_, rfl, ?_, ?_, ?_⟩
          · intro hP
            rw [List.map_append, List.nodup_append]
            refine ⟨h1 hP, by simp, ?_⟩
            rintro y hy z hz rfl
            simp only [List.map_cons, List.map_nil, List.mem_singleton] at hz
            subst hz
            exact hm hy
          · intro y
            rw [List.map_append, List.mem_append, h2]
            simp only [List.map_cons, List.map_nil, List.mem_singleton]
            constructor
            · rintro ((hy | ⟨j, hj, hy⟩) | rfl)
              · exact Or.inl hy
              · exact Or.inr ⟨j, by omega, hy⟩
              · exact Or.inr ⟨k, by omega, List.getElem?_eq_getElem hk', hlt⟩
            · rintro (hy | ⟨j, hj, hy, hlt'⟩)
              · exact Or.inl (Or.inl hy)
              · by_cases hjk : j = k
                · subst hjk
                  rw [List.getElem?_eq_getElem hk', Option.some.injEq] at hy
                  exact Or.inr hy.symm
                · exact Or.inl (Or.inr ⟨j, by omega, hy, hlt'⟩)
          · intro p hp
            rw [List.mem_append] at hp
            rcases hp with hp | hp
            · exact h3 p hp
            · simp only [List.mem_singleton] at hp
              subst hp
              exact Or.inr ⟨List.getElem?_eq_getElem hk', hlt⟩
      · rw [if_neg (by rw [decide_eq_true_iff]; exact hlt)]
        exact ⟨Q, rfl, h1, keep ⟨_, List.getElem?_eq_getElem hk', fun h => absurd h hlt⟩, h3⟩
  obtain ⟨Q, e, h1, h2, h3⟩ := key r.length le_rfl
  refine ⟨Q, e, h1, ?_, ?_⟩
  · intro y
    rw [h2]
    constructor
    · rintro (hy | ⟨j, -, hy⟩)
      · exact Or.inl hy
      · exact Or.inr ⟨c, by simp, r, hr, j, hy⟩
    · rintro (hy | ⟨c', hc', r', hr', j, hy⟩)
      · exact Or.inl hy
      · simp only [List.mem_singleton] at hc'
        subst hc'
        rw [hr, Option.some.injEq] at hr'
        subst hr'
        exact Or.inr ⟨j, (List.getElem?_eq_some_iff.1 hy.1).1, hy⟩
  · intro p hp
    rcases h3 p hp with hp | hp
    · exact Or.inl hp
    · exact Or.inr ⟨c, by simp, r, hr, hp⟩

theorem Coll.cons {l : Lst} {c : Nat} {cs : List Nat} {P Q R : List (Nat × Nat)} (h : Coll A l [c] P Q)
    (h' : Coll A l cs Q R) : Coll A l (c :: cs) P R where
  nodup := fun hP => h'.nodup (h.nodup hP)
  mem := fun y => by
    rw [h'.mem, h.mem]
    simp only [List.mem_cons, List.not_mem_nil, or_false, exists_eq_left, exists_eq_or_imp]
    rw [or_assoc]
  slot := fun p hp => by
    rcases h'.slot p hp with hp | ⟨c', hc', hh⟩
    · rcases h.slot p hp with hp | ⟨c', hc', hh⟩
      · exact Or.inl hp
      · simp only [List.mem_singleton] at hc'
        subst hc'
        exact Or.inr ⟨c', by simp, hh⟩
    · exact Or.inr ⟨c', by simp [hc'], hh⟩

theorem Coll.congr {B : AMesh α} {l : Lst} {cs : List Nat} {P Q : List (Nat × Nat)} (h : Coll B l cs P Q)
    (h1 : B.rows = A.rows) (h2 : B.num = A.num) : Coll A l cs P Q :=
  ⟨h.nodup, by have := h.mem; rw [h1, h2] at this; exact this, by have := h.slot; rw [h1, h2] at this; exact this⟩

/-- The loop over the edges. -/
theorem joinFold_conc {orig : List (List Nat)} {cs : List Nat} {A : AMesh α} (h : A.Ok) (hc : ∀ c ∈ cs, c < A.num .d1)
    (ho : A.num .d1 ≤ orig.length + 1) (hco : ∀ c ∈ cs, c < orig.length) (s : JoinState α) (hs : s.mesh = A.conc) :
    ∃ t, foldRes (Mesh.joinOne orig) s cs = ok t ∧ t.mesh = (A.offAll .d1 cs).conc ∧
      t.cells = s.cells ++ cs.flatMap (fun c => (orig[c]?).getD []) ∧
      s.marker ≤ t.marker ∧ (∀ c ∈ cs, ∀ k, (A.mark .d1)[c]? = some k → k ≤ t.marker) ∧
      (t.marker = s.marker ∨ ∃ c ∈ cs, (A.mark .d1)[c]? = some t.marker) ∧
      Coll A .nb12 cs s.polygons t.polygons ∧ Coll A .nb13 cs s.polyhedra t.polyhedra := by
  induction cs generalizing A s with
  | nil =>
    exact ⟨s, rfl, hs, by simp, le_rfl, by simp, Or.inl rfl, ⟨id, by simp, fun p hp => Or.inl hp⟩,
      ⟨id, by simp, fun p hp => Or.inl hp⟩⟩
  | cons c cs ih =>
    have hcn : c < A.num .d1 := hc c (by simp)
    have hB := ok_withAct h .d1 c false
    obtain ⟨k, hk⟩ : ∃ k, (A.mark .d1)[c]? = some k :=
      ⟨_, List.getElem?_eq_getElem (by rw [h.mark]; exact hcn)⟩
    have hcc : orig[c]? = some (orig[c]'(hco c (by simp))) := List.getElem?_eq_getElem _
    obtain ⟨r2, hr2⟩ := getElem?_row h (l := .nb12) (j := c) hcn
    obtain ⟨r3, hr3⟩ := getElem?_row h (l := .nb13) (j := c) hcn
    obtain ⟨P, eP, cP⟩ := collect_conc hB (l := .nb12) (c := c) hr2 s.polygons
    obtain ⟨Q, eQ, cQ⟩ := collect_conc hB (l := .nb13) (c := c) hr3 s.polyhedra
    obtain ⟨t, et, tm, tc, t1, t2, t3, tP, tQ⟩ := ih hB (fun c' h' => hc c' (by simp [h'])) ho
      (fun c' h' => hco c' (by simp [h']))
      ⟨(A.withAct .d1 c false).conc, if s.marker < k then k else s.marker, s.cells ++ orig[c]'(hco c (by simp)), P, Q⟩
      rfl
    refine ⟨t, ?_, tm, ?_, ?_, ?_, ?_, (cP.cons tP).congr rfl rfl,
      (cQ.cons tQ).congr rfl rfl⟩
    · rw [foldRes_cons]
      unfold Mesh.joinOne at et ⊢
      rw [hs, setAct_with h hcn, ok_bind, marker_conc (A := A.withAct .d1 c false) hcn hk, ok_bind]
      unfold vat at et ⊢
      rw [hcc]
      simp only [ok_bind]
      rw [eP, ok_bind, eQ, ok_bind, ok_bind]
      exact et
    · rw [tc]
      simp only [List.flatMap_cons, hcc, Option.getD_some, List.append_assoc]
    · refine le_trans ?_ t1
      simp only
      split <;> omega
    · intro c' hc' k' hk'
      simp only [List.mem_cons] at hc'
      rcases hc' with rfl | hc'
      · rw [hk, Option.some.injEq] at hk'
        subst hk'
        refine le_trans ?_ t1
        simp only
        split <;> omega
      · exact t2 c' hc' k' hk'
    · rcases t3 with t3 | ⟨c', hc', hk'⟩
      · rw [t3]
        simp only
        split
        · exact Or.inr ⟨c, by simp, hk⟩
        · exact Or.inl rfl
      · exact Or.inr ⟨c', by simp [hc'], hk'⟩

/-- Polygons are put in their slots. -/
theorem putSlots_conc {l : Lst} {new : Nat} {ps : List (Nat × Nat)} {A : AMesh α} (h : A.Ok) {r : List Nat}
    (hr : (A.rows l)[new]? = some r) (hp : ∀ p ∈ ps, p.2 < r.length ∧ p.1 < A.num l.target) :
    foldRes (fun (m : Mesh α) p => m.insertEntry l new p.2 p.1) A.conc ps =
      ok (A.setRow l new (ps.foldl (fun r p => r.set p.2 p.1) r)).conc := by
  induction ps generalizing A r with
  | nil => rw [List.foldl_nil, setRow_self hr]; rfl
  | cons p ps ih =>
    obtain ⟨h1, h2⟩ := hp p (by simp)
    rw [foldRes_cons, insertEntry_conc h hr h1 h2, ok_bind, List.foldl_cons]
    rw [ih (ok_setRow h _ _ _) (setRow_row (lt_of_getElem? hr)) (fun p' hp' => by
      obtain ⟨a, b⟩ := hp p' (by simp [hp'])
      exact ⟨by simpa using a, b⟩), setRow_setRow]

/-- The polygons of the new edge. -/
def polyRow (keep : Bool) (ps : List (Nat × Nat)) : List Nat :=
  if ps = [] then []
  else if keep then ps.foldl (fun r p => r.set p.2 p.1) [UINT_MAX, UINT_MAX] else ps.map Prod.fst

theorem joinPolygons_conc (h : A.Ok) {new : Nat} {keep : Bool} {ps : List (Nat × Nat)}
    (hr : (A.rows .nb12)[new]? = some []) (hp : ∀ p ∈ ps, (keep = true → p.2 < 2) ∧ p.1 < A.num .d2) :
    A.conc.joinPolygons new keep ps = ok (A.setRow .nb12 new (polyRow keep ps)).conc := by
  have hn : new < A.num .d1 := by
    have := lt_of_getElem? hr
    rwa [h.rows] at this
  unfold Mesh.joinPolygons polyRow
  by_cases h0 : ps = []
  · rw [if_pos h0, if_pos h0, setRow_self hr]
  rw [if_neg h0, if_neg h0]
  cases keep with
  | false =>
    simp only [Bool.false_eq_true, if_false]
    refine addRow_conc h hn (by simp) ?_
    intro v hv
    obtain ⟨p, hp', rfl⟩ := List.mem_map.1 hv
    exact (hp p hp').2
  | true =>
    simp only [if_true]
    rw [resizeRowOf_conc h hr (by simp), ok_bind]
    have e : vresize ([] : List Nat) 2 (Lst.fillOne .nb12) = [UINT_MAX, UINT_MAX] := rfl
    rw [e, putSlots_conc (r := [UINT_MAX, UINT_MAX]) (ok_setRow h _ _ _) (setRow_row (lt_of_getElem? hr))
      (fun p hp' => ⟨(hp p hp').1 rfl, (hp p hp').2⟩), setRow_setRow]

theorem joinPolyhedra_conc (h : A.Ok) {new : Nat} {qs : List Nat}
    (hr : (A.rows .nb13)[new]? = some []) (hq : ∀ q ∈ qs, q < A.num .d3) :
    A.conc.joinPolyhedra new qs = ok (A.setRow .nb13 new qs).conc := by
  have hn : new < A.num .d1 := by
    have := lt_of_getElem? hr
    rwa [h.rows] at this
  unfold Mesh.joinPolyhedra
  by_cases h0 : qs = []
  · subst h0
    rw [if_pos rfl, setRow_self hr]
  rw [if_neg h0]
  exact addRow_conc h hn (by simp) hq

/-- The list of edges of an end afterwards. -/
def endRow (n : Nat) (subs : List Nat) (new : Nat) (r : List Nat) : List Nat :=
  if restOf n subs r = [] then r else restOf n subs r ++ [new]

theorem joinEnd_conc (h : A.Ok) {l : Lst} {subs : List Nat} {new x : Nat} {r : List Nat} (hr : (A.rows l)[x]? = some r)
    (hl : l.isNeighbour) (hn : new < A.num l.target) :
    A.conc.joinEnd l subs new x = ok (A.setRow l x (endRow (A.num l.target) subs new r)).conc := by
  have hx : x < A.num l.owner := by
    have := lt_of_getElem? hr
    rwa [h.rows] at this
  unfold Mesh.joinEnd endRow
  rw [otherEdges_conc h hr, ok_bind]
  by_cases h0 : restOf (A.num l.target) subs r = []
  · rw [if_pos h0, if_pos h0, setRow_self hr]
  · rw [if_neg h0, if_neg h0]
    refine addRow_conc h hx (by cases l <;> simp_all [Lst.isNeighbour]) ?_
    intro v hv
    rw [List.mem_append, List.mem_singleton] at hv
    rcases hv with hv | rfl
    · unfold restOf at hv
      rw [List.mem_filter] at hv
      simp only [decide_eq_true_eq] at hv
      exact hv.2.1
    · exact hn

/-- The mesh after the last part. -/
def joinedA (A : AMesh α) (subs removed : List Nat) (new a b k : Nat) (p q ra rb : List Nat) : AMesh α :=
  ((((((((A.withExt new a b).withMark .d1 new k).withAct .d1 new true).setRow .nb12 new p).setRow .nb13 new q).setRow
    .nb01 a (endRow (A.num .d1) subs new ra)).setRow .nb01 b (endRow (A.num .d1) subs new rb)).offAll .d0 removed)

theorem joinFinish_conc (h : A.Ok) {subs removed : List Nat} {new a b k : Nat} {keep : Bool} {ps : List (Nat × Nat)}
    {qs ra rb : List Nat} (hn : new < A.num .d1) (h2 : (A.rows .nb12)[new]? = some [])
    (h3 : (A.rows .nb13)[new]? = some []) (hp : ∀ p ∈ ps, (keep = true → p.2 < 2) ∧ p.1 < A.num .d2)
    (hq : ∀ q ∈ qs, q < A.num .d3) (hab : a ≠ b) (ha : (A.rows .nb01)[a]? = some ra)
    (hb : (A.rows .nb01)[b]? = some rb) (hrem : ∀ x ∈ removed, x < A.num .d0) :
    A.conc.joinFinish subs removed new a b k keep ps qs =
      ok (A.joinedA subs removed new a b k (polyRow keep ps) qs ra rb).conc ∧
    (A.joinedA subs removed new a b k (polyRow keep ps) qs ra rb).Ok := by
  unfold Mesh.joinFinish joinedA
  have k1 := ok_withExt h new a b
  have k2 := ok_withMark k1 .d1 new k
  have k3 := ok_withAct k2 .d1 new true
  rw [insertExt_with h hn, ok_bind, setMark_with k1 hn, ok_bind, setAct_with k2 hn, ok_bind]
  have hx := extremes_withExt h (a := a) (b := b) hn
  generalize hB : ((A.withExt new a b).withMark .d1 new k).withAct .d1 new true = B at k3
  have b1 : B.num = A.num := by rw [← hB]; rfl
  have b2 : B.rows = A.rows := by rw [← hB]; rfl
  have b3 : B.ext = (A.withExt new a b).ext := by rw [← hB]; rfl
  rw [joinPolygons_conc k3 (by rw [b2]; exact h2) (by rw [b1]; exact hp), ok_bind]
  have k4 := ok_setRow k3 .nb12 new (polyRow keep ps)
  generalize hC : B.setRow .nb12 new (polyRow keep ps) = C at k4
  have c1 : C.num = A.num := by rw [← hC]; exact b1
  have c2 : ∀ l, l ≠ .nb12 → C.rows l = A.rows l := by
    intro l hl
    rw [← hC]
    unfold setRow
    rw [setRows_rows_ne _ _ hl, b2]
  have c3 : C.ext = (A.withExt new a b).ext := by rw [← hC]; exact b3
  rw [joinPolyhedra_conc k4 (by rw [c2 _ (by simp)]; exact h3) (by rw [c1]; exact hq), ok_bind]
  have k5 := ok_setRow k4 .nb13 new qs
  generalize hD : C.setRow .nb13 new qs = D at k5
  have d1 : D.num = A.num := by rw [← hD]; exact c1
  have d2 : D.rows .nb01 = A.rows .nb01 := by
    rw [← hD]
    unfold setRow
    rw [setRows_rows_ne _ _ (by simp), c2 _ (by simp)]
  have d3 : D.ext = (A.withExt new a b).ext := by rw [← hD]; exact c3
  have eD : D.conc.extremes new = ok (a, b) := by
    rw [← hx]
    exact extremes_congr d1 d3
  rw [eD, ok_bind]
  simp only
  rw [joinEnd_conc k5 (l := .nb01) (by rw [d2]; exact ha) rfl (by rw [d1]; exact hn), ok_bind]
  rw [show Lst.target .nb01 = .d1 from rfl]
  have k6 := ok_setRow k5 .nb01 a (endRow (D.num .d1) subs new ra)
  have hal : a < (D.rows .nb01).length := by rw [d2]; exact lt_of_getElem? ha
  rw [d1] at k6 ⊢
  have eb' : ((D.setRow .nb01 a (endRow (A.num .d1) subs new ra)).rows .nb01)[b]? = some rb := by
    rw [setRow_rows _ _ _ _ _ _ hal, if_neg (by simp [Ne.symm hab]), d2]
    exact hb
  generalize hE : D.setRow .nb01 a (endRow (A.num .d1) subs new ra) = E at k6 eb'
  have e1 : E.num = A.num := by rw [← hE]; exact d1
  have eE : E.conc.extremes new = ok (a, b) := by
    rw [← hx]
    refine extremes_congr e1 ?_
    have : E.ext = D.ext := by rw [← hE]; rfl
    exact this.trans d3
  rw [eE, ok_bind]
  simp only
  rw [joinEnd_conc k6 (l := .nb01) eb' rfl (by rw [e1]; exact hn), ok_bind, e1]
  have k7 := ok_setRow k6 .nb01 b (endRow (A.num .d1) subs new rb)
  refine ⟨?_, ok_offAll k7 _ _⟩
  refine offAll_conc k7 ?_
  show ∀ x ∈ removed, x < E.num .d0
  rw [e1]
  exact hrem

theorem holdsAt_conc (h : A.Ok) {l : Lst} {c k y : Nat} : HoldsAt A.conc l c k y ↔
    ∃ r, (A.rows l)[c]? = some r ∧ r[k]? = some y ∧ y < A.num l.target := by
  constructor
  · rintro ⟨r, h1, h2⟩
    exact ⟨r, row_eq_ok h h1, h2⟩
  · rintro ⟨r, h1, h2⟩
    exact ⟨r, row_conc h h1, h2⟩

open Classical in
/-- The test of a vertex. -/
theorem innerFrom_conc (h : A.Ok) {l : Lst} {min : Nat} {subs : List Nat} {x : Nat}
    {r : List Nat} (hr : (A.rows l)[x]? = some r)
    {ns : List Nat} (hns : ∀ n ∈ ns, n < r.length) (k : Nat) :
    A.conc.innerFrom l min subs x ns k = ok (decide (min ≤ k + ns.length ∧
      ∀ n ∈ ns, ∀ y, r[n]? = some y → y < A.num l.target ∧ y ∈ subs)) := by
  induction ns generalizing k with
  | nil => simp [Mesh.innerFrom]
  | cons n ns ih =>
    have hn : n < r.length := hns n (by simp)
    unfold Mesh.innerFrom
    rw [hasEntry_conc h hr hn, ok_bind, entry_conc h hr]
    simp only [agetD, List.getElem?_eq_getElem hn, ok_bind]
    by_cases h1 : r[n] < A.num l.target
    · rw [if_pos (by rw [decide_eq_true_iff]; exact h1)]
      by_cases h2 : r[n] ∈ subs
      · rw [if_pos h2, ih (fun n' hn' => hns n' (by simp [hn']))]
        congr 1
        apply decide_eq_decide.2
        simp only [List.length_cons, List.mem_cons, forall_eq_or_imp, List.getElem?_eq_getElem hn, Option.some.injEq]
        constructor
        · rintro ⟨a, b⟩
          exact ⟨by omega, fun y hy => by subst hy; exact ⟨h1, h2⟩, b⟩
        · rintro ⟨a, -, b⟩
          exact ⟨by omega, b⟩
      · rw [if_neg h2]
        congr 1
        symm
        rw [decide_eq_false_iff_not]
        rintro ⟨-, b⟩
        exact h2 (b n (by simp) _ (List.getElem?_eq_getElem hn)).2
    · rw [if_neg (by rw [decide_eq_true_iff]; exact h1)]
      congr 1
      symm
      rw [decide_eq_false_iff_not]
      rintro ⟨-, b⟩
      exact h1 (b n (by simp) _ (List.getElem?_eq_getElem hn)).1

/-- What is known about the two lists after the vertices in `X`. -/
structure JoinInv (A : AMesh α) (l : Lst) (min : Nat) (subs : List Nat) (X : Nat → Prop) (s : List Nat × List Nat) : Prop where
  nodup1 : s.1.Nodup
  nodup2 : s.2.Nodup
  kept : ∀ x, x ∈ s.1 ↔ X x ∧ ¬ IsInner A.conc l min subs x
  removed : ∀ x, x ∈ s.2 ↔ X x ∧ IsInner A.conc l min subs x

theorem JoinInv.congr {l : Lst} {min : Nat} {subs : List Nat} {X Y : Nat → Prop} {s : List Nat × List Nat} (h : JoinInv A l min subs X s)
    (e : ∀ x, Y x ↔ X x) : JoinInv A l min subs Y s :=
  ⟨h.nodup1, h.nodup2, fun x => by rw [h.kept, e], fun x => by rw [h.removed, e]⟩

theorem joinVertex_conc (h : A.Ok) {l : Lst} {min : Nat} {subs : List Nat} {X : Nat → Prop} {s : List Nat × List Nat}
    (hs : JoinInv A l min subs X s) {x : Nat} (hx : x < A.num l.owner) :
    ∃ t, A.conc.joinVertex l min subs s x = ok t ∧ JoinInv A l min subs (fun y => X y ∨ y = x) t := by
  obtain ⟨r, hr⟩ := getElem?_row h (l := l) (j := x) hx
  unfold Mesh.joinVertex
  by_cases h0 : x ∈ s.2
  · rw [if_pos h0]
    refine ⟨s, rfl, hs.congr fun y => ?_⟩
    constructor
    · rintro (hy | rfl)
      · exact hy
      · exact ((hs.removed _).1 h0).1
    · exact Or.inl
  rw [if_neg h0, rowSize_conc h hr, ok_bind, innerFrom_conc h hr (by simp), ok_bind]
  have hin : IsInner A.conc l min subs x ↔ (min ≤ 0 + (List.range r.length).length ∧
      ∀ n ∈ List.range r.length, ∀ y, r[n]? = some y → y < A.num l.target ∧ y ∈ subs) := by
    simp only [Nat.zero_add, List.length_range, List.mem_range]
    constructor
    · rintro ⟨r', h1, h2, h3⟩
      have := row_eq_ok h h1
      rw [hr, Option.some.injEq] at this
      subst this
      exact ⟨h2, fun n _ y hy => h3 y (List.mem_of_getElem? hy)⟩
    · rintro ⟨h2, h3⟩
      refine ⟨r, row_conc h hr, h2, fun y hy => ?_⟩
      obtain ⟨n, hn, rfl⟩ := List.getElem_of_mem hy
      exact h3 n hn _ (List.getElem?_eq_getElem hn)
  by_cases h1 : IsInner A.conc l min subs x
  · rw [if_pos (by rw [decide_eq_true_iff]; exact hin.1 h1)]
    refine ⟨_, rfl, hs.nodup1, ?_, ?_, ?_⟩
    · rw [List.nodup_append]
      refine ⟨hs.nodup2, by simp, ?_⟩
      rintro y hy z hz rfl
      simp only [List.mem_singleton] at hz
      subst hz
      exact h0 hy
    · intro y
      rw [hs.kept]
      constructor
      · rintro ⟨a, b⟩; exact ⟨Or.inl a, b⟩
      · rintro ⟨a | rfl, b⟩
        · exact ⟨a, b⟩
        · exact absurd h1 b
    · intro y
      simp only [List.mem_append, List.mem_singleton, hs.removed]
      constructor
      · rintro (⟨a, b⟩ | rfl)
        · exact ⟨Or.inl a, b⟩
        · exact ⟨Or.inr rfl, h1⟩
      · rintro ⟨a | rfl, b⟩
        · exact Or.inl ⟨a, b⟩
        · exact Or.inr rfl
  · rw [if_neg (by rw [decide_eq_true_iff]; exact fun h => h1 (hin.2 h))]
    refine ⟨_, rfl, setInsert_nodup hs.nodup1 _, hs.nodup2, ?_, ?_⟩
    · intro y
      simp only [mem_setInsert, hs.kept]
      constructor
      · rintro (⟨a, b⟩ | rfl)
        · exact ⟨Or.inl a, b⟩
        · exact ⟨Or.inr rfl, h1⟩
      · rintro ⟨a | rfl, b⟩
        · exact Or.inl ⟨a, b⟩
        · exact Or.inr rfl
    · intro y
      rw [hs.removed]
      constructor
      · rintro ⟨a, b⟩; exact ⟨Or.inl a, b⟩
      · rintro ⟨a | rfl, b⟩
        · exact ⟨a, b⟩
        · exact absurd b h1

theorem joinEdges_conc (h : A.Ok) {subs cs : List Nat} {X : Nat → Prop} {s : List Nat × List Nat}
    (hs : JoinInv A .nb01 2 subs X s)
    (hc : ∀ c ∈ cs, ∃ a b, A.conc.extremes c = ok (a, b) ∧ a < A.num .d0 ∧ b < A.num .d0) :
    ∃ t, foldRes (A.conc.joinEdge subs) s cs = ok t ∧ JoinInv A .nb01 2 subs (fun y => X y ∨ IsEndOf A.conc cs y) t := by
  induction cs generalizing s X with
  | nil => exact ⟨s, rfl, hs.congr fun y => by simp [IsEndOf]⟩
  | cons c cs ih =>
    obtain ⟨a, b, e, ha, hb⟩ := hc c (by simp)
    obtain ⟨t1, e1, i1⟩ := joinVertex_conc h (l := .nb01) hs ha
    obtain ⟨t2, e2, i2⟩ := joinVertex_conc h (l := .nb01) i1 hb
    obtain ⟨t, e3, i3⟩ := ih i2 (fun c' hc' => hc c' (by simp [hc']))
    refine ⟨t, ?_, i3.congr fun y => ?_⟩
    · rw [foldRes_cons]
      unfold Mesh.joinEdge at e3 ⊢
      rw [e, ok_bind]
      simp only
      rw [e1, ok_bind, ok_bind]
      simp only
      rw [e2, ok_bind]
      exact e3
    · have : IsEndOf A.conc (c :: cs) y ↔ (y = a ∨ y = b) ∨ IsEndOf A.conc cs y := by
        unfold IsEndOf
        constructor
        · rintro ⟨c', hc', a', b', e', hy⟩
          rcases List.mem_cons.1 hc' with rfl | hc'
          · rw [e] at e'
            cases e'
            exact Or.inl hy
          · exact Or.inr ⟨c', hc', a', b', e', hy⟩
        · rintro (hy | ⟨c', hc', hh⟩)
          · exact ⟨c, by simp, a, b, e, hy⟩
          · exact ⟨c', by simp [hc'], hh⟩
      rw [this]
      tauto

/-- The slots after all polygons are put in. -/
theorem foldl_slots {f : Nat → Nat} {ps : List (Nat × Nat)} (hp : ∀ p ∈ ps, p.1 = f p.2) (r : List Nat) (k : Nat)
    (hk : k < r.length) :
    (ps.foldl (fun r p => r.set p.2 p.1) r).length = r.length ∧
    ((∃ p ∈ ps, p.2 = k) → (ps.foldl (fun r p => r.set p.2 p.1) r)[k]? = some (f k)) ∧
    ((∀ p ∈ ps, p.2 ≠ k) → (ps.foldl (fun r p => r.set p.2 p.1) r)[k]? = r[k]?) := by
  induction ps generalizing r with
  | nil => simp
  | cons p ps ih =>
    obtain ⟨h1, h2, h3⟩ := ih (fun p' hp' => hp p' (by simp [hp'])) (r.set p.2 p.1) (by simpa using hk)
    rw [List.foldl_cons]
    refine ⟨by rw [h1]; simp, ?_, ?_⟩
    · rintro ⟨q, hq, hqk⟩
      by_cases h4 : ∃ p ∈ ps, p.2 = k
      · exact h2 h4
      · have h4' : ∀ p ∈ ps, p.2 ≠ k := fun p hp' e => h4 ⟨p, hp', e⟩
        rw [h3 h4']
        rcases List.mem_cons.1 hq with rfl | hq
        · rw [hqk, List.getElem?_set_self hk, hp q (by simp), hqk]
        · exact absurd hqk (h4' q hq)
    · intro hne
      rw [h3 (fun p' hp' => hne p' (by simp [hp'])), List.getElem?_set_ne (hne p (by simp))]

/-- The parts of the final mesh. -/
theorem joinedA_frame (A : AMesh α) (subs removed : List Nat) (new a b k : Nat) (p q ra rb : List Nat) (F : AMesh α)
    (hF : A.joinedA subs removed new a b k p q ra rb = F) :
    F.num = A.num ∧ F.dimension = A.dimension ∧ F.coord = A.coord ∧
    F.ext = (A.ext.set (2 * new) a).set (2 * new + 1) b ∧ F.mark = fset A.mark .d1 ((A.mark .d1).set new k) ∧
    F.orig = A.orig ∧ F.upd = A.upd ∧ F.ids = A.ids ∧ F.props = A.props := by
  subst hF
  unfold joinedA
  obtain ⟨f1, f2, f3, f4, f5, f6, f7, f8, f9, -⟩ := offAll_frame
    (((((((A.withExt new a b).withMark .d1 new k).withAct .d1 new true).setRow .nb12 new p).setRow .nb13 new q).setRow
    .nb01 a (endRow (A.num .d1) subs new ra)).setRow .nb01 b (endRow (A.num .d1) subs new rb)) .d0 removed
  exact ⟨f2, f1, f3, f4, f5, f6, f7, f8, f9⟩

theorem joinedA_act (A : AMesh α) (subs removed : List Nat) (new a b k : Nat) (p q ra rb : List Nat) (F : AMesh α)
    (hF : A.joinedA subs removed new a b k p q ra rb = F) (d : Dim) (i : Nat) :
    (F.act d)[i]? = if d = .d0 ∧ i ∈ removed ∧ i < (A.act .d0).length then some false
      else (fset A.act .d1 ((A.act .d1).set new true) d)[i]? := by
  subst hF
  unfold joinedA
  rw [offAll_act]
  by_cases hd : d = .d0
  · subst hd
    rfl
  · rw [if_neg (fun h => hd h.1), if_neg (fun h => hd h.1)]
    rfl

theorem joinedA_rows (h : A.Ok) (subs removed : List Nat) (new a b k : Nat) (p q ra rb : List Nat) (F : AMesh α)
    (hF : A.joinedA subs removed new a b k p q ra rb = F) (hn : new < A.num .d1) (ha : a < A.num .d0)
    (hb : b < A.num .d0) (l : Lst) (i : Nat) :
    (F.rows l)[i]? = if l = .nb01 ∧ i = b then some (endRow (A.num .d1) subs new rb)
      else if l = .nb01 ∧ i = a then some (endRow (A.num .d1) subs new ra)
      else if l = .nb13 ∧ i = new then some q else if l = .nb12 ∧ i = new then some p else (A.rows l)[i]? := by
  subst hF
  unfold joinedA
  rw [(offAll_frame _ .d0 removed).2.2.2.2.2.2.2.2.2]
  have k1 := ok_withAct (ok_withMark (ok_withExt h new a b) .d1 new k) .d1 new true
  have r1 : (((A.withExt new a b).withMark .d1 new k).withAct .d1 new true).rows = A.rows := rfl
  have n1 : (((A.withExt new a b).withMark .d1 new k).withAct .d1 new true).num = A.num := rfl
  generalize ((A.withExt new a b).withMark .d1 new k).withAct .d1 new true = B at k1 r1 n1
  have k2 := ok_setRow k1 .nb12 new p
  have k3 := ok_setRow k2 .nb13 new q
  have k4 := ok_setRow k3 .nb01 a (endRow (A.num .d1) subs new ra)
  rw [setRow_rows _ _ _ _ _ _ (by rw [k4.rows]; show b < B.num .d0; rw [n1]; exact hb),
    setRow_rows _ _ _ _ _ _ (by rw [k3.rows]; show a < B.num .d0; rw [n1]; exact ha),
    setRow_rows _ _ _ _ _ _ (by rw [k2.rows]; show new < B.num .d1; rw [n1]; exact hn),
    setRow_rows _ _ _ _ _ _ (by rw [k1.rows]; show new < B.num .d1; rw [n1]; exact hn), r1]

end AMesh

theorem joinCell1Ds_eq {α : Type} [Zero α] (ord2 : List (Nat × Nat) → List (Nat × Nat)) (ord3 : List Nat → List Nat)
    (m : Mesh α) (subs removed : List Nat) (orig : List (List Nat)) (keep : Bool) (a b : Nat) (hl : 2 ≤ subs.length)
    {m1 m2 : Mesh α} {t : JoinState α} (h1 : m.append .d1 1 = ok (m1, m.num .d1)) (ho : orig.length = m.num .d1)
    (ht : foldRes (Mesh.joinOne orig) ⟨m1, 0, [], [], []⟩ subs = ok t)
    (hf : t.mesh.joinFinish subs removed (m.num .d1) a b t.marker keep (ord2 t.polygons)
      (ord3 (t.polyhedra.map Prod.fst)) = ok m2) :
    m.joinCell1Ds ord2 ord3 subs [a, b] removed orig keep = ok (m2, m.num .d1, orig ++ [t.cells]) := by
  have v1 : vat (orig ++ [[]]) (m.num .d1) = ok [] := by
    unfold vat
    rw [← ho, List.getElem?_append_right le_rfl, Nat.sub_self]
    rfl
  have v2 : vset (orig ++ [[]]) (m.num .d1) t.cells = ok (orig ++ [t.cells]) := by
    rw [vset_of_lt _ (by rw [List.length_append]; simp [ho]), ← ho]
    simp [List.set_append]
  have e : m.joinCell1Ds ord2 ord3 subs [a, b] removed orig keep =
      m.joinMany ord2 ord3 subs [a, b] removed orig keep := by
    clear ht hf
    match subs, hl with
    | c :: c' :: cs, _ => rfl
  rw [e]
  unfold Mesh.joinMany
  rw [h1, ok_bind]
  simp only
  rw [ht, ok_bind, v1, ok_bind, v2, ok_bind]
  show (do let m ← t.mesh.joinFinish _ _ _ a b _ _ _ _; _) = _
  rw [hf, ok_bind]

end Verif
