import Verif.AlignLemmas

/-!
# Lemmas for the lines of the edges of a polyhedron: groups and marks
-/

namespace Verif
open Res

variable {K : Type} [Field K] [LinearOrder K] [IsStrictOrderedRing K]

/-- The ends of the edge with the given number. -/
def edgeAt (edges : List (Nat × Nat)) (e : Nat) : Nat × Nat := edges.getD e (0, 0)

theorem edgeAt_of {edges : List (Nat × Nat)} {e : Nat} {p : Nat × Nat} (h : edges[e]? = some p) :
    edgeAt edges e = p := by simp [edgeAt, h]

theorem edgeAt_mem {edges : List (Nat × Nat)} {e : Nat} (h : e < edges.length) : edgeAt edges e ∈ edges := by
  simp [edgeAt, h]

theorem corner_get {points : List (V3 K)} {v : Nat} (h : v < points.length) :
    vget points v = ok (corner points v) := by
  rw [vget_of_lt h]
  simp [corner, h]

theorem corner_mem {points : List (V3 K)} {v : Nat} (h : v < points.length) : corner points v ∈ points := by
  simp [corner, h]

theorem corner_inj {points : List (V3 K)} (hn : points.Nodup) {u v : Nat} (hu : u < points.length)
    (hv : v < points.length) (h : corner points u = corner points v) : u = v := by
  simp only [corner, List.getD_eq_getElem?_getD, List.getElem?_eq_getElem hu, List.getElem?_eq_getElem hv,
    Option.getD_some] at h
  exact (List.Nodup.getElem_inj_iff hn).1 h

/-- What is assumed about the polyhedron. -/
structure AlignInput (g : GeoCfg K) (points : List (V3 K)) (edges : List (Nat × Nat)) (tangents : List (V3 K))
    (lengths : List K) : Prop where
  graph : EdgeGraph points.length edges
  nodup : points.Nodup
  tangent : ∀ (e : Nat) p, edges[e]? = some p →
    tangents[e]? = some ((corner points p.2).sub (corner points p.1))
  length : ∀ (e : Nat) p, edges[e]? = some p → ∃ s, lengths[e]? = some s ∧ 0 < s
  clear : g.LinesClear points edges

variable {g : GeoCfg K} {sqrt : K → K} {points : List (V3 K)} {edges : List (Nat × Nat)} {tangents : List (V3 K)}
  {lengths : List K}

/-- Two edges, by their numbers, are on the same line. -/
def SameE (points : List (V3 K)) (edges : List (Nat × Nat)) (b e : Nat) : Prop :=
  SameLine points (edgeAt edges b) (edgeAt edges e)

theorem AlignInput.corner_ne (h : AlignInput g points edges tangents lengths) {p : Nat × Nat} (hp : p ∈ edges) :
    corner points p.1 ≠ corner points p.2 := by
  obtain ⟨h1, h2, h3⟩ := h.graph.range p hp
  exact fun k => h3 (corner_inj h.nodup h1 h2 k)

theorem SameLine.refl (p : Nat × Nat) : SameLine points p p := ⟨onLine_self _ _, onLine_end _ _⟩

theorem AlignInput.same_symm (h : AlignInput g points edges tangents lengths) {p q : Nat × Nat} (hq : q ∈ edges)
    (hpq : SameLine points p q) : SameLine points q p :=
  ⟨onLine_of (h.corner_ne hq) hpq.1 hpq.2 (onLine_self _ _), onLine_of (h.corner_ne hq) hpq.1 hpq.2 (onLine_end _ _)⟩

theorem AlignInput.same_trans (h : AlignInput g points edges tangents lengths) {p q r : Nat × Nat} (hq : q ∈ edges)
    (hpq : SameLine points p q) (hqr : SameLine points q r) : SameLine points p r :=
  ⟨onLine_back (h.corner_ne hq) hpq.1 hpq.2 hqr.1, onLine_back (h.corner_ne hq) hpq.1 hpq.2 hqr.2⟩

/-- The vertex is an end of one of the given edges that are on the line of `b`. -/
def EndOn (points : List (V3 K)) (edges : List (Nat × Nat)) (trace : List Nat) (b v : Nat) : Prop :=
  ∃ e ∈ trace, SameE points edges b e ∧ (v = (edgeAt edges e).1 ∨ v = (edgeAt edges e).2)

/-- The line `l` of the edge `b` after the given edges. -/
structure LineOK (points : List (V3 K)) (edges : List (Nat × Nat)) (trace : List Nat) (b : Nat)
    (l : AlignedEdge K) : Prop where
  origin : l.origin = corner points (edgeAt edges b).1 ∨ l.origin = corner points (edgeAt edges b).2
  tangent : l.tangent = (corner points (edgeAt edges b).2).sub (corner points (edgeAt edges b).1)
  length : 0 < l.squaredLength
  nodup : l.vertices.Nodup
  mem : ∀ v, v ∈ l.vertices ↔ EndOn points edges trace b v

/-- The lines after the given edges: one for each class of edges on the same line. -/
def GroupInv (points : List (V3 K)) (edges : List (Nat × Nat)) (trace : List Nat) (lines : List (AlignedEdge K)) :
    Prop :=
  ∃ bases : List Nat, (∀ b ∈ bases, b ∈ trace) ∧ bases.Pairwise (fun a b => ¬ SameE points edges a b) ∧
    (∀ e ∈ trace, ∃ b ∈ bases, SameE points edges b e) ∧ List.Forall₂ (LineOK points edges trace) bases lines

theorem forall₂_imp_mem {α β : Type} {R S : α → β → Prop} {l : List α} {m : List β} (h : List.Forall₂ R l m)
    (hi : ∀ a ∈ l, ∀ b, R a b → S a b) : List.Forall₂ S l m := by
  induction h with
  | nil => exact .nil
  | cons h1 _ ih => exact .cons (hi _ (by simp) _ h1) (ih fun a ha => hi a (by simp [ha]))

theorem nodup_addVertex {vs : List Nat} (h : vs.Nodup) (v : Nat) : (addVertex vs v).Nodup := by
  unfold addVertex
  split
  · exact h
  · rw [List.nodup_append]
    refine ⟨h, by simp, ?_⟩
    intro a ha b hb
    simp only [List.mem_singleton] at hb
    subst hb
    exact fun e => by subst e; contradiction

theorem mem_addVertex {vs : List Nat} {u v : Nat} : u ∈ addVertex vs v ↔ u ∈ vs ∨ u = v := by
  unfold addVertex
  split
  · constructor
    · exact Or.inl
    · rintro (h | rfl)
      · exact h
      · assumption
  · simp

theorem LineOK.skip {trace : List Nat} {b e : Nat} {l : AlignedEdge K} (h : LineOK points edges trace b l)
    (hn : ¬ SameE points edges b e) : LineOK points edges (trace ++ [e]) b l := by
  refine ⟨h.origin, h.tangent, h.length, h.nodup, fun v => (h.mem v).trans ⟨?_, ?_⟩⟩
  · rintro ⟨x, hx, h1⟩
    exact ⟨x, by simp [hx], h1⟩
  · rintro ⟨x, hx, h1, h2⟩
    rcases List.mem_append.1 hx with hx | hx
    · exact ⟨x, hx, h1, h2⟩
    · simp only [List.mem_singleton] at hx
      subst hx
      exact absurd h1 hn

theorem LineOK.add {trace : List Nat} {b e v w : Nat} {l : AlignedEdge K} (h : LineOK points edges trace b l)
    (hn : SameE points edges b e) (he : edgeAt edges e = (v, w) ∨ edgeAt edges e = (w, v)) :
    LineOK points edges (trace ++ [e]) b { l with vertices := addVertex (addVertex l.vertices v) w } := by
  refine ⟨h.origin, h.tangent, h.length, nodup_addVertex (nodup_addVertex h.nodup v) w, fun u => ?_⟩
  simp only [mem_addVertex, h.mem u]
  constructor
  · rintro ((⟨x, hx, h1⟩ | rfl) | rfl)
    · exact ⟨x, by simp [hx], h1⟩
    · exact ⟨e, by simp, hn, by rcases he with he | he <;> simp [he]⟩
    · exact ⟨e, by simp, hn, by rcases he with he | he <;> simp [he]⟩
  · rintro ⟨x, hx, h1, h2⟩
    rcases List.mem_append.1 hx with hx | hx
    · exact Or.inl (Or.inl ⟨x, hx, h1, h2⟩)
    · simp only [List.mem_singleton] at hx
      subst hx
      rcases he with he | he <;> rw [he] at h2 <;> tauto

/-- The test of the code for a line and an edge. -/
theorem AlignInput.test (h : AlignInput g points edges tangents lengths) (hs : IsSqrt sqrt) (h0 : 0 ≤ g.minTolerance)
    {trace : List Nat} {b e v w : Nat} {l : AlignedEdge K} (hb : b < edges.length) (he' : e < edges.length)
    (hl : LineOK points edges trace b l) (he : edgeAt edges e = (v, w) ∨ edgeAt edges e = (w, v)) :
    (g.pointIsOnLine sqrt l.origin l.tangent (corner points v) &&
      g.pointIsOnLine sqrt l.origin l.tangent (corner points w)) = true ↔ SameE points edges b e := by
  have hbm := edgeAt_mem hb
  have hr := h.graph.range _ (edgeAt_mem he')
  have hvw : v < points.length ∧ w < points.length := by
    rcases he with he | he <;> rw [he] at hr
    · exact ⟨hr.1, hr.2.1⟩
    · exact ⟨hr.2.1, hr.1⟩
  have key : ∀ u, u < points.length → (g.pointIsOnLine sqrt l.origin l.tangent (corner points u) = true ↔
      OnLine (corner points (edgeAt edges b).1) (corner points (edgeAt edges b).2) (corner points u)) := by
    intro u hu
    refine pointIsOnLine_iff hs g h0 (h.corner_ne hbm) hl.origin _ hl.tangent ?_
    rcases hl.origin with ho | ho <;> rw [ho]
    · exact h.clear _ hbm _ (Or.inl rfl) _ (corner_mem hu)
    · exact h.clear _ hbm _ (Or.inr rfl) _ (corner_mem hu)
  rw [Bool.and_eq_true, key v hvw.1, key w hvw.2]
  unfold SameE SameLine
  rcases he with he | he <;> rw [he]
  exact and_comm

/-- An edge is put to the lines. -/
theorem AlignInput.insert (h : AlignInput g points edges tangents lengths) (hs : IsSqrt sqrt)
    (h0 : 0 ≤ g.minTolerance) {trace : List Nat} (ht : ∀ x ∈ trace, x < edges.length) {e v w : Nat}
    (he' : e < edges.length) (he : edgeAt edges e = (v, w) ∨ edgeAt edges e = (w, v)) {s : K} (hpos : 0 < s)
    {lines : List (AlignedEdge K)} (hl : GroupInv points edges trace lines) :
    ∃ lines', g.insertAligned sqrt v w (corner points v) (corner points w)
        (ok ⟨[v, w], corner points v, (corner points (edgeAt edges e).2).sub (corner points (edgeAt edges e).1), s⟩)
        lines = ok lines' ∧ GroupInv points edges (trace ++ [e]) lines' := by
  obtain ⟨bases, hb, hpw, hcov, hF⟩ := hl
  have hbl : ∀ b ∈ bases, b < edges.length := fun b hb' => ht b (hb b hb')
  by_cases hex : ∃ b ∈ bases, SameE points edges b e
  · have key : ∀ (bases : List Nat) (lines : List (AlignedEdge K)), (∀ b ∈ bases, b < edges.length) →
        bases.Pairwise (fun a b => ¬ SameE points edges a b) → (∃ b ∈ bases, SameE points edges b e) →
        List.Forall₂ (LineOK points edges trace) bases lines →
        ∃ lines', g.insertAligned sqrt v w (corner points v) (corner points w)
          (ok ⟨[v, w], corner points v, (corner points (edgeAt edges e).2).sub (corner points (edgeAt edges e).1), s⟩)
          lines = ok lines' ∧ List.Forall₂ (LineOK points edges (trace ++ [e])) bases lines' := by
      intro bases lines hbl hpw hex hF
      clear hb hcov
      induction hF with
      | nil => simp at hex
      | @cons b l bs ls hbl' hrest ih =>
        have ht := h.test hs h0 (hbl b (by simp)) he' hbl' he
        rw [List.pairwise_cons] at hpw
        by_cases hsame : SameE points edges b e
        · refine ⟨_, by rw [GeoCfg.insertAligned, if_pos (ht.2 hsame)], List.Forall₂.cons (hbl'.add hsame he) ?_⟩
          refine forall₂_imp_mem hrest ?_
          intro b' hb' l' hok
          refine hok.skip fun hs' => hpw.1 b' hb' ?_
          exact h.same_trans (edgeAt_mem he') hsame (h.same_symm (edgeAt_mem he') hs')
        · obtain ⟨lines', e1, e2⟩ := ih (fun x hx => hbl x (by simp [hx])) hpw.2 (by
            obtain ⟨x, hx, hx'⟩ := hex
            rcases List.mem_cons.1 hx with rfl | hx
            · exact absurd hx' hsame
            · exact ⟨x, hx, hx'⟩)
          refine ⟨l :: lines', ?_, List.Forall₂.cons (hbl'.skip hsame) e2⟩
          rw [GeoCfg.insertAligned, if_neg (fun k => hsame (ht.1 k)), e1, ok_bind]
    obtain ⟨lines', e1, e2⟩ := key bases lines hbl hpw hex hF
    refine ⟨lines', e1, bases, fun b hb' => by simp [hb b hb'], hpw, ?_, e2⟩
    intro x hx
    rcases List.mem_append.1 hx with hx | hx
    · exact hcov x hx
    · simp only [List.mem_singleton] at hx
      subst hx
      exact hex
  · have hno : ∀ b ∈ bases, ¬ SameE points edges b e := fun b hb' k => hex ⟨b, hb', k⟩
    have key : ∀ (bases : List Nat) (lines : List (AlignedEdge K)), (∀ b ∈ bases, b < edges.length) →
        (∀ b ∈ bases, ¬ SameE points edges b e) → List.Forall₂ (LineOK points edges trace) bases lines →
        g.insertAligned sqrt v w (corner points v) (corner points w)
          (ok ⟨[v, w], corner points v, (corner points (edgeAt edges e).2).sub (corner points (edgeAt edges e).1), s⟩)
          lines = ok (lines ++ [⟨[v, w], corner points v,
            (corner points (edgeAt edges e).2).sub (corner points (edgeAt edges e).1), s⟩]) := by
      intro bases lines hbl hno hF
      clear hb hcov
      induction hF with
      | nil => rfl
      | @cons b l bs ls hbl' hrest ih =>
        have ht := h.test hs h0 (hbl b (by simp)) he' hbl' he
        rw [GeoCfg.insertAligned, if_neg (fun k => hno b (by simp) (ht.1 k)),
          ih (fun x hx => hbl x (by simp [hx])) (fun x hx => hno x (by simp [hx])), ok_bind]
        rfl
    refine ⟨_, key bases lines hbl hno hF, bases ++ [e], ?_, ?_, ?_, ?_⟩
    · intro b hb'
      rcases List.mem_append.1 hb' with hb' | hb'
      · simp [hb b hb']
      · simp_all
    · rw [List.pairwise_append]
      refine ⟨hpw, by simp, ?_⟩
      intro b hb' x hx
      simp only [List.mem_singleton] at hx
      subst hx
      exact hno b hb'
    · intro x hx
      rcases List.mem_append.1 hx with hx | hx
      · obtain ⟨b, hb', h'⟩ := hcov x hx
        exact ⟨b, by simp [hb'], h'⟩
      · simp only [List.mem_singleton] at hx
        subst hx
        exact ⟨x, by simp, SameLine.refl _⟩
    · refine List.rel_append (forall₂_imp_mem hF fun b hb' l hok => hok.skip (hno b hb')) ?_
      refine List.Forall₂.cons ⟨?_, rfl, hpos, ?_, ?_⟩ List.Forall₂.nil
      · rcases he with he | he <;> simp [he]
      · have := (h.graph.range _ (edgeAt_mem he')).2.2
        rcases he with he | he <;> rw [he] at this
        · simpa using this
        · simpa using Ne.symm this
      · intro u
        constructor
        · intro hu
          refine ⟨e, by simp, SameLine.refl _, ?_⟩
          simp only [List.mem_cons, List.not_mem_nil, or_false] at hu
          rcases he with he | he <;> rw [he] <;> tauto
        · rintro ⟨x, hx, h1, h2⟩
          rcases List.mem_append.1 hx with hx | hx
          · exfalso
            obtain ⟨b, hb', h'⟩ := hcov x hx
            exact hno b hb' (h.same_trans (edgeAt_mem (ht x hx)) h' (h.same_symm (edgeAt_mem (ht x hx)) h1))
          · simp only [List.mem_singleton] at hx
            subst hx
            simp only [List.mem_cons, List.not_mem_nil, or_false]
            rcases he with he | he <;> rw [he] at h2 <;> tauto

/-! ### Marks -/

/-- The marks of the edges at the vertices. -/
def marksOf (rows : List (List Nat)) (trace : List Nat) : List (List Bool) :=
  rows.map fun r => r.map fun e => decide (e ∈ trace)

theorem row_mark {r trace : List Nat} {k e : Nat} (hn : r.Nodup) (hk : r[k]? = some e) :
    (r.map fun x => decide (x ∈ trace)).set k true = r.map fun x => decide (x ∈ trace ++ [e]) := by
  apply List.ext_getElem?
  intro i
  rw [List.getElem?_set, List.length_map, List.getElem?_map, List.getElem?_map]
  by_cases hi : k = i
  · subst hi
    rw [if_pos rfl, if_pos (List.getElem?_eq_some_iff.1 hk).1, hk]
    simp
  · rw [if_neg hi]
    cases hx : r[i]? with
    | none => rfl
    | some x =>
      have : x ≠ e := by
        rintro rfl
        have h1 := List.getElem?_eq_some_iff.1 hk
        have h2 := List.getElem?_eq_some_iff.1 hx
        exact hi ((List.Nodup.getElem_inj_iff hn).1 (h1.2.trans h2.2.symm))
      simp [this]

theorem row_same {r trace : List Nat} {e : Nat} (h : e ∉ r) :
    (r.map fun x => decide (x ∈ trace)) = r.map fun x => decide (x ∈ trace ++ [e]) := by
  apply List.map_congr_left
  intro x hx
  have : x ≠ e := by rintro rfl; exact h hx
  simp [this]

theorem marks_step {rows : List (List Nat)} {trace : List Nat} {v w k j e : Nat} {rv rw' : List Nat} (hvw : v ≠ w)
    (hv : rows[v]? = some rv) (hw : rows[w]? = some rw') (hnv : rv.Nodup) (hnw : rw'.Nodup) (hk : rv[k]? = some e)
    (hj : rw'[j]? = some e) (hon : ∀ (x : Nat) r, rows[x]? = some r → e ∈ r → x = v ∨ x = w) :
    ((marksOf rows trace).set v ((rv.map fun x => decide (x ∈ trace)).set k true)).set w
      ((rw'.map fun x => decide (x ∈ trace)).set j true) = marksOf rows (trace ++ [e]) := by
  rw [row_mark hnv hk, row_mark hnw hj]
  apply List.ext_getElem?
  intro i
  unfold marksOf
  rw [List.getElem?_set, List.getElem?_set, List.length_set, List.length_map, List.getElem?_map,
    List.getElem?_map]
  by_cases hiw : w = i
  · subst hiw
    rw [if_pos rfl, if_pos (List.getElem?_eq_some_iff.1 hw).1, hw]
    rfl
  · rw [if_neg hiw]
    by_cases hiv : v = i
    · subst hiv
      rw [if_pos rfl, if_pos (List.getElem?_eq_some_iff.1 hv).1, hv]
      rfl
    · rw [if_neg hiv]
      cases hx : rows[i]? with
      | none => rfl
      | some r =>
        simp only [Option.map_some]
        rw [row_same fun hm => by
          rcases hon i r hx hm with h | h
          · exact hiv h.symm
          · exact hiw h.symm]

end Verif
