import Verif.CheckRefSpec
import Verif.DirCutPathLemmas
import Verif.SideCheckProps

/-
Lemmas for the choice of the two sides.
-/
namespace Verif

open Res

variable {K : Type} [Field K] [LinearOrder K] [IsStrictOrderedRing K]

section
variable {m : Mesh K} {c : Nat} {vs es : List Nat} {dirs : List Bool}

theorem entry_edge (hw : m.WF) (hb : BoundedBy m c vs es) {i e : Nat} (h : es[i]? = some e) : m.entry .edge2 c i = ok e := by
  rw [entry_getD hw hb.edges (List.getElem?_eq_some_iff.1 h).1, getD_of_getElem? h]

theorem runs_ends (hR : RunsAlong m c vs es dirs) (hb : BoundedBy m c vs es) {i : Nat} (hi : i < vs.length) :
    ∃ a b e d, vs[i]? = some a ∧ vs[(i + 1) % vs.length]? = some b ∧ es[i]? = some e ∧ dirs[i]? = some d ∧
      m.extremes e = ok (if d then (a, b) else (b, a)) := by
  have ea := List.getElem?_eq_getElem hi
  have eb := List.getElem?_eq_getElem (l := vs) (Nat.mod_lt (i + 1) (by omega : 0 < vs.length))
  have ee := List.getElem?_eq_getElem (l := es) (i := i) (by rw [hb.count]; exact hi)
  have ed := List.getElem?_eq_getElem (l := dirs) (i := i) (by rw [hR.1]; exact hi)
  exact ⟨_, _, _, _, ea, eb, ee, ed, (hR.2 i _ _ _ _ ea eb ee ed).1⟩

theorem awayFrom_ok (hw : m.WF) (hb : BoundedBy m c vs es) (hR : RunsAlong m c vs es dirs) {i e : Nat} (hi : es[i]? = some e)
    {h : EdgeHit K} (hh : h.index < vs.length) :
    ∃ b, m.awayFrom c e dirs h = ok b ∧ (b = true ↔ ¬ TouchesSide vs i h.index) := by
  obtain ⟨v, v', e2, d2, hv, -, he2, hd2, hx⟩ := runs_ends hR hb hh
  have hil : i < vs.length := by
    rw [← hb.count]; exact (List.getElem?_eq_some_iff.1 hi).1
  obtain ⟨a, a', e1, d1, ha, ha', he1, -, hy⟩ := runs_ends hR hb hil
  rw [hi] at he1
  cases he1
  unfold Mesh.awayFrom
  rw [entry_edge hw hb he2, ok_bind, vget_eq_ok.2 hd2, ok_bind, hx, ok_bind, hy, ok_bind]
  refine ⟨_, rfl, ?_⟩
  unfold TouchesSide
  rw [hv, ha, ha']
  cases d1 <;> cases d2 <;> simp <;> tauto

theorem secondHit_spec (hw : m.WF) (hb : BoundedBy m c vs es) (hR : RunsAlong m c vs es dirs) {i e : Nat}
    (hi : es[i]? = some e) : ∀ (hs : List (EdgeHit K)), (∀ h ∈ hs, h.index < vs.length) → ∀ two,
      m.secondHit c e dirs hs = ok (some two) ↔
        ∃ l r, hs = l ++ two :: r ∧ (∀ x ∈ l, (x.type = .onEdgeOrigin ∨ x.type = .onEdgeEnd) ∧ TouchesSide vs i x.index) ∧
          two.type ≠ .parallel ∧ (two.type ≠ .insideEdge → ¬ TouchesSide vs i two.index)
  | [], _, two => by simp [Mesh.secondHit]
  | h :: hs, hlt, two => by
      have ih := secondHit_spec hw hb hR hi hs (fun x hx => hlt x (List.mem_cons_of_mem _ hx)) two
      have hl := hlt h List.mem_cons_self
      obtain ⟨b, hb', hbi⟩ := awayFrom_ok hw hb hR hi hl
      have corner : (h.type = .onEdgeOrigin ∨ h.type = .onEdgeEnd) →
          ((m.awayFrom c e dirs h >>= fun b => if b = true then ok (some h) else m.secondHit c e dirs hs) = ok (some two) ↔
            ∃ l r, h :: hs = l ++ two :: r ∧
              (∀ x ∈ l, (x.type = .onEdgeOrigin ∨ x.type = .onEdgeEnd) ∧ TouchesSide vs i x.index) ∧
              two.type ≠ .parallel ∧ (two.type ≠ .insideEdge → ¬ TouchesSide vs i two.index)) := by
        intro ht
        rw [hb', ok_bind]
        by_cases hbt : b = true
        · rw [if_pos hbt]
          have hno := hbi.1 hbt
          constructor
          · intro he
            cases he
            exact ⟨[], hs, rfl, by simp, by rcases ht with ht | ht <;> rw [ht] <;> simp, fun _ => hno⟩
          · rintro ⟨l, r, he, hl', -, -⟩
            cases l with
            | nil => cases he; rfl
            | cons x l => cases he; exact absurd (hl' h List.mem_cons_self).2 hno
        · rw [if_neg hbt, ih]
          have hyes : TouchesSide vs i h.index := by
            by_contra hc
            exact hbt (hbi.2 hc)
          constructor
          · rintro ⟨l, r, rfl, h1, h2, h3⟩
            refine ⟨h :: l, r, rfl, ?_, h2, h3⟩
            intro x hx
            rcases List.mem_cons.1 hx with rfl | hx
            · exact ⟨ht, hyes⟩
            · exact h1 x hx
          · rintro ⟨l, r, he, h1, h2, h3⟩
            cases l with
            | nil =>
              cases he
              exact absurd hyes (h3 (by rcases ht with ht | ht <;> rw [ht] <;> simp))
            | cons x l =>
              cases he
              exact ⟨l, r, rfl, fun y hy => h1 y (List.mem_cons_of_mem _ hy), h2, h3⟩
      unfold Mesh.secondHit
      cases ht : h.type with
      | parallel =>
        simp only []
        constructor
        · intro he; cases he
        · rintro ⟨l, r, he, h1, h2, -⟩
          cases l with
          | nil => cases he; exact absurd ht h2
          | cons x l =>
            cases he
            rcases (h1 h List.mem_cons_self).1 with h1 | h1 <;> rw [ht] at h1 <;> cases h1
      | insideEdge =>
        simp only []
        constructor
        · intro he
          cases he
          exact ⟨[], hs, rfl, by simp, by rw [ht]; simp, fun hc => absurd ht hc⟩
        · rintro ⟨l, r, he, h1, h2, -⟩
          cases l with
          | nil => cases he; rfl
          | cons x l =>
            cases he
            rcases (h1 h List.mem_cons_self).1 with h1 | h1 <;> rw [ht] at h1 <;> cases h1
      | onEdgeOrigin => exact corner (Or.inl ht)
      | onEdgeEnd => exact corner (Or.inr ht)

end

theorem linePolygon_indices (g : GeoCfg K) (sqrt : K → K) (t o : V3 K) (ps : List (V3 K)) : ∀ n r,
    foldRes (g.linePolygonStep sqrt t o ps) ⟨false, []⟩ (List.range n) = ok r →
      (r.intersecting = true ↔ r.hits ≠ []) ∧ (r.hits.map (·.index)).Pairwise (· < ·) ∧ ∀ h ∈ r.hits, h.index < n
  | 0, r, h => by
      cases h
      simp
  | n + 1, r, h => by
      rw [List.range_succ, foldRes_append] at h
      obtain ⟨s, hs, h⟩ := bind_eq_ok.1 h
      obtain ⟨i1, i2, i3⟩ := linePolygon_indices g sqrt t o ps n s hs
      obtain ⟨r', h1, h2⟩ := bind_eq_ok.1 h
      cases h2
      unfold GeoCfg.linePolygonStep at h1
      obtain ⟨a, -, h2⟩ := bind_eq_ok.1 h1
      obtain ⟨b, -, h3⟩ := bind_eq_ok.1 h2
      obtain ⟨x, -, h4⟩ := bind_eq_ok.1 h3
      obtain ⟨y, hy, h5⟩ := bind_eq_ok.1 h4
      have hidx : ∀ z, y = some z → z.index = n := by
        rintro z rfl
        unfold edgeHit at hy
        split at hy
        · cases hy
        split at hy
        · cases hy
        split at hy
        · cases hy; rfl
        obtain ⟨p, -, hy⟩ := bind_eq_ok.1 hy
        unfold edgeHitOf at hy
        split at hy <;> cases hy <;> rfl
      cases y with
      | none =>
        cases h5
        exact ⟨i1, i2, fun h hh => Nat.lt_succ_of_lt (i3 h hh)⟩
      | some z =>
        cases h5
        have hz := hidx z rfl
        refine ⟨by simp, ?_, ?_⟩
        · simp only [List.map_append, List.map_cons, List.map_nil]
          rw [List.pairwise_append]
          refine ⟨i2, by simp, ?_⟩
          intro a ha b hb
          obtain ⟨h, hh, rfl⟩ := List.mem_map.1 ha
          simp only [List.mem_cons, List.not_mem_nil, or_false] at hb
          subst hb
          rw [hz]
          exact i3 h hh
        · intro h hh
          rcases List.mem_append.1 hh with hh | hh
          · exact Nat.lt_succ_of_lt (i3 h hh)
          · simp only [List.mem_cons, List.not_mem_nil, or_false] at hh
            subst hh
            rw [hz]; exact Nat.lt_succ_self n

/-- Intersections on the first side are passed over. -/
theorem secondHit_skip (hw : m.WF) (hb : BoundedBy m c vs es) (hR : RunsAlong m c vs es dirs) {i e : Nat}
    (hi : es[i]? = some e) (hs : List (EdgeHit K)) : ∀ l : List (EdgeHit K), (∀ h ∈ l, h.index < vs.length) →
      (∀ x ∈ l, (x.type = .onEdgeOrigin ∨ x.type = .onEdgeEnd) ∧ TouchesSide vs i x.index) →
      m.secondHit c e dirs (l ++ hs) = m.secondHit c e dirs hs
  | [], _, _ => rfl
  | h :: l, hlt, ht => by
      have ih := secondHit_skip hw hb hR hi hs l (fun x hx => hlt x (List.mem_cons_of_mem _ hx))
        (fun x hx => ht x (List.mem_cons_of_mem _ hx))
      obtain ⟨b, hb', hbi⟩ := awayFrom_ok hw hb hR hi (hlt h List.mem_cons_self)
      obtain ⟨h1, h2⟩ := ht h List.mem_cons_self
      have hbf : ¬ b = true := fun hc => hbi.1 hc h2
      rw [List.cons_append, Mesh.secondHit]
      rcases h1 with h1 | h1 <;> rw [h1] <;> simp only [] <;> rw [hb', ok_bind, if_neg hbf, ih]

end Verif
