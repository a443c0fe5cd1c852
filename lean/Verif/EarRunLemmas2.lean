import Verif.EarRunLemmas

/-
What the rounds of the ear clipping return.
-/
namespace Verif

open Res

variable {K : Type} [Field K] [LinearOrder K] [IsStrictOrderedRing K]
variable {g : GeoCfg K} {sqrt : K → K}

/-- The corners of a triangle given by numbers. -/
def corners3 (P : Nat → V3 K) (t : Nat × Nat × Nat) : V3 K × V3 K × V3 K := (P t.1, P t.2.1, P t.2.2)

/-- The triangles `ts` are cut off the polygon `ids`. -/
structure EarRun (P : Nat → V3 K) (ids : List Nat) (ts : List (Nat × Nat × Nat)) : Prop where
  sum : ∀ f : Nat → Nat → K, (∀ a b c, area2 (P a) (P b) (P c) = 0 → f a b + f b c = f a c) →
    closedSum f ids = (ts.map fun t => f t.1 t.2.1 + f t.2.1 t.2.2 + f t.2.2 t.1).sum
  sumQ : ∀ f : Nat → Nat → ℚ, (∀ a b c, area2 (P a) (P b) (P c) = 0 → f a b + f b c = f a c) →
    closedSum f ids = (ts.map fun t => f t.1 t.2.1 + f t.2.1 t.2.2 + f t.2.2 t.1).sum
  pos : ∀ t ∈ ts.dropLast, 0 < area2 (P t.1) (P t.2.1) (P t.2.2)
  ne : ∀ t ∈ ts, area2 (P t.1) (P t.2.1) (P t.2.2) ≠ 0
  mem : ∀ t ∈ ts, t.1 ∈ ids ∧ t.2.1 ∈ ids ∧ t.2.2 ∈ ids
  nonempty : ts ≠ []
  length : ts.length + 2 ≤ ids.length
  clear : ts.Pairwise fun t u => ∀ q, q = u.1 ∨ q = u.2.1 ∨ q = u.2.2 →
    q = t.2.1 ∨ q = t.2.2 ∨ ¬ InTriangle (corners3 P t) (P q)

theorem closedSum_three {F : Type} [Field F] [LinearOrder F] [IsStrictOrderedRing F] (f : Nat → Nat → F) (i j k : Nat) :
    closedSum f [i, j, k] = f i j + f j k + f k i := by
  rw [closedSum_cons]
  simp only [List.cons_append, List.nil_append, pathSum]
  ring

theorem earStep_sum {F : Type} [Field F] [LinearOrder F] [IsStrictOrderedRing F] (P : Nat → V3 K) (f : Nat → Nat → F)
    (hf : ∀ a b c, area2 (P a) (P b) (P c) = 0 → f a b + f b c = f a c) {ids rest : List Nat} {x y z : Nat}
    {t : List Nat} (h1 : ids ~r (x :: y :: z :: t)) (h2 : rest ~r (x :: z :: t)) :
    closedSum f ids = (f y z + f z x + f x y) + closedSum f rest := by
  have h0 : f x x = 0 := by
    have := hf x x x (by simp only [area2]; ring)
    linear_combination this
  have h3 : f x z + f z x = 0 := by
    rw [hf x z x (by simp only [area2]; ring), h0]
  rw [closedSum_isRotated f h1, closedSum_isRotated f h2, closedSum_remove]
  linear_combination -h3

/-- The properties of the triangles, for the rounds that return. -/
theorem earRounds_run (hg : EarCfg g sqrt) (polygon : List (V3 K)) (hz : ∀ p ∈ polygon, p.z = 0)
    (hnd : polygon.Nodup) (hr : EarResolved g sqrt polygon) (fuel : Nat) :
    ∀ (ids : List Nat) (acc l : List Nat), ids.Nodup → 2 < ids.length → (∀ i ∈ ids, i < polygon.length) →
      g.earRounds sqrt polygon fuel ids (ids.map (vtx polygon)) acc = ok l →
      ∃ ts, l = acc ++ flat3 ts ∧ EarRun (vtx polygon) ids ts := by
  induction fuel with
  | zero => intro ids acc l _ _ _ h; rw [GeoCfg.earRounds] at h; cases h
  | succ fuel ih =>
    intro ids acc l hn h3 hlt h
    have hmemP : ∀ i ∈ ids, vtx polygon i ∈ polygon := by
      intro i hi
      unfold vtx
      simp [hlt i hi]
    have hP : ∀ x ∈ ids, ∀ y ∈ ids, x ≠ y → XyNe (vtx polygon x) (vtx polygon y) := by
      intro x hx y hy hxy
      by_contra hcon
      unfold XyNe at hcon
      push Not at hcon
      have e : vtx polygon x = vtx polygon y := by
        ext
        · exact hcon.1
        · exact hcon.2
        · rw [hz _ (hmemP x hx), hz _ (hmemP y hy)]
      unfold vtx at e
      simp only [List.getD_eq_getElem?_getD, List.getElem?_eq_getElem (hlt x hx), List.getElem?_eq_getElem (hlt y hy),
        Option.getD_some] at e
      exact hxy ((hnd.getElem_inj_iff).1 e)
    set keep := g.keeps sqrt polygon ids with hkeep
    have hcor : ∀ x y w, CycCorner ids x y w → (keep y = true ↔
        area2 (vtx polygon x) (vtx polygon y) (vtx polygon w) ≠ 0) := by
      intro x y w hc
      have hm := hc.mem
      have := aligned_iff hg hr hz (hmemP x hm.1) (hmemP y hm.2.1) (hmemP w hm.2.2)
      rw [hkeep, keeps_corner polygon hn h3 hc, Bool.not_eq_true', ← Bool.not_eq_true, this]
    have hc0 : ∀ x y w, CycCorner ids x y w → keep y = false →
        area2 (vtx polygon x) (vtx polygon y) (vtx polygon w) = 0 := by
      intro x y w hc hk
      by_contra hne
      rw [(hcor x y w hc).2 hne] at hk
      cases hk
    have hround := earRounds_succ hg polygon hz fuel hn h3 hlt acc
    simp only [← hkeep] at hround
    rw [hround] at h
    set ids' := ids.filter keep with hids'
    have hsub : ∀ i ∈ ids', i ∈ ids := fun i hi => List.mem_of_mem_filter hi
    have hn' : ids'.Nodup := hn.filter _
    have hlen' : ids'.length ≤ ids.length := List.length_filter_le _ _
    have hcorner' : ∀ x y z, CycCorner ids' x y z → area2 (vtx polygon x) (vtx polygon y) (vtx polygon z) ≠ 0 :=
      fun x y z hc => corner_thin (vtx polygon) keep ids hn hP hc0
        (fun x y w hc hk => (hcor x y w hc).1 hk) hc
    by_cases h2 : ids'.length ≤ 2
    · rw [if_pos h2] at h; cases h
    rw [if_neg h2] at h
    have hex : ∃ a ∈ ids, keep a = true := by
      obtain ⟨a, ha⟩ := List.exists_mem_of_length_pos (l := ids') (by omega)
      exact ⟨a, List.mem_of_mem_filter ha, (List.mem_filter.1 ha).2⟩
    have hthinK := fun (f : Nat → Nat → K) hf =>
      closedSum_thin (vtx polygon) keep f hf ids hn hP h3 hc0 hex
    have hthinQ := fun (f : Nat → Nat → ℚ) hf =>
      closedSum_thin (vtx polygon) keep f hf ids hn hP h3 hc0 hex
    rw [← hids'] at hthinK hthinQ
    by_cases h4 : ids'.length = 3
    · rw [if_pos h4] at h
      cases h
      match hi : ids', h4 with
      | [i, j, k], _ =>
        have hne := hcorner' i j k ⟨[], List.IsRotated.refl _⟩
        refine ⟨[(i, j, k)], rfl, ?_⟩
        constructor
        · intro f hf; rw [hthinK f hf, closedSum_three]; simp
        · intro f hf; rw [hthinQ f hf, closedSum_three]; simp
        · intro t ht; simp at ht
        · intro t ht; simp at ht; subst ht; exact hne
        · intro t ht; simp at ht; subst ht; exact ⟨hsub i (by simp), hsub j (by simp), hsub k (by simp)⟩
        · simp
        · simpa using hlen'
        · simp
    · rw [if_neg h4] at h
      cases hf : (List.range ids'.length).find? (g.isEarAt sqrt (ids'.map (vtx polygon))) with
      | none => rw [hf] at h; cases h
      | some v =>
        rw [hf] at h
        simp only at h
        have hv : v < ids'.length := List.mem_range.1 (List.mem_of_find?_eq_some hf)
        have hear := List.find?_some hf
        have hp := cyclePrev_lt hv
        have hx := next_lt hv
        set x := ids'[cyclePrev ids'.length v] with ex
        set y := ids'[v] with ey
        set z := ids'[(v + 1) % ids'.length] with ez
        have hc : CycCorner ids' x y z := cycCorner_of_getElem (by omega) hv (List.getElem?_eq_getElem hp)
          (List.getElem?_eq_getElem hv) (List.getElem?_eq_getElem hx)
        have hm := hc.mem
        have hne := hcorner' x y z hc
        obtain ⟨t, hrot⟩ := hc
        have hrot' := eraseIdx_rotated hn' (List.getElem?_eq_getElem hv) hrot
        have hn'' : (ids'.eraseIdx v).Nodup := List.Nodup.sublist (List.eraseIdx_sublist _ _) hn'
        have hlen'' : (ids'.eraseIdx v).length = ids'.length - 1 := by rw [List.length_eraseIdx, if_pos hv]
        have hsub'' : ∀ i ∈ ids'.eraseIdx v, i ∈ ids' := fun i hi => List.mem_of_mem_eraseIdx hi
        obtain ⟨ts, e, R⟩ := ih (ids'.eraseIdx v) _ l hn'' (by omega)
          (fun i hi => hlt i (hsub i (hsub'' i hi))) h
        -- the ear
        unfold GeoCfg.isEarAt at hear
        simp only [List.length_map, List.getElem?_map, List.getElem?_eq_getElem hp, List.getElem?_eq_getElem hv,
          List.getElem?_eq_getElem hx, Option.map_some, Bool.and_eq_true, Bool.not_eq_true', List.all_eq_true] at hear
        rw [← ex, ← ey, ← ez] at hear
        obtain ⟨hneg, hall⟩ := hear
        have hpx := hmemP x (hsub x hm.1)
        have hpy := hmemP y (hsub y hm.2.1)
        have hpz := hmemP z (hsub z hm.2.2)
        have hps := (polar_sign g hg.h0 (hr _ hpx _ hpy _ hpz)).2
        have hpos : 0 < area2 (vtx polygon x) (vtx polygon y) (vtx polygon z) := by
          rcases lt_or_gt_of_ne hne with k | k
          · rw [hps.2 k] at hneg; cases hneg
          · exact k
        have hclear : ∀ q ∈ ids', q = x ∨ q = y ∨ q = z ∨
            ¬ InTriangle (vtx polygon x, vtx polygon y, vtx polygon z) (vtx polygon q) := by
          intro q hq
          obtain ⟨ov, hov, rfl⟩ := List.mem_iff_getElem.1 hq
          have := hall ov (List.mem_range.2 hov)
          rw [Bool.or_eq_true, decide_eq_true_eq] at this
          rcases this with (rfl | rfl | rfl) | k
          · exact Or.inr (Or.inl rfl)
          · exact Or.inl rfl
          · exact Or.inr (Or.inr (Or.inl rfl))
          · rw [List.getElem?_eq_getElem hov] at k
            exact Or.inr (Or.inr (Or.inr (clearOf_not_in hg (hz _ hpx) (hz _ hpy) (hz _ hpz)
              (hz _ (hmemP _ (hsub _ hq))) hpos k)))
        have hy'' : y ∉ ids'.eraseIdx v := by
          intro hmem
          have := hrot'.mem_iff.1 hmem
          have h4 := hrot.nodup_iff.1 hn'
          simp at this h4
          tauto
        refine ⟨(y, z, x) :: ts, ?_, ?_⟩
        · rw [e]
          unfold earTriple flat3
          simp [hv, hx, hp, ← ex, ← ey, ← ez]
        · constructor
          · intro f hf
            rw [hthinK f hf, earStep_sum (vtx polygon) f hf hrot hrot', R.sum f hf]
            simp
          · intro f hf
            rw [hthinQ f hf, earStep_sum (vtx polygon) f hf hrot hrot', R.sumQ f hf]
            simp
          · intro t ht
            rw [List.dropLast_cons_of_ne_nil R.nonempty] at ht
            rcases List.mem_cons.1 ht with rfl | ht
            · simp only; rw [area2_cyc]; exact hpos
            · exact R.pos t ht
          · intro t ht
            rcases List.mem_cons.1 ht with rfl | ht
            · simp only; rw [area2_cyc]; exact hne
            · exact R.ne t ht
          · intro t ht
            rcases List.mem_cons.1 ht with rfl | ht
            · exact ⟨hsub _ hm.2.1, hsub _ hm.2.2, hsub _ hm.1⟩
            · obtain ⟨m1, m2, m3⟩ := R.mem t ht
              exact ⟨hsub _ (hsub'' _ m1), hsub _ (hsub'' _ m2), hsub _ (hsub'' _ m3)⟩
          · simp
          · have := R.length
            simp only [List.length_cons]; omega
          · rw [List.pairwise_cons]
            refine ⟨?_, R.clear⟩
            intro u hu q hq
            have hmem : q ∈ ids'.eraseIdx v := by
              obtain ⟨m1, m2, m3⟩ := R.mem u hu
              rcases hq with rfl | rfl | rfl
              · exact m1
              · exact m2
              · exact m3
            rcases hclear q (hsub'' q hmem) with k | k | k | k
            · exact Or.inr (Or.inl k)
            · exact absurd (k ▸ hmem) hy''
            · exact Or.inl k
            · refine Or.inr (Or.inr ?_)
              rintro ⟨i1, i2, i3⟩
              exact k ⟨i3, i1, i2⟩

end Verif
