import Verif.DirCutLemmas

/-
Lemmas: when the refinement of a polygon by a direction has a result.
-/
namespace Verif

open Res

variable {K : Type} [Field K] [LinearOrder K] [IsStrictOrderedRing K]

theorem vat_of_some {β : Type} {l : List β} {i : Nat} {a : β} (h : l[i]? = some a) : vat l i = ok a := by
  unfold vat
  rw [h]

theorem oppositeEnd_ok {g : GeoCfg K} {sqrt : K → K} {ps : List (V3 K)} {i : Nat} {h : DirHit K} {s : SideCheck}
    {first : Bool} (hi : i < ps.length) (hh : h.index < ps.length) (hex : ∃ v, IsOpposite g sqrt ps i h s first v) :
    ∃ v, g.oppositeEnd sqrt ps i h s first = ok v := by
  obtain ⟨v, hv⟩ := hex
  have hn : 0 < ps.length := by omega
  obtain ⟨v0, hv0, hnear⟩ := nearEnd_ok (g := g) hn h
  unfold GeoCfg.oppositeEnd
  rw [hv0, ok_bind]
  obtain ⟨r, hr, hri⟩ := middleAligned_ok (g := g) (sqrt := sqrt) hi (hnear.isEnd.lt hh) first
  rw [hr, ok_bind]
  cases r with
  | false => exact ⟨_, rfl⟩
  | true =>
    have hon := hri.1 rfl
    have hne : v ≠ v0 := by
      rintro rfl
      exact hv.off hon
    have hs : s.verdict ≠ .notInside := by
      intro hc
      exact hne ((hv.fixed hc).trans hnear.symm)
    simp only [Bool.true_eq_false, if_false, if_pos hs]
    have hflip : h.flip ps.length v0 = ok v := by
      unfold DirHit.flip
      have e0 := hnear.isEnd
      have e1 := hv.isEnd
      rcases e0 with rfl | rfl
      · rw [if_pos rfl, nextPos_pos hn]
        rcases e1 with rfl | rfl
        · exact absurd rfl hne
        · rfl
      · rcases e1 with rfl | rfl
        · rw [if_neg (fun hc => hne hc.symm)]
        · exact absurd rfl hne
    rw [hflip, ok_bind]
    obtain ⟨r', hr', hri'⟩ := middleAligned_ok (g := g) (sqrt := sqrt) hi (hv.isEnd.lt hh) first
    rw [hr', ok_bind, if_neg (fun hc => hv.off (hri'.1 hc))]
    exact ⟨_, rfl⟩

section
variable {g : GeoCfg K} {sqrt : K → K} {tol2D : K} {m : Mesh K} {c : Nat} {vs es : List Nat} {ps : List (V3 K)}
  {k : DirCheck K} {dirs : List Bool} {rotation : M3 K} {translation : V3 K}

theorem refineFrom_defined (h : DirInput m c vs es ps k) (hd : dirs.length = vs.length) (hin : k.hitOne.inside = true)
    (hopp : ∃ v, IsOpposite g sqrt ps k.hitOne.index k.hitTwo k.sideTwo false v) :
    (∃ x, g.refineFrom sqrt tol2D m c ps k rotation translation dirs = ok x) ∨
      AreaUndefined g sqrt tol2D m vs es dirs rotation translation := by
  have i1 := h.lt_one
  have i2 := h.lt_two
  obtain ⟨v, hv⟩ := oppositeEnd_ok (by rw [h.points]; exact i1) (by rw [h.points]; exact i2) hopp
  have hopp := oppositeEnd_spec (by rw [h.points]; exact i1) (by rw [h.points]; exact i2) hv
  have hvl : v < vs.length := by
    have := hopp.isEnd.lt (by rw [h.points]; exact i2)
    rwa [h.points] at this
  obtain ⟨a, b, hab, ha, hb⟩ := h.ends _ (List.mem_of_getElem? h.one)
  obtain ⟨mid, hm, hS⟩ := (HalvedSides.refl h.wf es).step h.one (by simp) (by simp) hab ha hb
  obtain ⟨d, hdir⟩ : ∃ d, dirs[k.hitOne.index]? = some d := ⟨_, List.getElem?_eq_getElem (by omega)⟩
  have hB := hS.bounded h.bounded
  obtain ⟨X, Y, mc, hH, hC, hO⟩ := c114_side_to_corner_partial g sqrt tol2D mid hS.wf c vs es hB.vertices hB.edges hB.count
    hB.vertex_lt hB.edge_lt k.hitOne.index v (m.num .d0) vs[v] (m.num .d1) (m.num .d1 + 1) d i1
    (List.getElem?_eq_getElem hvl) (by rw [hS.num0]; simp) (by rw [hS.num1]; simp) (by rw [hS.num1]; simp) rotation translation
  by_cases hdef : (∃ b, g.isAreaPositive sqrt tol2D mid (X.map Prod.fst ++ [vs[v]]) rotation translation = ok b) ∧
      ∃ b, g.isAreaPositive sqrt tol2D mid (Y.map Prod.fst ++ [m.num .d0]) rotation translation = ok b
  · left
    obtain ⟨⟨m2, res⟩, hcut⟩ := hO.defined hdef.1 hdef.2
    unfold GeoCfg.refineFrom
    split
    · exact ⟨_, rfl⟩
    · rw [assert_true hin, ok_bind, hv, ok_bind, hm, ok_bind]
      simp only [List.length_nil, Nat.add_zero, Nat.mul_zero]
      rw [vat_of_some hdir, ok_bind, h.points, hcut, ok_bind]
      rcases hO.only m2 res hcut with ⟨rfl, rfl, hno⟩ | ⟨rfl, rfl⟩
      · obtain ⟨x1, x2, x3, r1, r2, r3, hG⟩ := giveUp_one hS h.one (lt_of_extremes hab)
        simp only [r1, r2, r3, ok_bind]
        exact ⟨_, rfl⟩
      · exact ⟨_, rfl⟩
  · right
    refine ⟨_, mid, X, Y, m.num .d0, vs[v], hS, ?_, ?_⟩
    · simp only [List.nil_append]
      rw [sidePoints_one hdir]
      exact hH
    · rw [not_and_or] at hdef
      simpa using hdef

theorem refineTo_defined (h : DirInput m c vs es ps k) (hd : dirs.length = vs.length) (hin : k.hitTwo.inside = true)
    (hopp : ∃ v, IsOpposite g sqrt ps k.hitTwo.index k.hitOne k.sideOne true v) :
    (∃ x, g.refineTo sqrt tol2D m c ps k rotation translation dirs = ok x) ∨
      AreaUndefined g sqrt tol2D m vs es dirs rotation translation := by
  have i1 := h.lt_two
  have i2 := h.lt_one
  obtain ⟨v, hv⟩ := oppositeEnd_ok (by rw [h.points]; exact i1) (by rw [h.points]; exact i2) hopp
  have hopp := oppositeEnd_spec (by rw [h.points]; exact i1) (by rw [h.points]; exact i2) hv
  have hvl : v < vs.length := by
    have := hopp.isEnd.lt (by rw [h.points]; exact i2)
    rwa [h.points] at this
  obtain ⟨a, b, hab, ha, hb⟩ := h.ends _ (List.mem_of_getElem? h.two)
  obtain ⟨mid, hm, hS⟩ := (HalvedSides.refl h.wf es).step h.two (by simp) (by simp) hab ha hb
  obtain ⟨d, hdir⟩ : ∃ d, dirs[k.hitTwo.index]? = some d := ⟨_, List.getElem?_eq_getElem (by omega)⟩
  have hB := hS.bounded h.bounded
  obtain ⟨X, Y, mc, hH, hC, hO⟩ := c114_corner_to_side_partial g sqrt tol2D mid hS.wf c vs es hB.vertices hB.edges hB.count
    hB.vertex_lt hB.edge_lt v k.hitTwo.index vs[v] (m.num .d0) (m.num .d1) (m.num .d1 + 1) d
    (List.getElem?_eq_getElem hvl) i1 (by rw [hS.num0]; simp) (by rw [hS.num1]; simp) (by rw [hS.num1]; simp) rotation translation
  by_cases hdef : (∃ b, g.isAreaPositive sqrt tol2D mid (X.map Prod.fst ++ [m.num .d0]) rotation translation = ok b) ∧
      ∃ b, g.isAreaPositive sqrt tol2D mid (Y.map Prod.fst ++ [vs[v]]) rotation translation = ok b
  · left
    obtain ⟨⟨m2, res⟩, hcut⟩ := hO.defined hdef.1 hdef.2
    unfold GeoCfg.refineTo
    split
    · exact ⟨_, rfl⟩
    · rw [assert_true hin, ok_bind, hv, ok_bind, hm, ok_bind]
      simp only [List.length_nil, Nat.add_zero, Nat.mul_zero]
      rw [vat_of_some hdir, ok_bind, h.points, hcut, ok_bind]
      rcases hO.only m2 res hcut with ⟨rfl, rfl, hno⟩ | ⟨rfl, rfl⟩
      · obtain ⟨x1, x2, x3, r1, r2, r3, hG⟩ := giveUp_one hS h.two (lt_of_extremes hab)
        simp only [r1, r2, r3, ok_bind]
        exact ⟨_, rfl⟩
      · exact ⟨_, rfl⟩
  · right
    refine ⟨_, mid, X, Y, vs[v], m.num .d0, hS, ?_, ?_⟩
    · simp only [List.nil_append]
      rw [sidePoints_one hdir]
      exact hH
    · rw [not_and_or] at hdef
      simpa using hdef

theorem refineBoth_defined (h : DirInput m c vs es ps k) (hd : dirs.length = vs.length) (hin : k.hitOne.inside = true)
    (hin' : k.hitTwo.inside = true) :
    (∃ x, g.refineBoth sqrt tol2D m c ps k rotation translation dirs = ok x) ∨
      AreaUndefined g sqrt tol2D m vs es dirs rotation translation := by
  have i1 := h.lt_one
  have i2 := h.lt_two
  obtain ⟨a, b, hab, ha, hb⟩ := h.ends _ (List.mem_of_getElem? h.one)
  obtain ⟨mid1, hm1, hS1⟩ := (HalvedSides.refl h.wf es).step h.one (by simp) (by simp) hab ha hb
  obtain ⟨a', b', hab', ha', hb'⟩ := h.ends _ (List.mem_of_getElem? h.two)
  obtain ⟨mid, hm, hS⟩ := hS1.step h.two (by
      intro j hj hc
      simp only [List.nil_append, List.mem_singleton] at hj
      subst hj
      exact h.apart ((List.getElem?_inj (by rw [h.bounded.count]; exact i1) h.once).1 (hc.trans h.two.symm))) (by
      intro j hj x hx
      exact h.bounded.edge_lt x (List.mem_of_getElem? hx)) hab' ha' hb'
  obtain ⟨d, hdir⟩ : ∃ d, dirs[k.hitOne.index]? = some d := ⟨_, List.getElem?_eq_getElem (by omega)⟩
  obtain ⟨d', hdir'⟩ : ∃ d, dirs[k.hitTwo.index]? = some d := ⟨_, List.getElem?_eq_getElem (by omega)⟩
  have hB := hS.bounded h.bounded
  obtain ⟨X, Y, mc, hH, hC, hO⟩ := c114_side_to_side_partial g sqrt tol2D mid hS.wf c vs es hB.vertices hB.edges hB.count
    hB.vertex_lt hB.edge_lt k.hitOne.index k.hitTwo.index (m.num .d0) (m.num .d0 + 1) (m.num .d1) (m.num .d1 + 1)
    (m.num .d1 + 2) (m.num .d1 + 2 + 1) d d' i1 i2 h.apart (by rw [hS.num0]; simp) (by rw [hS.num0]; simp)
    (by rw [hS.num1]; simp) (by rw [hS.num1]; simp) (by rw [hS.num1]; simp) (by rw [hS.num1]; simp) rotation translation
  by_cases hdef : (∃ b, g.isAreaPositive sqrt tol2D mid (X.map Prod.fst ++ [m.num .d0 + 1]) rotation translation = ok b) ∧
      ∃ b, g.isAreaPositive sqrt tol2D mid (Y.map Prod.fst ++ [m.num .d0]) rotation translation = ok b
  · left
    obtain ⟨⟨m2, res⟩, hcut⟩ := hO.defined hdef.1 hdef.2
    unfold GeoCfg.refineBoth
    rw [assert_true hin, assert_true hin', ok_bind, ok_bind, hm1, ok_bind]
    simp only []
    rw [hm, ok_bind]
    simp only [List.length_nil, Nat.add_zero, Nat.mul_zero, List.nil_append, List.length_singleton, Nat.mul_one]
    rw [vat_of_some hdir, ok_bind, vat_of_some hdir', ok_bind, h.points, hcut, ok_bind]
    rcases hO.only m2 res hcut with ⟨rfl, rfl, hno⟩ | ⟨rfl, rfl⟩
    · obtain ⟨x1, x2, x3, x4, x5, x6, r1, r2, r3, r4, r5, r6, hG⟩ := giveUp_two hS h.one h.two (by
        intro hc
        exact h.apart ((List.getElem?_inj (by rw [h.bounded.count]; exact i1) h.once).1 (h.one.trans (hc ▸ h.two.symm))))
        (lt_of_extremes hab) (lt_of_extremes hab')
      simp only [r1, r2, r3, r4, r5, r6, ok_bind]
      exact ⟨_, rfl⟩
    · exact ⟨_, rfl⟩
  · right
    refine ⟨_, mid, X, Y, m.num .d0, m.num .d0 + 1, hS, ?_, ?_⟩
    · simp only [List.nil_append, List.singleton_append]
      rw [sidePoints_two hdir hdir' h.apart]
      exact hH
    · rw [not_and_or] at hdef
      simpa using hdef

theorem refineCorners_defined (h : DirInput m c vs es ps k) (h0 : sqrt 0 = 0) {a b : Nat} {extend : Bool}
    (ha : a < vs.length) (hb : b < vs.length) (hnf : ¬ FlatChord g sqrt ps a b) :
    (∃ x, g.refineCorners sqrt tol2D m c ps k a b rotation translation extend = ok x) ∨
      AreaUndefined g sqrt tol2D m vs es dirs rotation translation := by
  have hn := h.points
  obtain ⟨al, hal, hai⟩ := verticesAligned_ok (g := g) (sqrt := sqrt) (hn ▸ ha) (hn ▸ hb)
  have hal' : al = false := by
    cases al with
    | false => rfl
    | true => exact absurd (hai.1 rfl) hnf
  subst hal'
  have hab : a ≠ b := by
    rintro rfl
    apply hnf
    have e1 := List.getElem?_eq_getElem (hn ▸ ha : a < ps.length)
    have e3 := List.getElem?_eq_getElem (l := ps) (Nat.mod_lt (a + 1) (by omega))
    exact Or.inr (Or.inr ⟨_, _, _, e1, e1, Or.inl e3, aligned_self h0 _ _⟩)
  have hB := h.bounded
  obtain ⟨X, Y, mc, hH, hC, hO⟩ := c114_corner_to_corner_partial g sqrt tol2D m h.wf c vs es hB.vertices hB.edges hB.count
    hB.vertex_lt hB.edge_lt a b vs[a] vs[b] (List.getElem?_eq_getElem ha) (List.getElem?_eq_getElem hb) hab rotation
    translation
  by_cases hdef : (∃ b', g.isAreaPositive sqrt tol2D m (X.map Prod.fst ++ [vs[b]]) rotation translation = ok b') ∧
      ∃ b', g.isAreaPositive sqrt tol2D m (Y.map Prod.fst ++ [vs[a]]) rotation translation = ok b'
  · left
    obtain ⟨⟨m2, res⟩, hcut⟩ := hO.defined hdef.1 hdef.2
    unfold GeoCfg.refineCorners
    rw [hal, ok_bind]
    simp only [Bool.false_eq_true, if_false]
    rw [hn, hcut, ok_bind]
    cases res <;> exact ⟨_, rfl⟩
  · right
    refine ⟨_, m, X, Y, vs[a], vs[b], HalvedSides.refl h.wf es, ?_, ?_⟩
    · rw [sidePoints_nil, boundary_none]
      exact hH
    · rw [not_and_or] at hdef
      simpa using hdef

end

end Verif
