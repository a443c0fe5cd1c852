import Verif.DirBackLemmas
import Verif.DirectionLemmas
import Verif.ChordProps
import Verif.ChordPathLemmas
import Verif.PassLemmas
import Verif.BisectAreaLemmas

/-
Lemmas for the cut of a polygon by a direction.
-/
namespace Verif

open Res

variable {K : Type} [Field K] [LinearOrder K] [IsStrictOrderedRing K]

theorem HalvedSides.refl {m : Mesh K} (h : m.WF) (es : List Nat) : HalvedSides m m es [] where
  wf := h
  num0 := rfl
  num1 := rfl
  num2 := rfl
  coordinates := fun _ _ => rfl
  extremes := fun _ _ => rfl
  active0 := fun _ _ => rfl
  active1 := fun _ _ _ => rfl
  active2 := fun _ _ => rfl
  updated := fun _ _ => rfl
  marker := fun _ _ _ _ => rfl
  vertices := fun _ _ => rfl
  edges := fun _ _ => rfl
  polygons := fun _ _ => rfl
  halved := by simp

/-- One more side is halved. -/
theorem HalvedSides.step {m mid : Mesh K} {es S : List Nat} (h : HalvedSides m mid es S) {i e a b : Nat} (hi : es[i]? = some e)
    (hS : ∀ j ∈ S, es[j]? ≠ some e) (hlt : ∀ j ∈ S, ∀ x, es[j]? = some x → x < m.num .d1)
    (he : m.extremes e = ok (a, b)) (ha : a < m.num .d0) (hb : b < m.num .d0) :
    ∃ m', mid.splitEdgeMiddle e = ok (m', m.num .d0 + S.length, [m.num .d1 + 2 * S.length, m.num .d1 + 2 * S.length + 1]) ∧
      HalvedSides m m' es (S ++ [i]) := by
  have hel := lt_of_extremes he
  have he' : mid.extremes e = ok (a, b) := (h.extremes e hel).trans he
  have n0 := h.num0
  have n1 := h.num1
  have n2 := h.num2
  obtain ⟨p, hp⟩ := point_exists h.wf (v := a) (by omega)
  obtain ⟨q, hq⟩ := point_exists h.wf (v := b) (by omega)
  obtain ⟨m', hm, hsp, hpt⟩ := splitEdgeAt_spec h.wf he' (by omega) (by omega) (V3.smul (1 / 2) (p.add q))
  have hpm : m.point a = ok p := (point_congr (h.coordinates a ha)).symm.trans hp
  have hqm : m.point b = ok q := (point_congr (h.coordinates b hb)).symm.trans hq
  refine ⟨m', ?_, ?_⟩
  · unfold Mesh.splitEdgeMiddle
    rw [he', ok_bind, hp, ok_bind, hq, ok_bind, hm, n0, n1]
  constructor
  · exact hsp.wf
  · rw [hsp.num0, n0]; simp; omega
  · rw [hsp.num1, n1]; simp; omega
  · rw [hsp.num2, n2]
  · intro x hx
    rw [hsp.coordinates x (by omega), h.coordinates x hx]
  · intro x hx
    rw [hsp.extremes x (by omega), h.extremes x hx]
  · intro x hx
    rw [hsp.active0 x (by omega), h.active0 x hx]
  · intro x hx hn
    rw [hsp.active1 x (by omega) (by
      rintro rfl
      exact hn i (by simp) hi), h.active1 x hx (fun j hj => hn j (by simp [hj]))]
  · intro x hx
    rw [hsp.active2 x (by omega), h.active2 x hx]
  · intro x hx
    rw [hsp.updated x (by omega), h.updated x hx]
  · intro d x h3 hx
    have hd : x < mid.num d := by
      cases d <;> first | omega | exact absurd rfl h3
    rw [hsp.marker d x hd, h.marker d x h3 hx]
  · intro x hx
    rw [hsp.vertices x (by omega), h.vertices x hx]
  · intro x hx
    rw [hsp.edges x (by omega), h.edges x hx]
  · intro x hx
    rw [hsp.neighbours x (by omega), h.polygons x hx]
  · intro j i' hj
    rw [List.getElem?_append] at hj
    split at hj
    · obtain ⟨e', hei, hh⟩ := h.halved j i' hj
      have hjl : j < S.length := ‹_›
      have hmem : i' ∈ S := List.mem_of_getElem? hj
      obtain ⟨a', b', p', q', k1, k2, k3, k4, k5, k6⟩ := hh.ends
      refine ⟨e', hei, ⟨⟨a', b', p', q', k1, k2, k3, ?_, ?_, ?_⟩, ?_, ?_, ?_, ?_, ?_, ?_⟩⟩
      · rw [point_congr (hsp.coordinates _ (by omega)), k4]
      · rw [hsp.extremes _ (by omega), k5]
      · rw [hsp.extremes _ (by omega), k6]
      · rw [hsp.active1 _ (by have := hlt i' hmem e' hei; omega) (by rintro rfl; exact hS i' hmem hei), hh.inactive]
      · rw [hsp.active0 _ (by omega), hh.activeVertex]
      · intro k hk
        rw [hsp.active1 _ (by omega) (by omega), hh.activeHalves k hk]
      · rw [hsp.marker .d0 _ (by omega), hh.markerVertex]
      · intro k hk
        rw [hsp.marker .d1 _ (by omega), hh.markerHalves k hk]
      · intro k r hk hr
        rw [hsp.neighbours _ (by omega), hh.polygons k r hk hr]
    · have hj' : j - S.length = 0 := by
        by_contra hc
        rw [List.getElem?_eq_none (by simp; omega)] at hj
        cases hj
      have hjl : j = S.length := by omega
      subst hjl
      simp at hj
      subst hj
      refine ⟨e, hi, ⟨⟨a, b, p, q, he, hpm, hqm, ?_, ?_, ?_⟩, ?_, ?_, ?_, ?_, ?_, ?_⟩⟩
      · rw [← n0, hpt, smul_add_middle]
      · rw [← n0, ← n1, hsp.extremes0]
      · rw [← n0, ← n1, hsp.extremes1]
      · exact hsp.inactive
      · rw [← n0, hsp.active0New]
      · intro k hk
        rw [← n1, hsp.active1New k hk]
      · rw [← n0, hsp.marker0New, h.marker .d1 e (by simp) hel]
      · intro k hk
        rw [← n1, hsp.marker1New k hk, h.marker .d1 e (by simp) hel]
      · intro k r hk hr
        rw [← n1, hsp.neighboursNew k r hk ((h.polygons e hel).trans hr), n2]

theorem middleAligned_ok {g : GeoCfg K} {sqrt : K → K} {ps : List (V3 K)} {i v : Nat} (hi : i < ps.length)
    (hv : v < ps.length) (first : Bool) :
    ∃ r, g.middleAligned sqrt ps i v first = ok r ∧ (r = true ↔ OnSideLine g sqrt ps i v first) := by
  have hn : 0 < ps.length := by omega
  unfold GeoCfg.middleAligned OnSideLine
  have e1 := List.getElem?_eq_getElem hi
  have e2 := List.getElem?_eq_getElem hv
  have e3 := List.getElem?_eq_getElem (l := ps) (Nat.mod_lt (i + 1) hn)
  rw [nextPos_pos hn, ok_bind, vget_eq_ok.2 e1, vget_eq_ok.2 e3, vget_eq_ok.2 e2]
  simp only [ok_bind, smul_add_middle]
  refine ⟨_, rfl, ?_⟩
  constructor
  · intro h
    refine ⟨_, _, _, e2, e1, e3, ?_⟩
    cases first with
    | true =>
      simp only [if_true, Bool.or_eq_true] at h ⊢
      rcases h with h | h
      · exact ⟨_, Or.inl rfl, h⟩
      · exact ⟨_, Or.inr rfl, h⟩
    | false =>
      simp only [Bool.false_eq_true, if_false, Bool.or_eq_true] at h ⊢
      rcases h with h | h
      · exact ⟨_, Or.inl rfl, h⟩
      · exact ⟨_, Or.inr rfl, h⟩
  · rintro ⟨p, a, b, hp, ha, hb, x, hx, h⟩
    rw [e2] at hp
    rw [e1] at ha
    rw [e3] at hb
    cases hp
    cases ha
    cases hb
    cases first with
    | true =>
      simp only [if_true, Bool.or_eq_true] at h ⊢
      rcases hx with rfl | rfl
      · exact Or.inl h
      · exact Or.inr h
    | false =>
      simp only [Bool.false_eq_true, if_false, Bool.or_eq_true] at h ⊢
      rcases hx with rfl | rfl
      · exact Or.inl h
      · exact Or.inr h

theorem oppositeEnd_spec {g : GeoCfg K} {sqrt : K → K} {ps : List (V3 K)} {i v : Nat} {h : DirHit K} {s : SideCheck}
    {first : Bool} (hi : i < ps.length) (hh : h.index < ps.length)
    (hv : g.oppositeEnd sqrt ps i h s first = ok v) : IsOpposite g sqrt ps i h s first v := by
  have hn : 0 < ps.length := by omega
  unfold GeoCfg.oppositeEnd at hv
  obtain ⟨v0, hv0, hv⟩ := bind_eq_ok.1 hv
  have hnear := nearEnd_eq_ok hv0
  have uniq : ∀ u, IsNearEnd g ps.length h u → u = v0 := fun u hu => hu.trans hnear.symm
  obtain ⟨r, hr, hri⟩ := middleAligned_ok (g := g) (sqrt := sqrt) hi (hnear.isEnd.lt hh) first
  rw [hr, ok_bind] at hv
  cases r with
  | false =>
    simp only [if_true] at hv
    cases hv
    have hoff : ¬ OnSideLine g sqrt ps i v first := fun hc => by simpa using hri.2 hc
    exact ⟨hnear.isEnd, hoff, fun u hu _ => (uniq u hu).symm, fun _ => hnear⟩
  | true =>
    have hon := hri.1 rfl
    simp only [Bool.true_eq_false, if_false] at hv
    by_cases hs : s.verdict = .notInside
    · simp only [hs, ne_eq, not_true_eq_false, if_false, ok_bind, hr, if_true] at hv
      cases hv
    · simp only [hs, ne_eq, not_false_eq_true, if_true] at hv
      obtain ⟨v1, hv1, hv⟩ := bind_eq_ok.1 hv
      obtain ⟨r', hr', hri'⟩ := middleAligned_ok (g := g) (sqrt := sqrt) hi ((isEnd_flip hv1).lt hh) first
      rw [hr', ok_bind] at hv
      split at hv
      · cases hv
      · rename_i hne
        cases hv
        exact ⟨isEnd_flip hv1, fun hc => hne (hri'.2 hc), fun u hu hoff => absurd (uniq u hu ▸ hon) hoff,
          fun hc => absurd hc hs⟩

theorem sidePoints_one {n0 n1 : Nat} {dirs : List Bool} {i : Nat} {d : Bool} (hd : dirs[i]? = some d) :
    sidePoints n0 n1 dirs [i] = fun k => if k = i then
      some (if d then ⟨n0, n1, n1 + 1⟩ else ⟨n0, n1 + 1, n1⟩) else none := by
  funext k
  unfold sidePoints sidePoint
  by_cases h : k = i
  · subst h
    simp [hd]
  · simp [h]

theorem sidePoints_two {n0 n1 : Nat} {dirs : List Bool} {i j : Nat} {d d' : Bool} (hd : dirs[i]? = some d)
    (hd' : dirs[j]? = some d') (hij : i ≠ j) :
    sidePoints n0 n1 dirs [i, j] = fun k =>
      if k = i then some (if d then ⟨n0, n1, n1 + 1⟩ else ⟨n0, n1 + 1, n1⟩)
      else if k = j then some (if d' then ⟨n0 + 1, n1 + 2, n1 + 2 + 1⟩ else ⟨n0 + 1, n1 + 2 + 1, n1 + 2⟩) else none := by
  funext k
  unfold sidePoints sidePoint
  by_cases h : k = i
  · subst h
    simp [hd]
  · by_cases h' : k = j
    · subst h'
      simp [hd', h, List.idxOf_cons, Ne.symm h]
    · simp [h, h']

theorem sidePoints_nil {n0 n1 : Nat} {dirs : List Bool} : sidePoints n0 n1 dirs [] = fun _ => none := by
  funext k
  simp [sidePoints]

theorem vat_eq_ok {β : Type} {l : List β} {i : Nat} {a : β} (h : vat l i = ok a) : l[i]? = some a := by
  unfold vat at h
  split at h
  · cases h
    assumption
  · cases h

theorem aligned_self {g : GeoCfg K} {sqrt : K → K} (h0 : sqrt 0 = 0) (p x : V3 K) :
    g.pointIsAligned sqrt p p x = true := by
  unfold GeoCfg.pointIsAligned
  have e0 : p.sub p = ⟨0, 0, 0⟩ := by simp [V3.sub]
  have e1 : ((⟨0, 0, 0⟩ : V3 K).normalized sqrt) = ⟨0, 0, 0⟩ := by simp [V3.normalized, V3.dot]
  rw [e0]
  dsimp only
  rw [e1]
  have e2 : ∀ s : V3 K, ((⟨0, 0, 0⟩ : V3 K).cross s).norm sqrt = 0 := by
    intro s
    simp [V3.cross, V3.norm, V3.dot, h0]
  rw [e2, GeoCfg.isValueZero_iff]
  simp

section
variable {g : GeoCfg K} {sqrt : K → K} {tol2D : K} {m m' : Mesh K} {c : Nat} {vs es : List Nat} {ps : List (V3 K)}
  {k : DirCheck K} {dirs : List Bool} {rotation : M3 K} {translation : V3 K} {r : DirResult}

theorem DirInput.lt_one (h : DirInput m c vs es ps k) : k.hitOne.index < vs.length := by
  rw [← h.bounded.count]
  exact (List.getElem?_eq_some_iff.1 h.one).1

theorem DirInput.lt_two (h : DirInput m c vs es ps k) : k.hitTwo.index < vs.length := by
  rw [← h.bounded.count]
  exact (List.getElem?_eq_some_iff.1 h.two).1

/-- The polygon is the same after some sides were halved. -/
theorem HalvedSides.bounded {mid : Mesh K} {S : List Nat} (h : HalvedSides m mid es S) (hb : BoundedBy m c vs es) :
    BoundedBy mid c vs es where
  vertices := (h.vertices c (lt_of_row hb.vertices)).trans hb.vertices
  edges := (h.edges c (lt_of_row hb.vertices)).trans hb.edges
  count := hb.count
  vertex_lt := fun v hv => by have := hb.vertex_lt v hv; have := h.num0; omega
  edge_lt := fun v hv => by have := hb.edge_lt v hv; have := h.num1; omega

theorem refineFrom_spec (h : DirInput m c vs es ps k)
    (hrun : g.refineFrom sqrt tol2D m c ps k rotation translation dirs = ok (m', r)) :
    (k.sideOne.verdict = .lengthNotEnough ∧ m' = m ∧ r = .underTolerance) ∨
    (k.sideOne.verdict ≠ .lengthNotEnough ∧ k.hitOne.inside = true ∧ ∃ v q,
      IsOpposite g sqrt ps k.hitOne.index k.hitTwo k.sideTwo false v ∧ vs[v]? = some q ∧
      CutOrNot g sqrt tol2D m m' c vs es dirs rotation translation [k.hitOne.index] (m.num .d0) q r) := by
  unfold GeoCfg.refineFrom at hrun
  split at hrun
  · cases hrun
    exact Or.inl ⟨‹_›, rfl, rfl⟩
  · rename_i hlen
    obtain ⟨u, hin, hr1⟩ := bind_eq_ok.1 hrun
    obtain ⟨v, hv, hr2⟩ := bind_eq_ok.1 hr1
    have i1 := h.lt_one
    have i2 := h.lt_two
    have hopp := oppositeEnd_spec (by rw [h.points]; exact i1) (by rw [h.points]; exact i2) hv
    have hvl : v < vs.length := by
      have := hopp.isEnd.lt (by rw [h.points]; exact i2)
      rwa [h.points] at this
    obtain ⟨a, b, hab, ha, hb⟩ := h.ends _ (List.mem_of_getElem? h.one)
    obtain ⟨mid, hm, hS⟩ := (HalvedSides.refl h.wf es).step h.one (by simp) (by simp) hab ha hb
    rw [hm, ok_bind] at hr2
    obtain ⟨d, hd, hr3⟩ := bind_eq_ok.1 hr2
    have hd := vat_eq_ok hd
    obtain ⟨⟨m2, res⟩, hcut, hr4⟩ := bind_eq_ok.1 hr3
    clear hrun hr1 hr2 hr3
    have hB := hS.bounded h.bounded
    obtain ⟨X, Y, mc, hH, hC, hO⟩ := c114_side_to_corner_partial g sqrt tol2D mid hS.wf c vs es hB.vertices hB.edges hB.count
      hB.vertex_lt hB.edge_lt k.hitOne.index v (m.num .d0) vs[v] (m.num .d1) (m.num .d1 + 1) d i1
      (List.getElem?_eq_getElem hvl) (by rw [hS.num0]; simp) (by rw [hS.num1]; simp) (by rw [hS.num1]; simp) rotation translation
    rw [h.points] at hcut
    refine Or.inr ⟨hlen, (assert_eq_ok.1 hin), v, vs[v], hopp, List.getElem?_eq_getElem hvl, mid, X, Y, hS, ?_, ?_⟩
    · rw [sidePoints_one hd]
      exact hH
    rcases hO.only m2 res hcut with ⟨rfl, rfl, hno⟩ | ⟨rfl, rfl⟩
    · left
      obtain ⟨x1, x2, x3, r1, r2, r3, hG⟩ := giveUp_one hS h.one (lt_of_extremes hab)
      simp only [List.length_nil, Nat.add_zero, Nat.mul_zero] at hr4
      rw [r1, ok_bind, r2, ok_bind, r3, ok_bind] at hr4
      cases hr4
      exact ⟨rfl, hno, hG, by simp⟩
    · right
      cases hr4
      refine ⟨_, _, _, rfl, ⟨by simp, ?_, ?_⟩, hC⟩
      · simp [hS.num1, h.one]
      · rw [hS.num2]

theorem refineTo_spec (h : DirInput m c vs es ps k)
    (hrun : g.refineTo sqrt tol2D m c ps k rotation translation dirs = ok (m', r)) :
    (k.sideTwo.verdict = .lengthNotEnough ∧ m' = m ∧ r = .underTolerance) ∨
    (k.sideTwo.verdict ≠ .lengthNotEnough ∧ k.hitTwo.inside = true ∧ ∃ v q,
      IsOpposite g sqrt ps k.hitTwo.index k.hitOne k.sideOne true v ∧ vs[v]? = some q ∧
      CutOrNot g sqrt tol2D m m' c vs es dirs rotation translation [k.hitTwo.index] q (m.num .d0) r) := by
  unfold GeoCfg.refineTo at hrun
  split at hrun
  · cases hrun
    exact Or.inl ⟨‹_›, rfl, rfl⟩
  · rename_i hlen
    obtain ⟨u, hin, hr1⟩ := bind_eq_ok.1 hrun
    obtain ⟨v, hv, hr2⟩ := bind_eq_ok.1 hr1
    have i1 := h.lt_two
    have i2 := h.lt_one
    have hopp := oppositeEnd_spec (by rw [h.points]; exact i1) (by rw [h.points]; exact i2) hv
    have hvl : v < vs.length := by
      have := hopp.isEnd.lt (by rw [h.points]; exact i2)
      rwa [h.points] at this
    obtain ⟨a, b, hab, ha, hb⟩ := h.ends _ (List.mem_of_getElem? h.two)
    obtain ⟨mid, hm, hS⟩ := (HalvedSides.refl h.wf es).step h.two (by simp) (by simp) hab ha hb
    rw [hm, ok_bind] at hr2
    obtain ⟨d, hd, hr3⟩ := bind_eq_ok.1 hr2
    have hd := vat_eq_ok hd
    obtain ⟨⟨m2, res⟩, hcut, hr4⟩ := bind_eq_ok.1 hr3
    clear hrun hr1 hr2 hr3
    have hB := hS.bounded h.bounded
    obtain ⟨X, Y, mc, hH, hC, hO⟩ := c114_corner_to_side_partial g sqrt tol2D mid hS.wf c vs es hB.vertices hB.edges hB.count
      hB.vertex_lt hB.edge_lt v k.hitTwo.index vs[v] (m.num .d0) (m.num .d1) (m.num .d1 + 1) d
      (List.getElem?_eq_getElem hvl) i1 (by rw [hS.num0]; simp) (by rw [hS.num1]; simp) (by rw [hS.num1]; simp) rotation translation
    rw [h.points] at hcut
    refine Or.inr ⟨hlen, (assert_eq_ok.1 hin), v, vs[v], hopp, List.getElem?_eq_getElem hvl, mid, X, Y, hS, ?_, ?_⟩
    · rw [sidePoints_one hd]
      exact hH
    rcases hO.only m2 res hcut with ⟨rfl, rfl, hno⟩ | ⟨rfl, rfl⟩
    · left
      obtain ⟨x1, x2, x3, r1, r2, r3, hG⟩ := giveUp_one hS h.two (lt_of_extremes hab)
      simp only [List.length_nil, Nat.add_zero, Nat.mul_zero] at hr4
      rw [r1, ok_bind, r2, ok_bind, r3, ok_bind] at hr4
      cases hr4
      exact ⟨rfl, hno, hG, by simp⟩
    · right
      cases hr4
      refine ⟨_, _, _, rfl, ⟨by simp, ?_, ?_⟩, hC⟩
      · simp [hS.num1, h.two]
      · rw [hS.num2]

theorem refineBoth_spec (h : DirInput m c vs es ps k)
    (hrun : g.refineBoth sqrt tol2D m c ps k rotation translation dirs = ok (m', r)) :
    k.hitOne.inside = true ∧ k.hitTwo.inside = true ∧
      CutOrNot g sqrt tol2D m m' c vs es dirs rotation translation [k.hitOne.index, k.hitTwo.index] (m.num .d0)
        (m.num .d0 + 1) r := by
  unfold GeoCfg.refineBoth at hrun
  obtain ⟨u, hin, hr1⟩ := bind_eq_ok.1 hrun
  obtain ⟨u', hin', hr2⟩ := bind_eq_ok.1 hr1
  have i1 := h.lt_one
  have i2 := h.lt_two
  obtain ⟨a, b, hab, ha, hb⟩ := h.ends _ (List.mem_of_getElem? h.one)
  obtain ⟨mid1, hm1, hS1⟩ := (HalvedSides.refl h.wf es).step h.one (by simp) (by simp) hab ha hb
  rw [hm1, ok_bind] at hr2
  obtain ⟨a', b', hab', ha', hb'⟩ := h.ends _ (List.mem_of_getElem? h.two)
  obtain ⟨mid, hm, hS⟩ := hS1.step h.two (by
      intro j hj hc
      simp only [List.nil_append, List.mem_singleton] at hj
      subst hj
      exact h.apart ((List.getElem?_inj (by rw [h.bounded.count]; exact i1) h.once).1 (hc.trans h.two.symm))) (by
      intro j hj x hx
      exact h.bounded.edge_lt x (List.mem_of_getElem? hx)) hab' ha' hb'
  simp only [] at hr2
  rw [hm, ok_bind] at hr2
  obtain ⟨d, hd, hr3⟩ := bind_eq_ok.1 hr2
  obtain ⟨d', hd', hr3'⟩ := bind_eq_ok.1 hr3
  have hd := vat_eq_ok hd
  have hd' := vat_eq_ok hd'
  obtain ⟨⟨m2, res⟩, hcut, hr4⟩ := bind_eq_ok.1 hr3'
  clear hrun hr1 hr2 hr3 hr3'
  have hB := hS.bounded h.bounded
  obtain ⟨X, Y, mc, hH, hC, hO⟩ := c114_side_to_side_partial g sqrt tol2D mid hS.wf c vs es hB.vertices hB.edges hB.count
    hB.vertex_lt hB.edge_lt k.hitOne.index k.hitTwo.index (m.num .d0) (m.num .d0 + 1) (m.num .d1) (m.num .d1 + 1)
    (m.num .d1 + 2) (m.num .d1 + 2 + 1) d d' i1 i2 h.apart (by rw [hS.num0]; simp) (by rw [hS.num0]; simp)
    (by rw [hS.num1]; simp) (by rw [hS.num1]; simp) (by rw [hS.num1]; simp) (by rw [hS.num1]; simp) rotation translation
  rw [h.points] at hcut
  refine ⟨assert_eq_ok.1 hin, assert_eq_ok.1 hin', mid, X, Y, hS, ?_, ?_⟩
  · rw [sidePoints_two hd hd' h.apart]
    exact hH
  rcases hO.only m2 res hcut with ⟨rfl, rfl, hno⟩ | ⟨rfl, rfl⟩
  · left
    obtain ⟨x1, x2, x3, x4, x5, x6, r1, r2, r3, r4, r5, r6, hG⟩ := giveUp_two hS h.one h.two (by
      intro hc
      exact h.apart ((List.getElem?_inj (by rw [h.bounded.count]; exact i1) h.once).1 (h.one.trans (hc ▸ h.two.symm))))
      (lt_of_extremes hab) (lt_of_extremes hab')
    simp only [List.length_nil, Nat.add_zero, Nat.mul_zero, List.nil_append, List.length_singleton, Nat.mul_one] at hr4
    rw [r1, ok_bind, r2, ok_bind, r3, ok_bind, r4, ok_bind, r5, ok_bind, r6, ok_bind] at hr4
    cases hr4
    exact ⟨rfl, hno, hG, by simp⟩
  · right
    cases hr4
    refine ⟨_, _, _, rfl, ⟨?_, ?_, ?_⟩, hC⟩
    · simp [List.range_succ]
    · simp [hS.num1, h.one, h.two]
    · rw [hS.num2]

theorem refineCorners_spec (h : DirInput m c vs es ps k) (h0 : sqrt 0 = 0) {a b : Nat} {extend : Bool} (ha : a < vs.length)
    (hb : b < vs.length)
    (hrun : g.refineCorners sqrt tol2D m c ps k a b rotation translation extend = ok (m', r)) :
    (FlatChord g sqrt ps a b ∧ extend = true ∧ toSplitRelaxed k.sideOne k.sideTwo = false ∧ m' = m ∧ r = .qualityFailed) ∨
    (¬ FlatChord g sqrt ps a b ∧ ∃ p q, vs[a]? = some p ∧ vs[b]? = some q ∧
      CutOrNot g sqrt tol2D m m' c vs es dirs rotation translation [] p q r) := by
  unfold GeoCfg.refineCorners at hrun
  have hn := h.points
  obtain ⟨al, hal, hai⟩ := verticesAligned_ok (g := g) (sqrt := sqrt) (hn ▸ ha) (hn ▸ hb)
  rw [hal, ok_bind] at hrun
  cases al with
  | true =>
    simp only [if_true] at hrun
    split at hrun
    · rename_i hc
      cases hrun
      exact Or.inl ⟨hai.1 rfl, hc.1, hc.2, rfl, rfl⟩
    · cases hrun
  | false =>
    have hnf : ¬ FlatChord g sqrt ps a b := fun hc => by simpa using hai.2 hc
    have hab : a ≠ b := by
      rintro rfl
      apply hnf
      have e1 := List.getElem?_eq_getElem (hn ▸ ha : a < ps.length)
      have e3 := List.getElem?_eq_getElem (l := ps) (Nat.mod_lt (a + 1) (by omega))
      exact Or.inr (Or.inr ⟨_, _, _, e1, e1, Or.inl e3, aligned_self h0 _ _⟩)
    simp only [Bool.false_eq_true, if_false] at hrun
    obtain ⟨⟨m2, res⟩, hcut, hr⟩ := bind_eq_ok.1 hrun
    have hB := h.bounded
    obtain ⟨X, Y, mc, hH, hC, hO⟩ := c114_corner_to_corner_partial g sqrt tol2D m h.wf c vs es hB.vertices hB.edges hB.count
      hB.vertex_lt hB.edge_lt a b vs[a] vs[b] (List.getElem?_eq_getElem ha) (List.getElem?_eq_getElem hb) hab rotation
      translation
    clear hrun
    rw [hn] at hcut
    refine Or.inr ⟨hnf, _, _, List.getElem?_eq_getElem ha, List.getElem?_eq_getElem hb, m, X, Y, HalvedSides.refl h.wf es, ?_, ?_⟩
    · rw [sidePoints_nil, boundary_none]
      exact hH
    rcases hO.only m2 res hcut with ⟨rfl, rfl, hno⟩ | ⟨rfl, rfl⟩
    · cases hr
      exact Or.inl ⟨rfl, hno, (HalvedSides.refl h.wf es).kept.givenUp (fun _ _ => rfl) (by simp), fun _ => rfl⟩
    · cases hr
      exact Or.inr ⟨_, _, _, rfl, ⟨rfl, by simp, rfl⟩, hC⟩

end

end Verif
