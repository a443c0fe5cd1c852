import Verif.FindModel
import Verif.FindSpec
import Verif.PointBoxProps
import Verif.CheckLemmas

/-!
# Lemmas on the search for a point in a mesh
-/

namespace Verif
open Res

variable {K : Type} [Field K] [LinearOrder K] [IsStrictOrderedRing K]

/-! ### Convex polygons -/

section polygon

variable {vs : List (V3 K)}

theorem mod_next {v n : Nat} (hv : v < n) : (v + 1) % n = if v + 1 = n then 0 else v + 1 := by
  split
  · rename_i h; rw [h, Nat.mod_self]
  · exact Nat.mod_eq_of_lt (by omega)

theorem StrictlyConvex.turn (h : StrictlyConvex vs) {v : Nat} {a b c : V3 K} (he : IsEdge vs v a b)
    (hn : IsEdge vs ((v + 1) % vs.length) b c) : 0 < area2 a b c := by
  have hv := he.lt
  have h2 := h.1
  refine h.2 v a b he _ c hn.2 ?_ ?_
  · have h3 := mod_next hv
    have h4 := mod_next (Nat.mod_lt (v + 1) (show 0 < vs.length by omega))
    rw [h3] at h4 ⊢
    intro h5
    rw [h4] at h5
    split at h5 <;> split at h5 <;> omega
  · have h4 := mod_next (Nat.mod_lt (v + 1) (show 0 < vs.length by omega))
    rw [h4]
    intro h5
    split at h5 <;> omega

theorem StrictlyConvex.edge_ne (h : StrictlyConvex vs) {v : Nat} {a b : V3 K} (he : IsEdge vs v a b) : a ≠ b := by
  rintro rfl
  obtain ⟨c, hc⟩ := he.next
  have := h.turn he hc
  unfold area2 at this
  linarith [this]

theorem area2_pointAt (a b c d : V3 K) (s : K) :
    area2 a b (pointAt c d s) = (1 - s) * area2 a b c + s * area2 a b d := by
  unfold area2 pointAt
  ring

theorem pointAt_area2 (a b : V3 K) (s : K) : area2 a b (pointAt a b s) = 0 := by
  unfold area2 pointAt
  ring

/-- A linear function has its largest value on a convex polygon at a vertex. -/
theorem StrictlyConvex.support (h : StrictlyConvex vs) {p : V3 K} (hp : InPolygon vs p) (l m : K) :
    ∃ c ∈ vs, l * p.x + m * p.y ≤ l * c.x + m * c.y := by
  have hne : vs ≠ [] := by
    rintro rfl
    have := h.1
    simp at this
  obtain ⟨a, ha, hmax⟩ : ∃ a ∈ vs, ∀ q ∈ vs, l * q.x + m * q.y ≤ l * a.x + m * a.y := by
    clear hp h
    induction vs with
    | nil => exact absurd rfl hne
    | cons x xs ih =>
      by_cases hx : xs = []
      · subst hx
        exact ⟨x, by simp, by simp⟩
      · obtain ⟨a, ha, hm⟩ := ih hx
        by_cases hc : l * x.x + m * x.y ≤ l * a.x + m * a.y
        · refine ⟨a, by simp [ha], fun q hq => ?_⟩
          rcases List.mem_cons.1 hq with rfl | hq
          · exact hc
          · exact hm q hq
        · refine ⟨x, by simp, fun q hq => ?_⟩
          rcases List.mem_cons.1 hq with rfl | hq
          · exact le_rfl
          · exact (hm q hq).trans (not_le.1 hc).le
  refine ⟨a, ha, ?_⟩
  obtain ⟨v, hv, ev⟩ := List.getElem_of_mem ha
  obtain ⟨a', b, he⟩ := isEdge_of_lt vs v hv
  have : a' = a := by
    have := he.1
    rw [List.getElem?_eq_getElem hv, ev] at this
    exact (Option.some.inj this).symm
  subst this
  obtain ⟨w, z, hz, hw⟩ := he.prev
  have ht := h.turn hz (hw ▸ he)
  have h1 := hp _ _ _ he
  have h2 := hp _ _ _ hz
  have hb := hmax b (List.mem_of_getElem? he.2)
  have hz' := hmax z (List.mem_of_getElem? hz.1)
  by_contra hcon
  rw [not_le] at hcon
  have key : area2 z a' b * ((l * p.x + m * p.y) - (l * a'.x + m * a'.y)) =
      -(area2 a' b p) * ((l * a'.x + m * a'.y) - (l * z.x + m * z.y)) +
      area2 z a' p * ((l * b.x + m * b.y) - (l * a'.x + m * a'.y)) := by
    unfold area2
    ring
  have k1 : 0 < area2 z a' b * ((l * p.x + m * p.y) - (l * a'.x + m * a'.y)) := mul_pos ht (by linarith)
  have k2 : 0 ≤ area2 a' b p * ((l * a'.x + m * a'.y) - (l * z.x + m * z.y)) := mul_nonneg h1 (by linarith)
  have k3 : 0 ≤ area2 z a' p * ((l * a'.x + m * a'.y) - (l * b.x + m * b.y)) := mul_nonneg h2 (by linarith)
  linarith

/-- A point of a convex polygon is in its box. -/
theorem StrictlyConvex.inBox (h : StrictlyConvex vs) (hz : ∀ q ∈ vs, q.z = 0) {p : V3 K} (hp : InPolygon vs p)
    (hpz : p.z = 0) {g : GeoCfg K} (h0 : 0 ≤ g.minTolerance) {box : V3 K × V3 K} (hb : pointsBoundingBox vs = ok box) :
    g.isPointInBoundingBox p box = true := by
  have hne : vs ≠ [] := by
    rintro rfl
    have := h.1
    simp at this
  obtain ⟨lo, hi, e, hin, -⟩ := (c72_box vs).2 hne
  rw [e] at hb
  obtain rfl := Res.ok.inj hb
  refine (c72_point_in_box g h0 lo hi p).1 ?_
  obtain ⟨a, ha, h1⟩ := h.support hp 1 0
  obtain ⟨b, hb, h2⟩ := h.support hp (-1) 0
  obtain ⟨c, hc, h3⟩ := h.support hp 0 1
  obtain ⟨d, hd, h4⟩ := h.support hp 0 (-1)
  have i1 := hin a ha
  have i2 := hin b hb
  have i3 := hin c hc
  have i4 := hin d hd
  have z1 := hz a ha
  unfold InBox
  refine ⟨?_, ?_, ?_, ?_, ?_, ?_⟩ <;> linarith

/-- Each point of an edge of a convex polygon is in the polygon. -/
theorem StrictlyConvex.edge_in (h : StrictlyConvex vs) {i : Nat} {a b p : V3 K} (he : IsEdge vs i a b)
    (hp : InSegment a b p) : InPolygon vs p := by
  obtain ⟨t, t0, t1, rfl⟩ := hp
  intro v c d hcd
  rw [area2_pointAt]
  have h1 := h.nonneg hcd he.1
  have h2 := h.nonneg hcd he.2
  have h3 : 0 ≤ 1 - t := by linarith
  positivity

theorem StrictlyConvex.not_both (h : StrictlyConvex vs) {i j : Nat} {p : V3 K} :
    ∀ r r', (r = .borderEdge i ∨ r = .borderVertex i) → (r' = .borderEdge j ∨ r' = .borderVertex j) →
      IsAt vs p r → IsAt vs p r' → r = r' := by
  have hvv : ∀ {i j : Nat}, vs[i]? = some p → vs[j]? = some p → i = j := by
    intro i j hi hj
    by_contra hne
    obtain ⟨a, b, he⟩ := isEdge_of_lt vs i (List.getElem?_eq_some_iff.1 hi).1
    obtain rfl := Option.some.inj (he.1.symm.trans hi)
    by_cases h2 : j = (i + 1) % vs.length
    · subst h2
      exact h.edge_ne he (Option.some.inj (hj.symm.trans he.2))
    · have := h.2 i a b he j a hj (Ne.symm hne) h2
      unfold area2 at this
      linarith [this]
  have hev : ∀ {i j : Nat} {a b : V3 K}, IsEdge vs i a b → InSegment a b p → vs[j]? = some p → False := by
    rintro i j a b he ⟨t, t0, t1, ht⟩ hj
    have h0 : area2 a b p = 0 := by rw [ht, pointAt_area2]
    have hne := h.edge_ne he
    have key : ∀ s : K, s ≠ 0 → pointAt a b s ≠ a := by
      intro s hs heq
      simp only [pointAt, V3.ext_iff] at heq
      obtain ⟨k1, k2, k3⟩ := heq
      apply hne
      have q : ∀ x y : K, x + s * (y - x) = x → x = y := by
        intro x y hxy
        have : s * (y - x) = 0 := by linarith
        rcases mul_eq_zero.1 this with k | k
        · exact absurd k hs
        · linarith
      ext
      · exact q _ _ k1
      · exact q _ _ k2
      · exact q _ _ k3
    by_cases h1 : j = i
    · subst h1
      have := Option.some.inj (hj.symm.trans he.1)
      exact key t t0.ne' (ht.symm.trans this)
    by_cases h2 : j = (i + 1) % vs.length
    · subst h2
      have := Option.some.inj (hj.symm.trans he.2)
      apply key (t - 1) (by linarith)
      have hb := ht.symm.trans this
      simp only [pointAt, V3.ext_iff] at hb ⊢
      obtain ⟨k1, k2, k3⟩ := hb
      refine ⟨by linarith, by linarith, by linarith⟩
    · have := h.2 i a b he j p hj h1 h2
      linarith
  have hee : ∀ {i j : Nat} {a b c d : V3 K}, IsEdge vs i a b → InSegment a b p → IsEdge vs j c d → InSegment c d p →
      i = j := by
    rintro i j a b c d he ⟨t, t0, t1, ht⟩ he' ⟨s, s0, s1, hs⟩
    have h0 : area2 a b p = 0 := by rw [ht, pointAt_area2]
    rw [hs, area2_pointAt] at h0
    have n1 := h.nonneg he he'.1
    have n2 := h.nonneg he he'.2
    have p1 : 0 ≤ (1 - s) * area2 a b c := mul_nonneg (by linarith) n1
    have p2 : 0 ≤ s * area2 a b d := mul_nonneg s0.le n2
    have z1 : area2 a b c = 0 := by
      rcases mul_eq_zero.1 (show (1 - s) * area2 a b c = 0 by linarith) with k | k
      · linarith
      · exact k
    have z2 : area2 a b d = 0 := by
      rcases mul_eq_zero.1 (show s * area2 a b d = 0 by linarith) with k | k
      · linarith
      · exact k
    have q : ∀ {k : Nat} {x : V3 K}, vs[k]? = some x → area2 a b x = 0 → k = i ∨ k = (i + 1) % vs.length := by
      intro k x hk hx
      by_contra hcon
      rw [not_or] at hcon
      have := h.2 i a b he k x hk hcon.1 hcon.2
      linarith
    have hi := he.lt
    have hj := he'.lt
    have h2 := h.1
    have r1 := q he'.1 z1
    have r2 := q he'.2 z2
    rw [mod_next hi] at r1 r2
    rw [mod_next hj] at r2
    split at r1 <;> split at r2 <;> omega
  rintro r r' (rfl | rfl) (rfl | rfl) h1 h2
  · obtain ⟨a, b, he, hp⟩ := h1
    obtain ⟨c, d, he', hp'⟩ := h2
    rw [hee he hp he' hp']
  · obtain ⟨a, b, he, hp⟩ := h1
    exact (hev he hp h2).elim
  · obtain ⟨a, b, he, hp⟩ := h2
    exact (hev he hp h1).elim
  · rw [hvv h1 h2]

/-- The position of a point with respect to a convex polygon is unique. -/
theorem StrictlyConvex.unique (h : StrictlyConvex vs) {p : V3 K} {r r' : PointPolygonPos} (h1 : IsAt vs p r)
    (h2 : IsAt vs p r') : r = r' := by
  have hin : ∀ {r : PointPolygonPos}, IsAt vs p r → r ≠ .outside → InPolygon vs p := by
    intro r hr hne
    cases r with
    | outside => exact absurd rfl hne
    | borderEdge i =>
      obtain ⟨a, b, he, hp⟩ := hr
      exact h.edge_in he hp
    | borderVertex i =>
      intro v a b he
      exact h.nonneg he hr
    | inside =>
      intro v a b he
      exact (hr v a b he).le
  have hout : ∀ {r : PointPolygonPos}, IsAt vs p r → IsAt vs p .outside → r = .outside := by
    intro r hr ho
    by_contra hne
    obtain ⟨v, a, b, he, ha⟩ := ho
    exact absurd (hin hr hne v a b he) (not_le.2 ha)
  have hins : ∀ {r : PointPolygonPos} {i : Nat}, (r = .borderEdge i ∨ r = .borderVertex i) → IsAt vs p r →
      ¬ IsAt vs p .inside := by
    rintro r i (rfl | rfl) hr hi
    · obtain ⟨a, b, he, t, -, -, rfl⟩ := hr
      have := hi _ _ _ he
      rw [pointAt_area2] at this
      exact lt_irrefl _ this
    · obtain ⟨a, b, he⟩ := isEdge_of_lt vs i (List.getElem?_eq_some_iff.1 hr).1
      obtain rfl := Option.some.inj (he.1.symm.trans hr)
      have := hi _ _ _ he
      unfold area2 at this
      linarith [this]
  cases r with
  | outside => exact (hout h2 h1).symm
  | inside =>
    cases r' with
    | outside => exact hout h1 h2
    | inside => rfl
    | borderEdge j => exact (hins (Or.inl rfl) h2 h1).elim
    | borderVertex j => exact (hins (Or.inr rfl) h2 h1).elim
  | borderEdge i =>
    cases r' with
    | outside => exact hout h1 h2
    | inside => exact (hins (Or.inl rfl) h1 h2).elim
    | borderEdge j => exact h.not_both (i := i) (j := j) _ _ (Or.inl rfl) (Or.inl rfl) h1 h2
    | borderVertex j => exact h.not_both (i := i) (j := j) _ _ (Or.inl rfl) (Or.inr rfl) h1 h2
  | borderVertex i =>
    cases r' with
    | outside => exact hout h1 h2
    | inside => exact (hins (Or.inr rfl) h1 h2).elim
    | borderEdge j => exact h.not_both (i := i) (j := j) _ _ (Or.inr rfl) (Or.inl rfl) h1 h2
    | borderVertex j => exact h.not_both (i := i) (j := j) _ _ (Or.inr rfl) (Or.inr rfl) h1 h2

/-- A point on the line of an edge is where its coordinate says. -/
theorem on_edge_line {a b p : V3 K} (hab : a ≠ b) (ha : a.z = 0) (hb : b.z = 0) (hp : p.z = 0)
    (h : area2 a b p = 0) : p = pointAt a b (coordOn a b p) := by
  have hd : 0 < dist2 a b := by
    rcases lt_or_eq_of_le (dist2_nonneg a b) with k | k
    · exact k
    · exfalso
      apply hab
      unfold dist2 at k
      have h1 := mul_self_nonneg (a.x - b.x)
      have h2 := mul_self_nonneg (a.y - b.y)
      have h3 := mul_self_nonneg (a.z - b.z)
      have e1 : a.x - b.x = 0 := mul_self_eq_zero.1 (by linarith)
      have e2 : a.y - b.y = 0 := mul_self_eq_zero.1 (by linarith)
      have e3 : a.z - b.z = 0 := mul_self_eq_zero.1 (by linarith)
      ext <;> linarith
  have hne := hd.ne'
  have key : ∀ u v w : K, u * dist2 a b = v * dist2 a b + dot4 a p a b * w → u = v + coordOn a b p * w := by
    intro u v w huv
    unfold coordOn
    field_simp
    linarith
  have h' := h
  unfold area2 at h'
  ext
  · apply key
    unfold dist2 dot4
    rw [ha, hb, hp]
    linear_combination (a.y - b.y) * h'
  · apply key
    unfold dist2 dot4
    rw [ha, hb, hp]
    linear_combination (b.x - a.x) * h'
  · change p.z = a.z + _ * (b.z - a.z)
    rw [hp, ha, hb]
    ring

/-- The position that is returned is where the point is. -/
theorem position_at {sqrt : K → K} (hs : IsSqrt sqrt) {g : GeoCfg K} (h0 : 0 ≤ g.minTolerance) (hT : g.tol1D < 1 / 2)
    (h1 : g.tolSq ≤ 1 / 2) (ht : 0 ≤ g.tolerance1D) (hf : FlatPolygon vs) (hc : StrictlyConvex vs) {p : V3 K}
    (hp : p.z = 0) (hcl : g.PointClear vs p) :
    ∃ r, g.pointPolygonPosition sqrt p vs = ok r ∧ IsAt vs p r := by
  have h1' : g.tolSq ≤ 1 := le_trans h1 (by norm_num)
  have hex : ∃ r, g.pointPolygonPosition sqrt p vs = ok r := by
    rcases polygon_cases hs h0 hT h1' ht hf hp with ⟨i, -⟩ | ⟨v, a, b, s, r, -, -, -, i⟩
    · exact ⟨_, i⟩
    · exact ⟨_, i⟩
  obtain ⟨r, hr⟩ := hex
  refine ⟨r, hr, ?_⟩
  cases r with
  | outside =>
    obtain ⟨⟨v, a, b, he, ha, -⟩, -⟩ := c69_outside sqrt g vs p hs h0 hT h1' ht hf hp hr
    exact ⟨v, a, b, he, ha⟩
  | inside =>
    intro v a b he
    exact c69_inside_exact sqrt g vs p hs h0 hT h1' ht hf hp (fun v a b c he hn => hc.turn he hn)
      (fun v a b he hon => (hcl v a b he hon).1) hr v a b he
  | borderEdge i =>
    obtain ⟨a, b, he, hon, k1, k2⟩ := (c69_border sqrt g vs p hs h0 hT h1 ht hf hp i).1 hr
    have hT0 := g.tol1D_nonneg h0
    obtain ⟨za, zb⟩ := hf.edge he
    exact ⟨a, b, he, _, by linarith, by linarith, on_edge_line (hc.edge_ne he) za zb hp (hcl i a b he hon).1⟩
  | borderVertex i =>
    obtain ⟨w, a, b, c, he, hv, -, hon, hcase⟩ := (c69_border sqrt g vs p hs h0 hT h1 ht hf hp i).2 hr
    obtain ⟨za, zb⟩ := hf.edge he
    obtain ⟨k1, k2, k3⟩ := hcl w a b he hon
    have hpt := on_edge_line (hc.edge_ne he) za zb hp k1
    change vs[i]? = some p
    rw [hv]
    rcases hcase with ⟨rfl, q, -⟩ | ⟨rfl, q⟩
    · rw [k2 q, pointAt_zero] at hpt
      rw [← hpt]
    · rw [k3 q, pointAt_one] at hpt
      rw [← hpt]

end polygon

/-! ### The loop -/

theorem findLoop_acc {P : Type} (test : Nat → Res (Option P)) (onlyFirst : Bool) (l : List Nat)
    (found : List (Nat × P)) :
    findLoop test onlyFirst l found = (findLoop test onlyFirst l [] >>= fun r => ok (found ++ r)) := by
  induction l generalizing found with
  | nil => simp [findLoop]
  | cons c rest ih =>
    unfold findLoop
    cases htest : test c with
    | ok o =>
      rw [ok_bind, ok_bind]
      cases o with
      | none => exact ih found
      | some p =>
        cases onlyFirst
        · simp only [Bool.false_eq_true, if_false]
          rw [ih (found ++ [(c, p)]), ih ([] ++ [(c, p)])]
          cases findLoop test false rest [] <;> simp
        · simp
    | abort => rfl
    | throw => rfl
    | ub => rfl
    | loop => rfl

/-- The search over all cells. -/
theorem findLoop_all {P : Type} {test : Nat → Res (Option P)} {f : Nat → Option P} :
    ∀ {l : List Nat}, (∀ c ∈ l, test c = ok (f c)) →
      findLoop test false l [] = ok (l.filterMap fun c => (f c).map fun p => (c, p)) ∧
      findLoop test true l [] = ok ((l.filterMap fun c => (f c).map fun p => (c, p)).take 1) := by
  intro l
  induction l with
  | nil => intro _; exact ⟨rfl, rfl⟩
  | cons c rest ih =>
    intro h
    obtain ⟨i1, i2⟩ := ih fun x hx => h x (by simp [hx])
    rw [List.filterMap_cons]
    cases hf : f c with
    | none =>
      simp only [Option.map_none]
      constructor <;> unfold findLoop <;> rw [h c (by simp), hf, ok_bind]
      · exact i1
      · exact i2
    | some p =>
      simp only [Option.map_some]
      constructor <;> unfold findLoop <;> rw [h c (by simp), hf, ok_bind]
      · simp only [Bool.false_eq_true, if_false]
        rw [findLoop_acc, i1, ok_bind]
        rfl
      · simp

theorem findOrder_rotate (n start : Nat) : findOrder n start = (List.range n).rotate start := by
  by_cases hn : n = 0
  · subst hn; simp [findOrder]
  apply List.ext_getElem
  · simp [findOrder]
  · intro i h1 h2
    simp only [findOrder, List.getElem_map, List.getElem_range, List.getElem_rotate, List.length_range]
    rw [Nat.add_comm]

end Verif
