import Verif.EarThinLemmas
import Verif.PointBoxProps
import Verif.HullModelLemmas

/-
The rounds of the ear clipping as functions.
-/
namespace Verif

open Res

variable {K : Type} [Field K] [LinearOrder K] [IsStrictOrderedRing K]
variable {g : GeoCfg K} {sqrt : K → K}

/-- The settings under which the position of a point in a triangle is found. -/
structure EarCfg (g : GeoCfg K) (sqrt : K → K) : Prop where
  hs : IsSqrt sqrt
  h0 : 0 ≤ g.minTolerance
  hT : g.tol1D < 1 / 2
  h1 : g.tolSq ≤ 1
  h1D : 0 ≤ g.tolerance1D

/-- `p` is found not to be in the triangle. -/
def GeoCfg.clearOf (g : GeoCfg K) (sqrt : K → K) (a b c p : V3 K) : Bool :=
  match pointsBoundingBox [a, b, c] with
  | ok box => !g.isPointInBoundingBox p box ||
      (match g.pointPolygonPosition sqrt p [a, b, c] with
       | ok r => !r.isInside
       | _ => false)
  | _ => false

/-- `v` is found to be an ear. -/
def GeoCfg.isEarAt (g : GeoCfg K) (sqrt : K → K) (vs : List (V3 K)) (v : Nat) : Bool :=
  match vs[cyclePrev vs.length v]?, vs[v]?, vs[(v + 1) % vs.length]? with
  | some a, some b, some c =>
      !g.isValueNegative (g.polarAngle a b c ((a.sub b).norm sqrt) ((c.sub b).norm sqrt)) g.tol1D &&
      (List.range vs.length).all fun ov =>
        decide (ov = v ∨ ov = cyclePrev vs.length v ∨ ov = (v + 1) % vs.length) ||
        (match vs[ov]? with
         | some p => g.clearOf sqrt a b c p
         | none => false)
  | _, _, _ => false

theorem cyclePrev_lt {n v : Nat} (h : v < n) : cyclePrev n v < n := by unfold cyclePrev; split <;> omega

theorem next_lt {n v : Nat} (h : v < n) : (v + 1) % n < n := Nat.mod_lt _ (by omega)

theorem triangle_position (hg : EarCfg g sqrt) {a b c p : V3 K} (ha : a.z = 0) (hb : b.z = 0) (hc : c.z = 0)
    (hp : p.z = 0) : ∃ r, g.pointPolygonPosition sqrt p [a, b, c] = ok r := by
  have hf : FlatPolygon [a, b, c] := ⟨by simp, by simp [ha, hb, hc]⟩
  rcases polygon_cases hg.hs hg.h0 hg.hT hg.h1 hg.h1D hf hp with ⟨i, -⟩ | ⟨v, a, b, s, r, -, -, -, i⟩
  · exact ⟨_, i⟩
  · exact ⟨_, i⟩

theorem earTest_eq (hg : EarCfg g sqrt) {vs : List (V3 K)} (hz : ∀ p ∈ vs, p.z = 0) {a b c : V3 K} (ha : a.z = 0)
    (hb : b.z = 0) (hc : c.z = 0) {box : V3 K × V3 K} (hbox : pointsBoundingBox [a, b, c] = ok box)
    (v prev next : Nat) (l : List Nat) (hl : ∀ i ∈ l, i < vs.length) :
    g.earTest sqrt vs [a, b, c] box v prev next l = ok (l.all fun ov =>
      decide (ov = v ∨ ov = prev ∨ ov = next) ||
        (match vs[ov]? with
         | some p => g.clearOf sqrt a b c p
         | none => false)) := by
  induction l with
  | nil => rfl
  | cons ov l ih =>
    have hov := hl ov (by simp)
    have ih := ih fun i hi => hl i (by simp [hi])
    rw [GeoCfg.earTest, List.all_cons]
    by_cases h : ov = v ∨ ov = prev ∨ ov = next
    · rw [if_pos h, ih]; simp [h]
    · rw [if_neg h, vget_of_lt hov, ok_bind, List.getElem?_eq_getElem hov]
      simp only [h, decide_false, Bool.false_or]
      have hc : g.clearOf sqrt a b c vs[ov] = (!g.isPointInBoundingBox vs[ov] box ||
          (match g.pointPolygonPosition sqrt vs[ov] [a, b, c] with
          | ok r => !r.isInside
          | _ => false)) := by
        unfold GeoCfg.clearOf; rw [hbox]
      rw [hc]
      cases hb' : g.isPointInBoundingBox vs[ov] box with
      | false => rw [if_pos rfl, ih]; simp
      | true =>
        rw [if_neg (by simp)]
        obtain ⟨r, hr⟩ := triangle_position hg ha hb ‹c.z = 0› (hz _ (List.getElem_mem hov))
        rw [hr, ok_bind]
        cases hi : r.isInside with
        | false => rw [if_pos rfl, ih]; simp [hi]
        | true => rw [if_neg (by simp)]; simp [hi]

theorem findEar_eq (hg : EarCfg g sqrt) {vs : List (V3 K)} (hz : ∀ p ∈ vs, p.z = 0) (l : List Nat)
    (hl : ∀ i ∈ l, i < vs.length) :
    g.findEar sqrt vs l = match l.find? (g.isEarAt sqrt vs) with
      | some v => ok v
      | none => abort := by
  induction l with
  | nil => rfl
  | cons v l ih =>
    have hv := hl v (by simp)
    have ih := ih fun i hi => hl i (by simp [hi])
    have hp := cyclePrev_lt hv
    have hn := next_lt hv
    rw [GeoCfg.findEar]
    dsimp only
    rw [vget_of_lt hp, ok_bind, vget_of_lt hv, ok_bind, vget_of_lt hn, ok_bind, List.find?_cons]
    set a := vs[cyclePrev vs.length v]
    set b := vs[v]
    set c := vs[(v + 1) % vs.length]
    have ha := hz a (List.getElem_mem _)
    have hb := hz b (List.getElem_mem _)
    have hc := hz c (List.getElem_mem _)
    have he : extractPoints vs [cyclePrev vs.length v, v, (v + 1) % vs.length] = ok [a, b, c] := by
      apply extractPoints_eq
      simp [List.getElem?_eq_getElem hp, List.getElem?_eq_getElem hv, List.getElem?_eq_getElem hn, a, b, c]
    have hear : g.isEarAt sqrt vs v =
        (!g.isValueNegative (g.polarAngle a b c ((a.sub b).norm sqrt) ((c.sub b).norm sqrt)) g.tol1D &&
        (List.range vs.length).all fun ov =>
          decide (ov = v ∨ ov = cyclePrev vs.length v ∨ ov = (v + 1) % vs.length) ||
          (match vs[ov]? with
           | some p => g.clearOf sqrt a b c p
           | none => false)) := by
      unfold GeoCfg.isEarAt
      rw [List.getElem?_eq_getElem hp, List.getElem?_eq_getElem hv, List.getElem?_eq_getElem hn]
    cases hneg : g.isValueNegative (g.polarAngle a b c ((a.sub b).norm sqrt) ((c.sub b).norm sqrt)) g.tol1D with
    | true =>
      rw [if_pos rfl, ih, hear, hneg]
      simp
    | false =>
      rw [if_neg (by simp), he, ok_bind]
      obtain ⟨box, hbox⟩ : ∃ box, pointsBoundingBox [a, b, c] = ok box := ⟨_, rfl⟩
      rw [hbox, ok_bind, earTest_eq hg hz ha hb hc hbox _ _ _ _ (fun i hi => List.mem_range.1 hi), ok_bind, ih, hear,
        hneg]
      simp only [Bool.not_false, Bool.true_and]
      split
      · rename_i h; rw [h]
      · rename_i h; rw [Bool.not_eq_true] at h; rw [h]

/-- A point of a triangle is in its bounding box. -/
theorem inTriangle_box (h0 : 0 ≤ g.minTolerance) {a b c p : V3 K} (ha : a.z = 0) (hb : b.z = 0) (hc : c.z = 0)
    (hp : p.z = 0) (hpos : 0 < area2 a b c) (hin : InTriangle (a, b, c) p) {box : V3 K × V3 K}
    (hbox : pointsBoundingBox [a, b, c] = ok box) : g.isPointInBoundingBox p box = true := by
  have hT0 := g.tol1D_nonneg h0
  have w := fun a b => window_nonneg hT0 a b
  simp only [pointsBoundingBox, List.foldl_cons, List.foldl_nil] at hbox
  injection hbox with hbox
  obtain ⟨lo, hi⟩ := box
  injection hbox with e1 e2
  obtain ⟨i1, i2, i3⟩ := hin
  simp only at i1 i2 i3
  have key : ∀ (u : V3 K → K), (area2 a b c * u p = area2 b c p * u a + area2 c a p * u b + area2 a b p * u c) →
      ∀ m, m ≤ u a → m ≤ u b → m ≤ u c → m ≤ u p := by
    intro u hu m m1 m2 m3
    have hsum : area2 b c p + area2 c a p + area2 a b p = area2 a b c := by simp only [area2]; ring
    have : 0 ≤ area2 a b c * (u p - m) := by
      have : area2 a b c * (u p - m) = area2 b c p * (u a - m) + area2 c a p * (u b - m) + area2 a b p * (u c - m) := by
        linear_combination hu + m * hsum
      rw [this]
      have := mul_nonneg i2 (sub_nonneg.2 m1)
      have := mul_nonneg i3 (sub_nonneg.2 m2)
      have := mul_nonneg i1 (sub_nonneg.2 m3)
      linarith
    have := nonneg_of_mul_nonneg_right this hpos
    linarith
  rw [isPointInBoundingBox_iff g h0, ← e1, ← e2]
  have hx1 := key (fun v => v.x) (by simp only [area2]; ring) (min (min a.x b.x) c.x) (by simp) (by simp) (by simp)
  have hy1 := key (fun v => v.y) (by simp only [area2]; ring) (min (min a.y b.y) c.y) (by simp) (by simp) (by simp)
  have hx2 := key (fun v => -v.x) (by simp only [area2]; ring) (-max (max a.x b.x) c.x) (by simp) (by simp) (by simp)
  have hy2 := key (fun v => -v.y) (by simp only [area2]; ring) (-max (max a.y b.y) c.y) (by simp) (by simp) (by simp)
  simp only [ha, hb, hc, hp, min_self, max_self]
  refine ⟨⟨?_, ?_⟩, ⟨?_, ?_⟩, ⟨?_, ?_⟩⟩
  · linarith [w p.x (min (min a.x b.x) c.x)]
  · linarith [w (max (max a.x b.x) c.x) p.x]
  · linarith [w p.y (min (min a.y b.y) c.y)]
  · linarith [w (max (max a.y b.y) c.y) p.y]
  · linarith [w (0 : K) 0]
  · linarith [w (0 : K) 0]

/-- A point that is found not to be in the triangle is not in it. -/
theorem clearOf_not_in (hg : EarCfg g sqrt) {a b c p : V3 K} (ha : a.z = 0) (hb : b.z = 0) (hc : c.z = 0)
    (hp : p.z = 0) (hpos : 0 < area2 a b c) (h : g.clearOf sqrt a b c p = true) : ¬ InTriangle (a, b, c) p := by
  intro hin
  unfold GeoCfg.clearOf at h
  obtain ⟨box, hbox⟩ : ∃ box, pointsBoundingBox [a, b, c] = ok box := ⟨_, rfl⟩
  rw [hbox] at h
  obtain ⟨r, hr⟩ := triangle_position hg ha hb hc hp
  simp only [hr, inTriangle_box hg.h0 ha hb hc hp hpos hin hbox, Bool.not_true, Bool.false_or] at h
  have hr' : r = .outside := by
    cases r <;> simp [PointPolygonPos.isInside] at h ⊢
  subst hr'
  have hf : FlatPolygon [a, b, c] := ⟨by simp, by simp [ha, hb, hc]⟩
  obtain ⟨v, x, y, he, hlt, -⟩ := (c69_outside sqrt g [a, b, c] p hg.hs hg.h0 hg.hT hg.h1 hg.h1D hf hp hr).1
  obtain ⟨he1, he2⟩ := he
  have hv : v < 3 := by
    have := (List.getElem?_eq_some_iff.1 he1).1
    simpa using this
  obtain ⟨i1, i2, i3⟩ := hin
  simp only at i1 i2 i3
  have : v = 0 ∨ v = 1 ∨ v = 2 := by omega
  rcases this with rfl | rfl | rfl <;> simp at he1 he2 <;> subst he1 he2 <;> linarith

/-- The test of alignment, on vertices on which it is exact. -/
theorem aligned_iff (hg : EarCfg g sqrt) {vs : List (V3 K)} (hr : EarResolved g sqrt vs) (hz : ∀ p ∈ vs, p.z = 0)
    {a b c : V3 K} (ha : a ∈ vs) (hb : b ∈ vs) (hc : c ∈ vs) :
    g.pointIsAligned sqrt a b c = true ↔ area2 a b c = 0 := by
  constructor
  · intro h
    rcases hr b hb a ha c hc with h' | ⟨h1, h2, h3⟩
    · rw [area2_swap] at h'; linarith
    · exfalso
      have := g.aligned_area hg.hs a b c h
      rw [g.max_tol1D hg.h0] at this
      rw [area2_swap, abs_neg] at h3
      have e1 : (b.sub a).norm sqrt = sqrt (dist2 b a) := rfl
      have e2 : (c.sub a).norm sqrt = sqrt (dist2 c a) := rfl
      rw [e1, e2] at this
      linarith
  · intro h
    rw [GeoCfg.pointIsAligned, g.zero_1D hg.h0]
    have hz0 : ∀ v : V3 K, v.z = 0 → (v.normalized sqrt).z = 0 := by
      intro v hv
      unfold V3.normalized
      split <;> simp [V3.smul, hv]
    have hsm : ∀ v : V3 K, ∃ k, v.normalized sqrt = V3.smul k v := by
      intro v
      unfold V3.normalized
      split
      · exact ⟨_, rfl⟩
      · exact ⟨1, by ext <;> simp [V3.smul]⟩
    obtain ⟨k1, e1⟩ := hsm (b.sub a)
    obtain ⟨k2, e2⟩ := hsm (c.sub a)
    have hcr : ((b.sub a).normalized sqrt).cross ((c.sub a).normalized sqrt) = V3.zero := by
      rw [e1, e2]
      have ha := hz a ha
      have hb := hz b hb
      have hc := hz c hc
      simp only [area2] at h
      ext
      · simp [V3.cross, V3.smul, V3.sub, V3.zero, ha, hb, hc]
      · simp [V3.cross, V3.smul, V3.sub, V3.zero, ha, hb, hc]
      · simp only [V3.cross, V3.smul, V3.sub, V3.zero]
        linear_combination k1 * k2 * h
    rw [hcr]
    have : (V3.zero : V3 K).norm sqrt = 0 := by
      have := norm_sq hg.hs (V3.zero : V3 K)
      simp [V3.dot, V3.zero] at this
      exact this
    rw [this, abs_zero]
    exact g.tol1D_nonneg hg.h0

end Verif
