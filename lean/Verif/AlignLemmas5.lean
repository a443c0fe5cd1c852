import Verif.AlignLemmas4
import Verif.IntersectProps

/-!
# C104: polyhedra with integer coordinates

For integer coordinates the hypotheses of C104 are decided by integer arithmetic.
-/

namespace Verif

/-- A point with integer coordinates. -/
def intPt (p : V3 Int) : V3 ℝ := ⟨p.x, p.y, p.z⟩

/-- The cross product of `b - a` and `c - o`. -/
def intCross (a b o c : V3 Int) : V3 Int :=
  ⟨(b.y - a.y) * (c.z - o.z) - (b.z - a.z) * (c.y - o.y), (b.z - a.z) * (c.x - o.x) - (b.x - a.x) * (c.z - o.z),
    (b.x - a.x) * (c.y - o.y) - (b.y - a.y) * (c.x - o.x)⟩

/-- The scalar product of `b - a` and `c - a`. -/
def intDot (a b c : V3 Int) : Int := (b.x - a.x) * (c.x - a.x) + (b.y - a.y) * (c.y - a.y) + (b.z - a.z) * (c.z - a.z)

/-- The three points are on one line. -/
def intLine (a b c : V3 Int) : Bool := intCross a b a c == ⟨0, 0, 0⟩

/-- `c` is between `a` and `b`. -/
def intBetween (a b c : V3 Int) : Bool := intLine a b c && decide (0 < intDot a b c) && decide (intDot a b c < intDot a b b)

theorem intPt_inj {a b : V3 Int} (h : intPt a = intPt b) : a = b := by
  simp only [intPt, V3.mk.injEq, Int.cast_inj] at h
  exact V3.ext h.1 h.2.1 h.2.2

theorem intDot_pos {a b : V3 Int} (h : a ≠ b) : 0 < intDot a b b := by
  by_contra hc
  apply h
  unfold intDot at hc
  have h1 := mul_self_nonneg (b.x - a.x)
  have h2 := mul_self_nonneg (b.y - a.y)
  have h3 := mul_self_nonneg (b.z - a.z)
  have e1 : b.x - a.x = 0 := mul_self_eq_zero.1 (by linarith)
  have e2 : b.y - a.y = 0 := mul_self_eq_zero.1 (by linarith)
  have e3 : b.z - a.z = 0 := mul_self_eq_zero.1 (by linarith)
  ext <;> omega

theorem intLine_point {a b c : V3 Int} (h : a ≠ b) (hl : intLine a b c = true) :
    intPt c = pointAt (intPt a) (intPt b) ((intDot a b c : ℝ) / intDot a b b) := by
  have hp : (0 : ℝ) < intDot a b b := by exact_mod_cast intDot_pos h
  simp only [intLine, beq_iff_eq, intCross, V3.mk.injEq] at hl
  obtain ⟨h1, h2, h3⟩ := hl
  have h1' : ((b.y : ℝ) - a.y) * (c.z - a.z) - (b.z - a.z) * (c.y - a.y) = 0 := by exact_mod_cast h1
  have h2' : ((b.z : ℝ) - a.z) * (c.x - a.x) - (b.x - a.x) * (c.z - a.z) = 0 := by exact_mod_cast h2
  have h3' : ((b.x : ℝ) - a.x) * (c.y - a.y) - (b.y - a.y) * (c.x - a.x) = 0 := by exact_mod_cast h3
  have hne := hp.ne'
  have key : ∀ u v w : ℝ, u * (intDot a b b : ℝ) = v * intDot a b b + intDot a b c * w →
      u = v + (intDot a b c : ℝ) / intDot a b b * w := by
    intro u v w h
    field_simp
    linarith
  ext <;> simp only [intPt, pointAt] <;> apply key <;> simp only [intDot] <;> push_cast
  · linear_combination (-(b.z : ℝ) + a.z) * (-h2') + (-(b.y : ℝ) + a.y) * h3'
  · linear_combination (-(b.z : ℝ) + a.z) * h1' + ((b.x : ℝ) - a.x) * h3'
  · linear_combination (-(b.y : ℝ) + a.y) * (-h1') + ((b.x : ℝ) - a.x) * (-h2')

theorem intLine_iff {a b c : V3 Int} (h : a ≠ b) : OnLine (intPt a) (intPt b) (intPt c) ↔ intLine a b c = true := by
  constructor
  · rintro ⟨s, hs⟩
    simp only [intPt, pointAt, V3.mk.injEq] at hs
    obtain ⟨h1, h2, h3⟩ := hs
    simp only [intLine, beq_iff_eq, intCross, V3.mk.injEq]
    refine ⟨?_, ?_, ?_⟩ <;> apply Int.cast_injective (α := ℝ) <;> push_cast <;> simp only [h1, h2, h3] <;> ring
  · intro hl
    exact ⟨_, intLine_point h hl⟩

theorem intBetween_iff {a b c : V3 Int} (h : a ≠ b) :
    Between (intPt a) (intPt b) (intPt c) ↔ intBetween a b c = true := by
  have hp : (0 : ℝ) < intDot a b b := by exact_mod_cast intDot_pos h
  unfold intBetween
  rw [Bool.and_eq_true, Bool.and_eq_true, decide_eq_true_eq, decide_eq_true_eq]
  constructor
  · rintro ⟨s, s0, s1, hs⟩
    have hd : (intDot a b c : ℝ) = s * intDot a b b := by
      simp only [intPt, pointAt, V3.mk.injEq] at hs
      obtain ⟨h1, h2, h3⟩ := hs
      simp only [intDot]
      push_cast
      rw [h1, h2, h3]
      ring
    refine ⟨⟨(intLine_iff h).1 ⟨s, hs⟩, ?_⟩, ?_⟩
    · have : (0 : ℝ) < intDot a b c := by rw [hd]; positivity
      exact_mod_cast this
    · have : (intDot a b c : ℝ) < intDot a b b := by rw [hd]; nlinarith
      exact_mod_cast this
  · rintro ⟨⟨h1, h2⟩, h3⟩
    have h2' : (0 : ℝ) < intDot a b c := by exact_mod_cast h2
    have h3' : (intDot a b c : ℝ) < intDot a b b := by exact_mod_cast h3
    exact ⟨_, div_pos h2' hp, (div_lt_one hp).2 h3', intLine_point h h1⟩

/-- The corner with integer coordinates. -/
def intCorner (pts : List (V3 Int)) (v : Nat) : V3 Int := pts.getD v ⟨0, 0, 0⟩

theorem corner_int (pts : List (V3 Int)) (v : Nat) : corner (pts.map intPt) v = intPt (intCorner pts v) := by
  unfold corner intCorner
  by_cases h : v < pts.length
  · simp [List.getD, h]
  · simp [List.getD, h, intPt]

/-- The conditions on a polyhedron with small integer coordinates. -/
structure IntInput (pts : List (V3 Int)) (edges : List (Nat × Nat)) : Prop where
  pos : 0 < pts.length
  nodup : pts.Nodup
  range : ∀ e ∈ edges, e.1 < pts.length ∧ e.2 < pts.length ∧ e.1 ≠ e.2
  simple : edges.Nodup ∧ ∀ e ∈ edges, (e.2, e.1) ∉ edges
  connected : ∀ v < pts.length, v = 0 ∨ ∃ u < v, (u, v) ∈ edges ∨ (v, u) ∈ edges
  small : ∀ p ∈ pts, |p.x| ≤ 10 ∧ |p.y| ≤ 10 ∧ |p.z| ≤ 10

/-- The tangents and the squares of the lengths of the edges, as `PolyhedronEdgeTangents` gives them. -/
noncomputable def intTangents (pts : List (V3 Int)) (edges : List (Nat × Nat)) : List (V3 ℝ) :=
  edges.map fun e => (intPt (intCorner pts e.2)).sub (intPt (intCorner pts e.1))

noncomputable def intLengths (pts : List (V3 Int)) (edges : List (Nat × Nat)) : List ℝ :=
  edges.map fun e => (intDot (intCorner pts e.1) (intCorner pts e.2) (intCorner pts e.2) : ℝ)

variable {pts : List (V3 Int)} {edges : List (Nat × Nat)}

theorem intCorner_mem {v : Nat} (h : v < pts.length) : intCorner pts v ∈ pts := by
  unfold intCorner
  simp [List.getD, h]

theorem IntInput.ne (h : IntInput pts edges) {u v : Nat} (hu : u < pts.length) (hv : v < pts.length) (huv : u ≠ v) :
    intCorner pts u ≠ intCorner pts v := by
  unfold intCorner
  simp only [List.getD, List.getElem?_eq_getElem hu, List.getElem?_eq_getElem hv, Option.getD_some]
  rwa [Ne, List.Nodup.getElem_inj_iff h.nodup]

theorem small_dist {a b : V3 Int} (ha : |a.x| ≤ 10 ∧ |a.y| ≤ 10 ∧ |a.z| ≤ 10)
    (hb : |b.x| ≤ 10 ∧ |b.y| ≤ 10 ∧ |b.z| ≤ 10) : dist2 (intPt a) (intPt b) ≤ 1200 := by
  have key : ∀ x y : Int, |x| ≤ 10 → |y| ≤ 10 → ((x : ℝ) - y) * (x - y) ≤ 400 := by
    intro x y hx hy
    rw [abs_le] at hx hy
    have h1 : (x - y) ≤ 20 := by omega
    have h2 : -20 ≤ x - y := by omega
    have : (x - y) * (x - y) ≤ 400 := by nlinarith
    exact_mod_cast this
  unfold dist2 intPt
  have := key _ _ ha.1 hb.1
  have := key _ _ ha.2.1 hb.2.1
  have := key _ _ ha.2.2 hb.2.2
  simp only
  linarith

theorem IntInput.input (h : IntInput pts edges) :
    AlignInput defaultGeo (pts.map intPt) edges (intTangents pts edges) (intLengths pts edges) where
  graph := by
    rw [List.length_map]
    refine ⟨h.pos, h.range, ?_, ?_⟩
    · intro i j p q hi hj hpq
      have hp := List.mem_of_getElem? hi
      have hq := List.mem_of_getElem? hj
      rcases hpq with rfl | rfl
      · obtain ⟨l1, e1⟩ := List.getElem?_eq_some_iff.1 hi
        obtain ⟨l2, e2⟩ := List.getElem?_eq_some_iff.1 hj
        exact (List.Nodup.getElem_inj_iff h.simple.1).1 (e1.trans e2.symm)
      · exact absurd hp (h.simple.2 q hq)
    · intro v
      induction v using Nat.strong_induction_on with
      | _ v ih =>
        intro hv
        rcases h.connected v hv with rfl | ⟨u, hu, he⟩
        · exact .refl
        · exact .tail (ih u hu (by omega)) he
  nodup := List.Nodup.map (fun _ _ => intPt_inj) h.nodup
  tangent := by
    intro e p he
    simp [intTangents, he, corner_int]
  length := by
    intro e p he
    obtain ⟨r1, r2, r3⟩ := h.range p (List.mem_of_getElem? he)
    refine ⟨_, by simp only [intLengths, List.getElem?_map, he]; rfl, ?_⟩
    simp only
    exact_mod_cast intDot_pos (h.ne r1 r2 r3)
  clear := by
    intro p hp o ho c hc
    obtain ⟨r1, r2, r3⟩ := h.range p hp
    obtain ⟨c, hcm, rfl⟩ := List.mem_map.1 hc
    rw [corner_int, corner_int, corner_int]
    have hne := h.ne r1 r2 r3
    have hol : o < pts.length := by rcases ho with rfl | rfl <;> assumption
    by_cases hl : intLine (intCorner pts p.1) (intCorner pts p.2) c = true
    · exact Or.inl ((intLine_iff hne).2 hl)
    · right
      have d1 := small_dist (h.small _ (intCorner_mem r1)) (h.small _ (intCorner_mem r2))
      have d2 := small_dist (h.small _ (intCorner_mem hol)) (h.small _ hcm)
      have d1' : 0 ≤ dist2 (intPt (intCorner pts p.1)) (intPt (intCorner pts p.2)) := dist2_nonneg _ _
      have d2' : 0 ≤ dist2 (intPt (intCorner pts o)) (intPt c) := dist2_nonneg _ _
      have hcr : intCross (intCorner pts p.1) (intCorner pts p.2) (intCorner pts o) c =
          intCross (intCorner pts p.1) (intCorner pts p.2) (intCorner pts p.1) c := by
        rcases ho with rfl | rfl
        · rfl
        · ext <;> simp only [intCross] <;> ring
      have hnz : (1 : Int) ≤ (intCross (intCorner pts p.1) (intCorner pts p.2) (intCorner pts o) c).x ^ 2 +
          (intCross (intCorner pts p.1) (intCorner pts p.2) (intCorner pts o) c).y ^ 2 +
          (intCross (intCorner pts p.1) (intCorner pts p.2) (intCorner pts o) c).z ^ 2 := by
        rw [hcr]
        by_contra hcon
        apply hl
        unfold intLine
        rw [beq_iff_eq]
        generalize intCross (intCorner pts p.1) (intCorner pts p.2) (intCorner pts p.1) c = k at hcon ⊢
        have q1 := sq_nonneg k.x
        have q2 := sq_nonneg k.y
        have q3 := sq_nonneg k.z
        have e1 : k.x = 0 := pow_eq_zero_iff (two_ne_zero) |>.1 (by omega)
        have e2 : k.y = 0 := pow_eq_zero_iff (two_ne_zero) |>.1 (by omega)
        have e3 : k.z = 0 := pow_eq_zero_iff (two_ne_zero) |>.1 (by omega)
        ext <;> assumption
      have hnz' : (1 : ℝ) ≤ lineCross (intPt (intCorner pts p.1)) (intPt (intCorner pts p.2))
          (intPt (intCorner pts o)) (intPt c) := by
        unfold lineCross intPt
        simp only [intCross] at hnz
        simp only
        exact_mod_cast hnz
      refine lt_of_lt_of_le ?_ hnz'
      have hm : dist2 (intPt (intCorner pts p.1)) (intPt (intCorner pts p.2)) *
          dist2 (intPt (intCorner pts o)) (intPt c) ≤ 1200 * 1200 := mul_le_mul d1 d2 d2' (by norm_num)
      rw [defaultGeo_tol1D]
      nlinarith

/-- The lines of the edges, decided by integers. -/
def intOn (pts : List (V3 Int)) (edges : List (Nat × Nat)) (p : Nat × Nat) (v : Nat) : Bool :=
  edges.any fun q => intLine (intCorner pts p.1) (intCorner pts p.2) (intCorner pts q.1) &&
    intLine (intCorner pts p.1) (intCorner pts p.2) (intCorner pts q.2) && (v == q.1 || v == q.2)

theorem IntInput.same_iff (h : IntInput pts edges) {p q : Nat × Nat} (hp : p ∈ edges) :
    SameLine (pts.map intPt) p q ↔ (intLine (intCorner pts p.1) (intCorner pts p.2) (intCorner pts q.1) &&
      intLine (intCorner pts p.1) (intCorner pts p.2) (intCorner pts q.2)) = true := by
  obtain ⟨r1, r2, r3⟩ := h.range p hp
  unfold SameLine
  simp only [corner_int, intLine_iff (h.ne r1 r2 r3), Bool.and_eq_true]

theorem IntInput.on_iff (h : IntInput pts edges) {p : Nat × Nat} (hp : p ∈ edges) {v : Nat} :
    OnEdgeLine (pts.map intPt) edges p v ↔ intOn pts edges p v = true := by
  unfold OnEdgeLine intOn
  rw [List.any_eq_true]
  refine exists_congr fun q => and_congr_right fun hq => ?_
  rw [h.same_iff hp]
  simp

theorem intOn_lt (h : IntInput pts edges) {p : Nat × Nat} {v : Nat} (hv : intOn pts edges p v = true) :
    v < pts.length := by
  unfold intOn at hv
  obtain ⟨q, hq, hv⟩ := List.any_eq_true.1 hv
  have := h.range q hq
  simp at hv
  omega

/-- No line has a gap. -/
theorem IntInput.noGap (h : IntInput pts edges)
    (hg : ∀ p ∈ edges, ∀ u ∈ List.range pts.length, ∀ w ∈ List.range pts.length,
      (intOn pts edges p u && intOn pts edges p w) = true → u = w ∨ (u, w) ∈ edges ∨ (w, u) ∈ edges ∨ ((List.range pts.length).any fun v => intOn pts edges p v &&
        intBetween (intCorner pts u) (intCorner pts w) (intCorner pts v)) = true) :
    ∀ p ∈ edges, ∀ u w, ¬ Gap (pts.map intPt) edges p u w := by
  rintro p hp u w ⟨hu, hw, hne, hno, n1, n2⟩
  rw [h.on_iff hp] at hu hw
  have hul := intOn_lt h hu
  have hwl := intOn_lt h hw
  have hex := (((hg p hp u (List.mem_range.2 hul) w (List.mem_range.2 hwl) (by rw [hu, hw]; rfl)).resolve_left
    hne).resolve_left n1).resolve_left n2
  obtain ⟨v, hv, hv3⟩ := List.any_eq_true.1 hex
  obtain ⟨hv1, hv2⟩ := Bool.and_eq_true _ _ ▸ hv3
  refine hno v ((h.on_iff hp).2 hv1) ?_
  rw [corner_int, corner_int, corner_int]
  exact (intBetween_iff (h.ne hul hwl hne)).2 hv2

theorem IntInput.noOverlap (h : IntInput pts edges)
    (hg : ∀ p ∈ edges, ∀ v < pts.length, intOn pts edges p v = true →
      intBetween (intCorner pts p.1) (intCorner pts p.2) (intCorner pts v) = false) :
    NoOverlap (pts.map intPt) edges := by
  intro p hp v hv
  rw [h.on_iff hp] at hv
  obtain ⟨r1, r2, r3⟩ := h.range p hp
  rw [corner_int, corner_int, corner_int, intBetween_iff (h.ne r1 r2 r3), hg p hp v (intOn_lt h hv) hv]
  simp

theorem IntInput.gap (h : IntInput pts edges) {p : Nat × Nat} (hp : p ∈ edges) {u w : Nat}
    (hu : intOn pts edges p u = true) (hw : intOn pts edges p w = true) (hne : u ≠ w) (n1 : (u, w) ∉ edges)
    (n2 : (w, u) ∉ edges)
    (hno : ∀ v < pts.length, intOn pts edges p v = true →
      intBetween (intCorner pts u) (intCorner pts w) (intCorner pts v) = false) :
    Gap (pts.map intPt) edges p u w := by
  refine ⟨(h.on_iff hp).2 hu, (h.on_iff hp).2 hw, hne, fun v hv => ?_, n1, n2⟩
  rw [h.on_iff hp] at hv
  rw [corner_int, corner_int, corner_int, intBetween_iff (h.ne (intOn_lt h hu) (intOn_lt h hw) hne),
    hno v (intOn_lt h hv) hv]
  simp

end Verif
