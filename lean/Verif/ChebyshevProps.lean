import Verif.ChebyshevLemmas

/-
Properties of the largest circle in a polygon.
-/
namespace Verif

open Res

variable {K : Type} [Field K] [LinearOrder K] [IsStrictOrderedRing K]

/-! ### C76: the largest circle in a polygon -/

/-- The tolerance does not hide entries of the tableaux of the linear program. This holds for the tolerance
zero. -/
def ChebResolved (vs normals : List (V3 K)) (r0 : Option K) (tol : K) : Prop :=
  ∀ f, (chebyshevLP vs normals r0).final = ok f →
    (f.std (chebyshevLP vs normals r0).bounds).PivotsResolved f.noSlack.length tol ∧
      (f.std (chebyshevLP vs normals r0).bounds).CostsResolved f.noSlack.length tol

theorem chebResolved_zero (vs normals : List (V3 K)) (r0 : Option K) : ChebResolved vs normals r0 0 :=
  fun _ _ => ⟨pivotsResolved_zero _ _, fun _ _ _ _ _ h => h⟩

/-- What is known about the result of the algorithm for the program of the circle. -/
theorem cheb_simplex {p : LPInput K} {vs normals : List (V3 K)} {r0 : Option K}
    (hp : p = chebyshevLP vs normals r0) {tol : K} (h0 : 0 ≤ tol) (h1 : tol < 1)
    (hr : ∀ f, p.final = ok f → (f.std p.bounds).PivotsResolved f.noSlack.length tol ∧
      (f.std p.bounds).CostsResolved f.noSlack.length tol)
    {x1 : Nat → K} (hx1 : p.Feasible x1) (maxIt : Nat) :
    ∃ res, p.simplex maxIt tol = ok res ∧
      ((∃ x c, res = .success x c ∧ p.Feasible x ∧ ∀ x', p.Feasible x' → x' 2 ≤ x 2) ∨
        (res = .unbounded ∧ ∀ M, ∃ x, p.Feasible x ∧ M < x 2) ∨ res = .maxIt) := by
  have hpn : p.n = 3 := by rw [hp]; rfl
  have hfl : ∀ i < p.n, p.Flipped i → p.UB i = some 0 := by
    intro i hi hf
    rw [hp] at hf
    exact absurd hf (cheb_flipped vs normals r0 i (by omega))
  have hlow : ∀ i, p.low i = if i = 2 then some 0 else none := fun i => by rw [hp, cheb_low]
  have hlowv : ∀ i, p.lowv i = 0 := fun i => by rw [hp, cheb_lowv]
  have hsgn : ∀ i < p.n, p.sgn i = 1 := fun i hi => by rw [hp]; exact cheb_sgn vs normals r0 (by omega)
  have hrsgn : ∀ r, p.rsgn r = 1 := fun r => by rw [hp, cheb_rsgn]
  have hne : ∀ r < p.m, p.types r ≠ .eq := fun r _ => by rw [hp]; exact cheb_types vs normals r0 r
  have hval : ∀ x, p.value x = x 2 := by
    intro x
    unfold LPInput.value
    rw [hpn, Finset.sum_range_succ, Finset.sum_range_succ, Finset.sum_range_succ, hp]
    simp [chebyshevLP]
  have htc : p.bounds.traslCost = 0 := by
    rw [p.bounds_traslCost]
    exact Finset.sum_eq_zero fun i _ => by rw [hlowv, mul_zero]
  obtain ⟨f, e, h⟩ := p.final_inv
  obtain ⟨f', e', c1, c2, c3⟩ := c73_equality_form_partial p hfl
  rw [e] at e'
  injection e' with e'
  subst e'
  simp only [hval, htc, add_zero] at c3
  obtain ⟨hr1, hr2⟩ := hr f e
  have hlen := h.slack_length.2 hne
  obtain ⟨B, N, b1, n1, hs, n2, t, ht⟩ := h.first hne
  have hrho : 2 < p.bounds.nFinal := p.old_lt (by omega)
  have hcost : ∀ j, (f.std p.bounds).c j = if j = ⟨2, hrho⟩ then 1 else 0 := by
    subst hp
    exact cheb_cost h
  have hBn : ∀ i, B i ≠ ⟨2, hrho⟩ := by
    intro i hi
    have hmem : (2 : Nat) ∈ f.noSlack := (h.noSlack 2).2 (Or.inl (by omega))
    obtain ⟨q, hq, eq⟩ := List.getElem_of_mem hmem
    have := n2 ⟨q, hq⟩
    rw [List.getElem?_eq_getElem hq, eq] at this
    refine hs.disj i ⟨q, hq⟩ (Fin.ext ?_)
    rw [hi]
    exact Option.some.inj this
  obtain ⟨ex, hex, hend⟩ := single_loop hr1 h0 h1 hcost maxIt hs ht hBn
    (fun i q hq => cheb_alpha hp h hs n2 ht i q (congrArg Fin.val hq))
  have hsim : p.simplex maxIt tol = (match (generalizing := false) ex with
      | .success B _ beta =>
          ok (.success (f.solution p.bounds (basicSolution B beta))
            (∑ j, (f.std p.bounds).c j * basicSolution B beta j))
      | .unbounded => ok .unbounded
      | .maxIt => ok .maxIt) := by
    unfold LPInput.simplex
    simp only [e, ok_bind]
    rw [if_neg (not_not.2 hlen), solvePrimal_loop hlen b1 n1, hex, ok_bind]
    cases ex <;> rfl
  rw [hsim]
  have hsol : ∀ y, ∀ i < p.n, f.solution p.bounds y i = p.diff (LPInput.ext y) i := by
    intro y i hi
    rw [h.solution_eq y hi, hsgn i hi, hlowv]
    ring
  cases ex with
  | success B' N' beta =>
    obtain ⟨t', hs', ht', rfl, hent, i0, hi0, hb⟩ := hend
    have D := dictionary hs' ht'
    set y := basicSolution B' t'.beta with hy
    have yeq := basicSolution_eqs hs' D
    have ynn : ∀ j, j ≠ ⟨2, hrho⟩ → 0 ≤ y j := by
      intro j hj
      rcases hs'.cases j with ⟨i, rfl⟩ | ⟨q, rfl⟩
      · rw [hy, basicSolution_basic hs']
        exact hb i (fun e => hj (by rw [e, hi0]))
      · rw [hy, basicSolution_other hs']
    have ext_nn : ∀ c, c ≠ 2 → 0 ≤ LPInput.ext y c := by
      intro c hc
      unfold LPInput.ext
      split
      · exact ynn _ (fun e => hc (congrArg Fin.val e))
      · exact le_refl _
    have hmax : ∀ x', p.Feasible x' → x' 2 ≤ f.solution p.bounds y 2 := by
      intro x' hx'
      obtain ⟨y', hy', hxy⟩ := c2 x' hx'
      rw [← hxy 2 (by omega), ← c3, ← c3, D.value hs' hy'.1, basicSolution_value hs' D]
      have : ∑ q, t'.r q * y' (N' q) ≤ 0 := by
        refine Finset.sum_nonpos fun q _ => mul_nonpos_of_nonpos_of_nonneg ?_ (hy'.2 _)
        by_contra hpos
        have h1 := hr2 _ _ _ ht' q (not_le.1 hpos)
        exact absurd (entering_none hent q) (not_le.2 h1)
      linarith
    refine ⟨_, rfl, Or.inl ⟨_, _, rfl, ?_, hmax⟩⟩
    obtain ⟨g1, g2⟩ := (h.std_iff y).1 yeq
    have hpt : ∀ i < p.n, p.point (LPInput.ext y) i = f.solution p.bounds y i := by
      intro i hi
      unfold LPInput.point
      rw [hsol y i hi, hsgn i hi, hlowv]
      ring
    have hx2 : 0 ≤ f.solution p.bounds y 2 := by
      have := hmax x1 hx1
      have h3 : 0 ≤ x1 2 := by
        have := (hx1.1 2 (by omega)).1 0 (by rw [hp]; rfl)
        exact this
      linarith
    constructor
    · intro i hi
      rw [p.inBounds_iff, hsgn i hi, hlowv, hsol y i hi, one_mul, sub_zero]
      constructor
      · intro hl
        have hi2 : i = 2 := by
          by_contra hne
          rw [hlow] at hl
          simp [hne] at hl
        rw [hi2, ← hsol y 2 (by omega)]
        exact hx2
      · intro u hu
        have h3 := g2 i hi u hu
        have h4 := ext_nn (p.upCol i) (by unfold LPInput.upCol; omega)
        linarith
    · intro r hrm
      rw [p.rowHolds_iff, if_neg (hne r hrm)]
      have h3 := g1 r hrm
      rw [if_neg (hne r hrm)] at h3
      have h4 := ext_nn (p.rowCol r) (by unfold LPInput.rowCol; omega)
      have h5 : p.lhs (f.solution p.bounds y) r = p.lhs (p.point (LPInput.ext y)) r := by
        unfold LPInput.lhs
        refine Finset.sum_congr rfl fun i hi => ?_
        rw [hpt i (Finset.mem_range.1 hi)]
      rw [h5]
      linarith
  | unbounded =>
    obtain ⟨d, d1, d2, d3⟩ := hend
    refine ⟨_, rfl, Or.inr (Or.inl ⟨rfl, fun M => ?_⟩)⟩
    obtain ⟨y1, hy1, -⟩ := c2 x1 hx1
    obtain ⟨y, hy, hM⟩ := ray_unbounded hy1 d1 d2 d3 M
    exact ⟨_, c1 y hy, by rw [← c3]; exact hM⟩
  | maxIt => exact ⟨_, rfl, Or.inr (Or.inr rfl)⟩

theorem cheb_point {vs normals : List (V3 K)} (hlen : normals.length = vs.length)
    (hu : UnitNormals normals) (r0 : Option K) (x : Nat → K) :
    (chebyshevLP vs normals r0).Feasible x ↔
      DiscInside vs normals ⟨x 0, x 1, 0⟩ (x 2) ∧ ∀ u, r0 = some u → x 2 ≤ u := by
  rw [cheb_feasible_iff hlen, disc_iff hu _ rfl]
  constructor
  · rintro ⟨h1, h2, h3⟩
    exact ⟨⟨h1, h3⟩, h2⟩
  · rintro ⟨⟨h1, h3⟩, h2⟩
    exact ⟨h1, h2, h3⟩

theorem cheb_exists {vs normals : List (V3 K)} (hlen : normals.length = vs.length)
    (hu : UnitNormals normals) (r0 : Option K) {c : V3 K} {r : K} (h : DiscInside vs normals c r)
    (hr : ∀ u, r0 = some u → r ≤ u) :
    ∃ x : Nat → K, (chebyshevLP vs normals r0).Feasible x ∧ x 2 = r := by
  refine ⟨fun i => if i = 0 then c.x else if i = 1 then c.y else r, ?_, rfl⟩
  rw [cheb_point hlen hu]
  refine ⟨?_, hr⟩
  have e : (⟨c.x, c.y, 0⟩ : V3 K) = c := by rw [← h.2.1]
  simpa [e] using h

/-- If a circle fits into the polygon, the circle that is returned fits, and no circle that fits is larger;
`r0` is the bound of the radius if one is used. The starting point need not be feasible. -/
theorem c76_center {vs normals : List (V3 K)} (hlen : normals.length = vs.length)
    (hu : UnitNormals normals) {r0 : Option K} {tol : K} (h0 : 0 ≤ tol) (h1 : tol < 1)
    (hr : ChebResolved vs normals r0 tol) {c1 : V3 K} {r1 : K} (hd : DiscInside vs normals c1 r1)
    (hr1 : ∀ u, r0 = some u → r1 ≤ u) {maxIt : Nat} {c : V3 K} {r : K}
    (e : chebyshevCenter vs normals r0 maxIt tol = ok (c, r)) :
    DiscInside vs normals c r ∧ (∀ u, r0 = some u → r ≤ u) ∧
      ∀ c' r', DiscInside vs normals c' r' → (∀ u, r0 = some u → r' ≤ u) → r' ≤ r := by
  obtain ⟨x1, hx1, -⟩ := cheb_exists hlen hu r0 hd hr1
  obtain ⟨res, e1, hres⟩ := cheb_simplex rfl h0 h1 hr hx1 maxIt
  unfold chebyshevCenter at e
  rw [if_neg (not_not.2 hlen), e1, ok_bind] at e
  rcases hres with ⟨x, cv, rfl, hx, hmax⟩ | ⟨rfl, -⟩ | rfl
  · simp only [ok.injEq, Prod.mk.injEq] at e
    obtain ⟨rfl, rfl⟩ := e
    obtain ⟨g1, g2⟩ := (cheb_point hlen hu r0 x).1 hx
    refine ⟨g1, g2, fun c' r' hd' hr' => ?_⟩
    obtain ⟨x', hx', rfl⟩ := cheb_exists hlen hu r0 hd' hr'
    exact hmax x' hx'
  · exact nomatch e
  · exact nomatch e

/-- The function either returns or throws; it throws only if circles of any size fit or if the limit of the
iterations is reached. -/
theorem c76_fails {vs normals : List (V3 K)} (hlen : normals.length = vs.length)
    (hu : UnitNormals normals) {r0 : Option K} {tol : K} (h0 : 0 ≤ tol) (h1 : tol < 1)
    (hr : ChebResolved vs normals r0 tol) {c1 : V3 K} {r1 : K} (hd : DiscInside vs normals c1 r1)
    (hr1 : ∀ u, r0 = some u → r1 ≤ u) (maxIt : Nat) :
    (∃ c r, chebyshevCenter vs normals r0 maxIt tol = ok (c, r)) ∨
      (chebyshevCenter vs normals r0 maxIt tol = throw ∧
        ((∀ M, ∃ c r, DiscInside vs normals c r ∧ (∀ u, r0 = some u → r ≤ u) ∧ M < r) ∨
          (chebyshevLP vs normals r0).simplex maxIt tol = ok .maxIt)) := by
  obtain ⟨x1, hx1, -⟩ := cheb_exists hlen hu r0 hd hr1
  obtain ⟨res, e1, hres⟩ := cheb_simplex rfl h0 h1 hr hx1 maxIt
  unfold chebyshevCenter
  rw [if_neg (not_not.2 hlen), e1, ok_bind]
  rcases hres with ⟨x, cv, rfl, hx, hmax⟩ | ⟨rfl, hM⟩ | rfl
  · exact Or.inl ⟨_, _, rfl⟩
  · refine Or.inr ⟨rfl, Or.inl fun M => ?_⟩
    obtain ⟨x, hx, hlt⟩ := hM M
    obtain ⟨g1, g2⟩ := (cheb_point hlen hu r0 x).1 hx
    exact ⟨_, _, g1, g2, hlt⟩
  · exact Or.inr ⟨rfl, Or.inr rfl⟩

/-- A closed polygon with outward normals: the edge from `vs[e]` to the next vertex is the normal turned by a
right angle, times the length of the edge. -/
structure ClosedPolygon (vs normals : List (V3 K)) (p v : Nat → V3 K) (len : Nat → K) : Prop where
  verts : ∀ e < vs.length, vs[e]? = some (p e)
  norms : ∀ e < vs.length, normals[e]? = some (v e)
  closed : p vs.length = p 0
  edge_x : ∀ e < vs.length, (p (e + 1)).x - (p e).x = -(len e * (v e).y)
  edge_y : ∀ e < vs.length, (p (e + 1)).y - (p e).y = len e * (v e).x
  pos : ∀ e < vs.length, 0 < len e
  nonempty : 0 < vs.length

/-- The radius of a circle in a closed polygon times its perimeter is at most twice its area. -/
theorem closed_bound {vs normals : List (V3 K)} (hu : UnitNormals normals) {p v : Nat → V3 K}
    {len : Nat → K} (h : ClosedPolygon vs normals p v len) {c : V3 K} {r : K}
    (hd : DiscInside vs normals c r) :
    r * ∑ e ∈ Finset.range vs.length, len e ≤ ∑ e ∈ Finset.range vs.length, len e * (v e).dot (p e) := by
  have hc := (disc_iff hu c hd.2.1 r).1 hd
  have hx : ∑ e ∈ Finset.range vs.length, len e * (v e).x = 0 := by
    have : ∑ e ∈ Finset.range vs.length, len e * (v e).x
        = ∑ e ∈ Finset.range vs.length, ((p (e + 1)).y - (p e).y) :=
      Finset.sum_congr rfl fun e he => (h.edge_y e (Finset.mem_range.1 he)).symm
    rw [this, Finset.sum_range_sub (fun e => (p e).y), h.closed, sub_self]
  have hy : ∑ e ∈ Finset.range vs.length, len e * (v e).y = 0 := by
    have : ∑ e ∈ Finset.range vs.length, len e * (v e).y
        = -∑ e ∈ Finset.range vs.length, ((p (e + 1)).x - (p e).x) := by
      rw [← Finset.sum_neg_distrib]
      refine Finset.sum_congr rfl fun e he => ?_
      rw [h.edge_x e (Finset.mem_range.1 he), neg_neg]
    rw [this, Finset.sum_range_sub (fun e => (p e).x), h.closed, sub_self, neg_zero]
  have key : ∑ e ∈ Finset.range vs.length, len e * ((v e).x * c.x + (v e).y * c.y + r)
      ≤ ∑ e ∈ Finset.range vs.length, len e * (v e).dot (p e) := by
    refine Finset.sum_le_sum fun e he => ?_
    have he := Finset.mem_range.1 he
    exact mul_le_mul_of_nonneg_left (hc.2 e _ _ (h.norms e he) (h.verts e he)) (h.pos e he).le
  have e1 : ∑ e ∈ Finset.range vs.length, len e * ((v e).x * c.x + (v e).y * c.y + r)
      = (∑ e ∈ Finset.range vs.length, len e * (v e).x) * c.x
        + (∑ e ∈ Finset.range vs.length, len e * (v e).y) * c.y
        + r * ∑ e ∈ Finset.range vs.length, len e := by
    rw [Finset.sum_mul, Finset.sum_mul, Finset.mul_sum, ← Finset.sum_add_distrib,
      ← Finset.sum_add_distrib]
    refine Finset.sum_congr rfl fun e _ => ?_
    ring
  rw [e1, hx, hy] at key
  linarith

/-- For a closed polygon with outward normals the function throws only if the limit of the iterations is
reached. -/
theorem c76_polygon {vs normals : List (V3 K)} (hlen : normals.length = vs.length)
    (hu : UnitNormals normals) {p v : Nat → V3 K} {len : Nat → K} (h : ClosedPolygon vs normals p v len)
    {r0 : Option K} {tol : K} (h0 : 0 ≤ tol) (h1 : tol < 1)
    (hr : ChebResolved vs normals r0 tol) {c1 : V3 K} {r1 : K} (hd : DiscInside vs normals c1 r1)
    (hr1 : ∀ u, r0 = some u → r1 ≤ u) (maxIt : Nat) :
    (∃ c r, chebyshevCenter vs normals r0 maxIt tol = ok (c, r)) ∨
      (chebyshevCenter vs normals r0 maxIt tol = throw ∧
        (chebyshevLP vs normals r0).simplex maxIt tol = ok .maxIt) := by
  rcases c76_fails hlen hu h0 h1 hr hd hr1 maxIt with h2 | ⟨h2, h3 | h3⟩
  · exact Or.inl h2
  · exfalso
    have hpos : 0 < ∑ e ∈ Finset.range vs.length, len e :=
      Finset.sum_pos (fun e he => h.pos e (Finset.mem_range.1 he)) ⟨0, Finset.mem_range.2 h.nonempty⟩
    obtain ⟨c, r, g1, -, g3⟩ := h3 ((∑ e ∈ Finset.range vs.length, len e * (v e).dot (p e))
      / ∑ e ∈ Finset.range vs.length, len e)
    have := closed_bound hu h g1
    rw [div_lt_iff₀ hpos] at g3
    linarith
  · exact Or.inr ⟨h2, h3⟩

/-! ### A rectangle that does not contain the origin -/

def chebVerts : List (V3 ℚ) := [⟨1, 1, 0⟩, ⟨3, 1, 0⟩, ⟨3, 4, 0⟩, ⟨1, 4, 0⟩]
def chebNormals : List (V3 ℚ) := [⟨0, -1, 0⟩, ⟨1, 0, 0⟩, ⟨0, 1, 0⟩, ⟨-1, 0, 0⟩]

theorem chebNormals_unit : UnitNormals chebNormals := by
  intro v hv
  simp only [chebNormals, List.mem_cons, List.not_mem_nil, or_false] at hv
  rcases hv with rfl | rfl | rfl | rfl <;> norm_num [V3.dot]

theorem cheb_disc : DiscInside chebVerts chebNormals ⟨2, 2, 0⟩ (1 / 2) := by
  rw [disc_iff chebNormals_unit _ rfl]
  refine ⟨by norm_num, fun e v p hv hp => ?_⟩
  match e with
  | 0 | 1 | 2 | 3 =>
    simp only [chebNormals, chebVerts] at hv hp
    simp at hv hp
    subst hv hp
    norm_num [V3.dot]
  | e + 4 => simp [chebNormals] at hv

example : chebNormals.length = chebVerts.length ∧ UnitNormals chebNormals ∧
    ChebResolved chebVerts chebNormals none 0 ∧ DiscInside chebVerts chebNormals ⟨2, 2, 0⟩ (1 / 2) :=
  ⟨rfl, chebNormals_unit, chebResolved_zero _ _ _, cheb_disc⟩

example : (match chebyshevCenter chebVerts chebNormals none 1000 0 with
    | ok (c, r) => decide ([c.x, c.y, r] = [2, 2, 1])
    | _ => false) = true := by decide +kernel

example : ClosedPolygon chebVerts chebNormals
    (fun e => if e = 1 then ⟨3, 1, 0⟩ else if e = 2 then ⟨3, 4, 0⟩ else if e = 3 then ⟨1, 4, 0⟩ else ⟨1, 1, 0⟩)
    (fun e => if e = 0 then ⟨0, -1, 0⟩ else if e = 1 then ⟨1, 0, 0⟩ else if e = 2 then ⟨0, 1, 0⟩
      else ⟨-1, 0, 0⟩) (fun e => if e = 0 ∨ e = 2 then 2 else 3) := by
  constructor
  all_goals first | (intro e he; have he' : e < 4 := he; interval_cases e <;> norm_num [chebVerts, chebNormals]) | norm_num [chebVerts]

end Verif
