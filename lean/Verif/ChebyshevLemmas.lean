import Verif.LPProps

/-
The simplex algorithm with a single variable in the value, as the largest circle in a polygon uses it.
-/
namespace Verif

open Res

variable {K : Type} [Field K] [LinearOrder K] [IsStrictOrderedRing K]

section
variable {m n k : Nat}

/-- What the ends of the loop say if the value is one variable, whose sign is not restricted. -/
def SimplexExit.Single (P : StdLP K m n) (tol : K) (rho : Fin n) : SimplexExit K m n k → Prop
  | .success B N beta => ∃ t, IsSplit B N ∧ P.tableau B N = ok t ∧ beta = t.beta ∧
      entering t.r tol = none ∧ ∃ i0, B i0 = rho ∧ ∀ i, i ≠ i0 → 0 ≤ t.beta i
  | .unbounded => ∃ d : Fin n → K, (∀ i, ∑ j, P.A i j * d j = 0) ∧ (∀ j, 0 ≤ d j) ∧ 0 < P.value d
  | .maxIt => True

theorem single_red {P : StdLP K m n} {rho : Fin n} (hc : ∀ j, P.c j = if j = rho then 1 else 0)
    {B : Fin m → Fin n} {N : Fin k → Fin n} {t : Tableau K m k} (hs : IsSplit B N)
    (ht : P.tableau B N = ok t) {i0 : Fin m} (hi0 : B i0 = rho) (q : Fin k) : t.r q = t.alpha i0 q := by
  rw [(dictionary hs ht).red q, hc, if_neg (fun e => hs.disj i0 q (hi0.trans e.symm)), zero_add,
    Finset.sum_eq_single i0]
  · rw [hc, hi0]
    simp
  · intro i _ hi
    rw [hc, if_neg (fun e => hi (hs.inj (e.trans hi0.symm))), mul_zero]
  · simp

theorem single_loop {P : StdLP K m n} {tol : K} (hr : P.PivotsResolved k tol) (h0 : 0 ≤ tol) (h1 : tol < 1)
    {rho : Fin n} (hc : ∀ j, P.c j = if j = rho then 1 else 0) (fuel : Nat) {B : Fin m → Fin n}
    {N : Fin k → Fin n} {t : Tableau K m k} (hs : IsSplit B N) (ht : P.tableau B N = ok t)
    (hrho : ∀ i, B i ≠ rho) (hal : ∀ i q, N q = rho → t.alpha i q = -1) :
    ∃ e, P.simplexLoop tol fuel B N = ok e ∧ e.Single P tol rho := by
  have D := dictionary hs ht
  have hred : ∀ q, t.r q = if N q = rho then 1 else 0 := by
    intro q
    rw [D.red q, hc, Finset.sum_eq_zero fun i _ => by rw [hc, if_neg (hrho i), mul_zero], add_zero]
  obtain ⟨q0, hq0⟩ : ∃ q, N q = rho := by
    rcases hs.cases rho with ⟨i, hi⟩ | hq
    · exact absurd hi (hrho i)
    · exact hq
  rcases he : entering t.r tol with _ | q
  · have := entering_none he q0
    rw [hred, if_pos hq0] at this
    linarith
  · have hq : N q = rho := by
      by_contra hne
      have := entering_some he
      rw [hred, if_neg hne] at this
      linarith
    cases fuel with
    | zero =>
      refine ⟨.maxIt, ?_, trivial⟩
      unfold StdLP.simplexLoop
      rw [ht]
      simp [he]
    | succ fuel =>
      rcases hl : leaving (fun i => t.alpha i q) t.beta tol with _ | p
      · refine ⟨.unbounded, ?_, unbounded_ray hr h0 hs ht he hl⟩
        unfold StdLP.simplexLoop
        rw [ht]
        simp [he, hl]
      · obtain ⟨l1, l2⟩ := leaving_some hl
        have hp : t.alpha p q = -1 := hal p q hq
        have hne : t.alpha p q ≠ 0 := by rw [hp]; norm_num
        obtain ⟨t', ht'⟩ := tableau_ok P (B := Function.update B p (N q)) (Function.update N q (B p)) (by
          rw [exchange_det ht p q]
          exact mul_ne_zero (neg_ne_zero.2 (tableau_det ht)) hne)
        obtain ⟨-, e2, -⟩ := exchange_beta hs ht p q hne ht'
        have hinv : ∃ i0, Function.update B p (N q) i0 = rho ∧ ∀ i, i ≠ i0 → 0 ≤ t'.beta i := by
          refine ⟨p, by simp [hq], fun i hi => ?_⟩
          rw [e2 i hi, hal i q hq, hp]
          have := l2 i (by rw [hal i q hq]; linarith)
          rw [hal i q hq, hp] at this
          simp only [div_neg, div_one, neg_neg] at this ⊢
          linarith
        obtain ⟨e, h2, B', N', t2, hs', ht2, hinv', hend⟩ := simplexLoop_inv P tol h0
          (fun B _ t => ∃ i0, B i0 = rho ∧ ∀ i, i ≠ i0 → 0 ≤ t.beta i) (by
            rintro B N t t' q p hs ht ⟨i0, hi0, hb⟩ he hl ht'
            have hpos := entering_some he
            rw [single_red hc hs ht hi0] at hpos
            have hp := (leaving_some hl).1
            have hpi : i0 ≠ p := by
              rintro rfl
              linarith
            obtain ⟨g1, g2⟩ := exchange_nonneg hr h0 hs ht hl (hb p hpi.symm) ht'
            refine ⟨i0, by rw [Function.update_of_ne hpi]; exact hi0, fun i hi => ?_⟩
            by_cases hip : i = p
            · rw [hip]
              exact g1
            · exact g2 i hip (hb i hi)) fuel _ _ t' (hs.swap p q) ht' hinv
        refine ⟨e, ?_, ?_⟩
        · unfold StdLP.simplexLoop
          rw [ht]
          simp [he, hl]
          exact h2
        · cases e with
          | success B1 N1 beta =>
            obtain ⟨rfl, rfl, rfl, hent⟩ := hend
            exact ⟨t2, hs', ht2, rfl, hent, hinv'⟩
          | unbounded =>
            obtain ⟨q', hent, hlv⟩ := hend
            exact unbounded_ray hr h0 hs' ht2 hent hlv
          | maxIt => trivial

end

/-! ### The linear program of the circle -/

section
variable (vs normals : List (V3 K)) (r0 : Option K)

theorem cheb_flipped (i : Nat) (hi : i < 3) : ¬ (chebyshevLP vs normals r0).Flipped i := by
  rintro ⟨h1, u, h2, -⟩
  by_cases h : i = 2
  · simp [chebyshevLP, h] at h1
  · simp [chebyshevLP, h] at h2

theorem cheb_sgn {i : Nat} (hi : i < 3) : (chebyshevLP vs normals r0).sgn i = 1 :=
  LPInput.sgn_of_not_flipped _ (cheb_flipped vs normals r0 i hi)

theorem cheb_low {i : Nat} : (chebyshevLP vs normals r0).low i = if i = 2 then some 0 else none := by
  by_cases h : i = 2
  · rcases r0 with _ | u <;> simp [LPInput.low, LPInput.norm, chebyshevLP, h]
  · simp [LPInput.low, LPInput.norm, chebyshevLP, h]

theorem cheb_upp {i : Nat} : (chebyshevLP vs normals r0).upp i = if i = 2 then r0 else none := by
  by_cases h : i = 2
  · rcases r0 with _ | u <;> simp [LPInput.upp, LPInput.norm, chebyshevLP, h]
  · simp [LPInput.upp, LPInput.norm, chebyshevLP, h]

theorem cheb_lowv {i : Nat} : (chebyshevLP vs normals r0).lowv i = 0 := by
  unfold LPInput.lowv
  rw [cheb_low]
  by_cases h : i = 2 <;> simp [h]

theorem cheb_rsgn (r : Nat) : (chebyshevLP vs normals r0).rsgn r = 1 := by
  simp [LPInput.rsgn, chebyshevLP]

theorem cheb_types (r : Nat) : (chebyshevLP vs normals r0).types r ≠ .eq := by
  simp [chebyshevLP]

theorem cheb_A2 (r : Nat) : (chebyshevLP vs normals r0).A r 2 = 1 := by
  unfold chebyshevLP
  dsimp only
  split
  · rename_i h; exact absurd h (by norm_num)
  · rename_i h; exact absurd h (by norm_num)
  · rfl

variable {vs normals r0}
variable {f : LPFinal K}
  (h : (chebyshevLP vs normals r0).FInv (chebyshevLP vs normals r0).n (chebyshevLP vs normals r0).n
    (chebyshevLP vs normals r0).n (chebyshevLP vs normals r0).m f)

/-- The column of the radius. -/
def rhoCol (vs normals : List (V3 K)) (r0 : Option K) : Fin (chebyshevLP vs normals r0).bounds.nFinal :=
  ⟨2, LPInput.old_lt _ (show 2 < 3 by norm_num)⟩

include h

theorem cheb_cost (j : Fin (chebyshevLP vs normals r0).bounds.nFinal) :
    (f.std (chebyshevLP vs normals r0).bounds).c j = if j = rhoCol vs normals r0 then 1 else 0 := by
  change f.cost j.1 = _
  have hne : ∀ c, 3 ≤ c → j.1 = c → j ≠ rhoCol vs normals r0 := by
    intro c hc e e'
    have := congrArg Fin.val e'
    simp only [rhoCol] at this
    omega
  rcases LPInput.col_cases _ j.2 with hc | ⟨i, hi, hs, hc⟩ | ⟨i, hi, hl, hc⟩ | ⟨r, hr, ht, hc⟩
  · rw [h.c_old _ hc, LPInput.bounds_cost _ hc, cheb_sgn vs normals r0 hc, one_mul]
    by_cases hj : j.1 = 2
    · rw [if_pos (Fin.ext hj)]
      simp [chebyshevLP, hj]
    · rw [if_neg (fun e => hj (congrArg Fin.val e))]
      simp [chebyshevLP, hj]
  · rw [if_neg (hne _ (by unfold LPInput.upCol; change 3 ≤ 3 + _ + _; omega) hc), hc, h.c_upCol i hi hs]
  · rw [if_neg (hne _ (by unfold LPInput.negCol; change 3 ≤ 3 + _ + _; omega) hc), hc,
      h.c_negCol i hi hl, LPInput.bounds_cost _ hi]
    rw [cheb_low] at hl
    have : i ≠ 2 := by
      rintro rfl
      simp at hl
    simp [chebyshevLP, this]
  · rw [if_neg (hne _ (by unfold LPInput.rowCol; change 3 ≤ 3 + _ + _ + _; omega) hc), hc,
      h.c_rowCol r hr ht]

omit h in
theorem cheb_alpha {p : LPInput K} (hp : p = chebyshevLP vs normals r0) (h : p.FInv p.n p.n p.n p.m f)
    {B : Fin p.bounds.mFinal → Fin p.bounds.nFinal} {N : Fin f.noSlack.length → Fin p.bounds.nFinal}
    (hs : IsSplit B N) (hN : ∀ q : Fin f.noSlack.length, f.noSlack[q.1]? = some (N q).1)
    {t : Tableau K p.bounds.mFinal f.noSlack.length} (ht : (f.std p.bounds).tableau B N = ok t)
    (i : Fin p.bounds.mFinal) (q : Fin f.noSlack.length) (hq : (N q).1 = 2) : t.alpha i q = -1 := by
  have hpn : p.n = 3 := by rw [hp]; rfl
  obtain ⟨d, d1, d2, d3, d4, -⟩ := (dictionary hs ht).edge hs q
  obtain ⟨a1, a2⟩ := (h.hom_iff d).1 d1
  have key : ∀ c, c ∈ f.noSlack → c ≠ 2 → LPInput.ext d c = 0 := by
    intro c hc hc2
    obtain ⟨q', hq', e⟩ := List.getElem_of_mem hc
    have hn := hN ⟨q', hq'⟩
    rw [List.getElem?_eq_getElem hq', e] at hn
    have hn := Option.some.inj hn
    rw [hn, LPInput.ext_of_lt d (N ⟨q', hq'⟩).2]
    refine d4 _ fun e => hc2 ?_
    rw [hn, e, hq]
  have hext2 : LPInput.ext d 2 = 1 := by
    rw [← hq, LPInput.ext_of_lt d (N q).2]
    exact d3
  have hd : ∀ i < p.n, p.diff (LPInput.ext d) i = if i = 2 then 1 else 0 := by
    intro i hi
    unfold LPInput.diff
    by_cases h2 : i = 2
    · subst h2
      have : p.low 2 = some 0 := by rw [hp, cheb_low]; simp
      simp [this, hext2]
    · have hl : p.low i = none := by rw [hp, cheb_low]; simp [h2]
      rw [key i ((h.noSlack i).2 (Or.inl hi)) h2,
        key (p.negCol i) ((h.noSlack _).2 (Or.inr ⟨i, hi, hl, rfl⟩)) (by
          unfold LPInput.negCol
          omega)]
      simp [h2]
  rw [← d2, ← LPInput.ext_of_lt d (B i).2]
  have hBn : (B i).1 ∉ f.noSlack := by
    intro hmem
    obtain ⟨q', hq', e⟩ := List.getElem_of_mem hmem
    have hn := hN ⟨q', hq'⟩
    rw [List.getElem?_eq_getElem hq', e] at hn
    exact hs.disj i ⟨q', hq'⟩ (Fin.ext (Option.some.inj hn))
  rcases LPInput.col_cases _ (B i).2 with hc | ⟨j, hj, hjs, hc⟩ | ⟨j, hj, hl, hc⟩ | ⟨r, hr, hrt, hc⟩
  · exact absurd ((h.noSlack _).2 (Or.inl hc)) hBn
  · have h1 := a2 j hj hjs
    have h2 : j = 2 := by
      by_contra hne
      rw [hp, cheb_upp] at hjs
      simp [hne] at hjs
    rw [hc]
    rw [hd j hj, if_pos h2] at h1
    linarith
  · exact absurd ((h.noSlack _).2 (Or.inr ⟨j, hj, hl, hc⟩)) hBn
  · have h1 := a1 r hr
    rw [if_neg hrt, Finset.sum_eq_single 2] at h1
    · have s1 : p.rsgn r = 1 := by rw [hp, cheb_rsgn]
      have s2 : p.sgn 2 = 1 := by rw [hp, cheb_sgn vs normals r0 (by norm_num)]
      have s3 : p.A r 2 = 1 := by rw [hp, cheb_A2]
      rw [hd 2 (by omega), p.bounds_A hr (by omega), s1, s2, s3] at h1
      rw [hc]
      simp at h1
      linarith
    · intro j hj hne
      rw [hd j (Finset.mem_range.1 hj), if_neg hne, mul_zero]
    · intro h2
      simp [hpn] at h2

end

/-! ### Circles and the constraints -/

theorem cheb_lhs (vs normals : List (V3 K)) (r0 : Option K) (x : Nat → K) {e : Nat} {v p : V3 K}
    (hv : normals[e]? = some v) (hp : vs[e]? = some p) :
    (chebyshevLP vs normals r0).lhs x e = v.x * x 0 + v.y * x 1 + x 2 ∧
      (chebyshevLP vs normals r0).b e = v.dot p := by
  unfold LPInput.lhs
  constructor
  · change ∑ c ∈ Finset.range 3, _ = _
    rw [Finset.sum_range_succ, Finset.sum_range_succ, Finset.sum_range_succ, cheb_A2]
    simp [chebyshevLP, hv]
  · simp [chebyshevLP, hv, hp]

theorem cheb_feasible_iff {vs normals : List (V3 K)} (hlen : normals.length = vs.length) (r0 : Option K)
    (x : Nat → K) :
    (chebyshevLP vs normals r0).Feasible x ↔
      0 ≤ x 2 ∧ (∀ u, r0 = some u → x 2 ≤ u) ∧ ∀ (e : Nat) (v p : V3 K), normals[e]? = some v → vs[e]? = some p →
        v.x * x 0 + v.y * x 1 + x 2 ≤ v.dot p := by
  constructor
  · rintro ⟨h1, h2⟩
    have h3 := h1 2 (show 2 < 3 by norm_num)
    refine ⟨h3.1 0 rfl, fun u hu => h3.2 u hu, fun e v p hv hp => ?_⟩
    have he : e < vs.length := (List.getElem?_eq_some_iff.1 hp).1
    have h4 := h2 e he
    obtain ⟨e1, e2⟩ := cheb_lhs vs normals r0 x hv hp
    have h5 : (chebyshevLP vs normals r0).lhs x e ≤ (chebyshevLP vs normals r0).b e := h4
    rw [e1, e2] at h5
    exact h5
  · rintro ⟨h1, h2, h3⟩
    constructor
    · intro i hi
      by_cases hi2 : i = 2
      · subst hi2
        constructor
        · intro l hl
          have : (some 0 : Option K) = some l := hl
          injection this with this
          rw [← this]
          exact h1
        · exact fun u hu => h2 u hu
      · constructor
        · intro l hl
          simp [chebyshevLP, hi2] at hl
        · intro u hu
          simp [chebyshevLP, hi2] at hu
    · intro e he
      have he' : e < vs.length := he
      have hv : normals[e]? = some normals[e] := List.getElem?_eq_getElem (by omega)
      have hp : vs[e]? = some vs[e] := List.getElem?_eq_getElem he'
      obtain ⟨e1, e2⟩ := cheb_lhs vs normals r0 x hv hp
      change (chebyshevLP vs normals r0).lhs x e ≤ (chebyshevLP vs normals r0).b e
      rw [e1, e2]
      exact h3 e _ _ hv hp

theorem disc_iff {vs normals : List (V3 K)} (hu : UnitNormals normals) (c : V3 K) (hc : c.z = 0) (r : K) :
    DiscInside vs normals c r ↔ 0 ≤ r ∧ ∀ (e : Nat) (v p : V3 K), normals[e]? = some v → vs[e]? = some p →
        v.x * c.x + v.y * c.y + r ≤ v.dot p := by
  constructor
  · rintro ⟨h1, -, h3⟩
    refine ⟨h1, fun e v p hv hp => ?_⟩
    obtain ⟨hz, h1'⟩ := hu v (List.mem_of_getElem? hv)
    have hd : v.x * v.x + v.y * v.y = 1 := by
      have := h1'
      simp only [V3.dot, hz] at this
      linarith
    have h4 := h3 (c.add (V3.smul r v)) (by simp [V3.add, V3.smul, hz, hc]) (by
      simp only [V3.sub, V3.add, V3.smul, V3.dot, hz, hc]
      nlinarith [hd, mul_self_nonneg r]) e v p hv hp
    simp only [V3.add, V3.smul, V3.dot, hz] at h4 ⊢
    nlinarith [hd]
  · rintro ⟨h1, h2⟩
    refine ⟨h1, hc, fun q hq hd e v p hv hp => ?_⟩
    obtain ⟨hz, h1'⟩ := hu v (List.mem_of_getElem? hv)
    have hd1 : v.x * v.x + v.y * v.y = 1 := by
      have := h1'
      simp only [V3.dot, hz] at this
      linarith
    have h3 := h2 e v p hv hp
    have h4 : v.x * (q.x - c.x) + v.y * (q.y - c.y) ≤ r := by
      simp only [V3.sub, V3.dot, hq, hc] at hd
      have hsq : (v.x * (q.x - c.x) + v.y * (q.y - c.y)) ^ 2 ≤ r ^ 2 := by
        have e1 : (v.x * (q.x - c.x) + v.y * (q.y - c.y)) ^ 2
            = (v.x * v.x + v.y * v.y) * ((q.x - c.x) * (q.x - c.x) + (q.y - c.y) * (q.y - c.y))
              - (v.x * (q.y - c.y) - v.y * (q.x - c.x)) ^ 2 := by ring
        rw [e1, hd1]
        nlinarith [sq_nonneg (v.x * (q.y - c.y) - v.y * (q.x - c.x))]
      exact abs_le_of_sq_le_sq' hsq h1 |>.2
    have e2 : v.dot q = v.x * q.x + v.y * q.y := by simp [V3.dot, hz]
    rw [e2]
    linarith

end Verif
