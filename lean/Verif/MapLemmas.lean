import Verif.MapModel
import Verif.MapSpec
import Verif.CompareProps
import Mathlib.Tactic.Ring
import Mathlib.Tactic.FieldSimp
import Mathlib.Tactic.Linarith
import Mathlib.Tactic.NormNum
import Mathlib.Tactic.LinearCombination

namespace Verif

open Res

variable {K : Type} [Field K]

theorem M3.inverse_mulVec (m : M3 K) (h : m.det ≠ 0) (v : V3 K) :
    m.inverse.mulVec (m.mulVec v) = v := by
  have h' : m.det * (1 / m.det) = 1 := by field_simp
  ext <;> simp only [M3.inverse, M3.mulVec] <;> simp only [M3.det] at h' ⊢
  · linear_combination v.x * h'
  · linear_combination v.y * h'
  · linear_combination v.z * h'

theorem M3.mulVec_inverse (m : M3 K) (h : m.det ≠ 0) (v : V3 K) :
    m.mulVec (m.inverse.mulVec v) = v := by
  have h' : m.det * (1 / m.det) = 1 := by field_simp
  ext <;> simp only [M3.inverse, M3.mulVec] <;> simp only [M3.det] at h' ⊢
  · linear_combination v.x * h'
  · linear_combination v.y * h'
  · linear_combination v.z * h'

theorem M3.det_inverse (m : M3 K) (h : m.det ≠ 0) : m.inverse.det * m.det = 1 := by
  have h' : m.det * (1 / m.det) = 1 := by field_simp
  have : m.inverse.det = (m.det * (1 / m.det)) * (m.det * (1 / m.det)) * (1 / m.det) := by
    simp only [M3.inverse]
    generalize 1 / m.det = d
    simp only [M3.det]
    ring
  rw [this, h']
  linear_combination h'

theorem M3.inverse_mul (m : M3 K) (h : m.det ≠ 0) : m.inverse.mul m = M3.one := by
  have h' : m.det * (1 / m.det) = 1 := by field_simp
  ext <;> simp only [M3.inverse, M3.mul, M3.one] <;> simp only [M3.det] at h' ⊢
  all_goals first
    | linear_combination h'
    | ring

theorem M3.mul_inverse (m : M3 K) (h : m.det ≠ 0) : m.mul m.inverse = M3.one := by
  have h' : m.det * (1 / m.det) = 1 := by field_simp
  ext <;> simp only [M3.inverse, M3.mul, M3.one] <;> simp only [M3.det] at h' ⊢
  all_goals first
    | linear_combination h'
    | ring

theorem AffMap.build_mutualInverse (m : M3 K) (b : V3 K) (h : m.det ≠ 0) :
    MutualInverse (AffMap.build m b).F (AffMap.build m b).FInv := by
  constructor
  · intro x
    have : ((m.mulVec x).add b).sub b = m.mulVec x := by
      ext <;> simp [V3.add, V3.sub]
    simp only [AffMap.FInv, AffMap.F, AffMap.build]
    rw [this, M3.inverse_mulVec m h]
  · intro y
    simp only [AffMap.FInv, AffMap.F, AffMap.build]
    rw [M3.mulVec_inverse m h]
    ext <;> simp [V3.add, V3.sub]

theorem AffMap.build_scalesVolume (m : M3 K) (b : V3 K) :
    ScalesVolume (AffMap.build m b).F (AffMap.build m b).DetJ := by
  intro p q r s
  simp only [vol6, AffMap.F, AffMap.build, AffMap.DetJ, V3.add, M3.mulVec, M3.det]
  ring

theorem AffMap.build_affine (m : M3 K) (b x h : V3 K) :
    (AffMap.build m b).F (x.add h) =
      ((AffMap.build m b).F x).add (((AffMap.build m b).J x).mulVec h) := by
  ext <;> simp only [AffMap.F, AffMap.J, AffMap.build, V3.add, M3.mulVec] <;> ring

theorem bMatrix_scalesArea (v0 v1 v2 b : V3 K) :
    ScalesArea (AffMap.build (bMatrix v0 v1 v2) b).F (AffMap.build (bMatrix v0 v1 v2) b).DetJ := by
  intro p q r
  simp only [area2, AffMap.F, AffMap.build, AffMap.DetJ, bMatrix, V3.add, M3.mulVec, M3.det]
  ring

theorem bMatrix_det (v0 v1 v2 : V3 K) : (bMatrix v0 v1 v2).det = area2 v0 v1 v2 := by
  simp only [area2, bMatrix, M3.det]
  ring

theorem qMatrix_det (v0 v1 v2 v3 : V3 K) : (qMatrix v0 v1 v2 v3).det = vol6 v0 v1 v2 v3 := by
  simp only [vol6, qMatrix, M3.det]
  ring

/-- The value of `lincomb` when the sizes agree. -/
def lincombVal (cols : List (V3 K)) (w : List K) : V3 K :=
  (List.zipWith V3.smul w cols).foldr V3.add V3.zero

/-- The matrix with the given columns. -/
def colsMatrix (a b c : V3 K) : M3 K := ⟨a.x, b.x, c.x, a.y, b.y, c.y, a.z, b.z, c.z⟩

theorem hexVertexOrder_fin : ∀ a b c d : Fin 8, [a, b, c, d].Nodup →
    hexVertexOrder [a.1, b.1, c.1, d.1] =
      ok ([a.1, b.1, c.1, d.1] ++ offFace [a.1, b.1, c.1, d.1]).zipIdx ∧
    (offFace [a.1, b.1, c.1, d.1]).length = 4 := by
  decide +kernel

theorem hexVertexOrder_eq {face : List Nat} (h : IsFace face) :
    hexVertexOrder face = ok (face ++ offFace face).zipIdx ∧ (offFace face).length = 4 := by
  obtain ⟨hl, hn, hb⟩ := h
  match face, hl with
  | [a, b, c, d], _ =>
    have ha := hb a (by simp)
    have hb' := hb b (by simp)
    have hc := hb c (by simp)
    have hd := hb d (by simp)
    refine hexVertexOrder_fin ⟨a, ha⟩ ⟨b, hb'⟩ ⟨c, hc⟩ ⟨d, hd⟩ ?_
    simpa using hn

theorem mapHexahedron_eq {vertices : List (V3 K)} (hv : vertices.length = 8) {face : List Nat}
    (h : IsFace face) :
    ∃ m, mapHexahedron vertices face = ok m ∧
      m.vertexOrder = (face ++ offFace face).zipIdx ∧
      m.vertices.map some = (face ++ offFace face).map (fun v => vertices[v]?) ∧
      m.coefficients = hexA.map (lincombVal m.vertices) := by
  obtain ⟨ho, hl⟩ := hexVertexOrder_eq h
  obtain ⟨hl', hn, hb⟩ := h
  have hb2 : ∀ v ∈ offFace face, v < 8 := by
    intro v hv
    simp only [offFace, List.mem_filter, List.mem_range] at hv
    exact hv.1
  simp only [mapHexahedron, ho, ok_bind]
  generalize offFace face = rest at hl hb2
  match face, hl', rest, hl with
  | [a0, a1, a2, a3], _, [a4, a5, a6, a7], _ =>
    have get : ∀ v, v < 8 → ∃ w, vget vertices v = ok w ∧ vertices[v]? = some w := fun v hlt =>
      ⟨vertices[v], vget_of_lt (by omega), by rw [List.getElem?_eq_getElem (by omega)]⟩
    obtain ⟨w0, g0, e0⟩ := get a0 (hb _ (by simp))
    obtain ⟨w1, g1, e1⟩ := get a1 (hb _ (by simp))
    obtain ⟨w2, g2, e2⟩ := get a2 (hb _ (by simp))
    obtain ⟨w3, g3, e3⟩ := get a3 (hb _ (by simp))
    obtain ⟨w4, g4, e4⟩ := get a4 (hb2 _ (by simp))
    obtain ⟨w5, g5, e5⟩ := get a5 (hb2 _ (by simp))
    obtain ⟨w6, g6, e6⟩ := get a6 (hb2 _ (by simp))
    obtain ⟨w7, g7, e7⟩ := get a7 (hb2 _ (by simp))
    have hlc : ∀ l : List K, l.length = 8 →
        lincomb [w0, w1, w2, w3, w4, w5, w6, w7] l =
          ok (lincombVal [w0, w1, w2, w3, w4, w5, w6, w7] l) := by
      intro l hl
      simp only [lincomb, hl, lincombVal]
      exact if_pos rfl
    refine ⟨⟨[(a0, 0), (a1, 1), (a2, 2), (a3, 3), (a4, 4), (a5, 5), (a6, 6), (a7, 7)],
      [w0, w1, w2, w3, w4, w5, w6, w7],
      hexA.map (lincombVal [w0, w1, w2, w3, w4, w5, w6, w7])⟩, ?_, ?_, ?_, rfl⟩
    · have hr : mapRes readCol
          [some w0, some w1, some w2, some w3, some w4, some w5, some w6, some w7] =
          ok [w0, w1, w2, w3, w4, w5, w6, w7] := rfl
      have hA : ∀ ls : List (List K), (∀ l ∈ ls, l.length = 8) →
          mapRes (lincomb [w0, w1, w2, w3, w4, w5, w6, w7]) ls =
            ok (ls.map (lincombVal [w0, w1, w2, w3, w4, w5, w6, w7])) := by
        intro ls hls
        induction ls with
        | nil => rfl
        | cons l ls ih =>
          simp only [mapRes, hlc l (hls l (by simp)), ih (fun l hl => hls l (by simp [hl])),
            ok_bind, List.map_cons]
      have hA' := hA hexA (by simp [hexA])
      have hw : foldRes (fun (cols : List (Option (V3 K))) kv => do
          let v ← vget vertices kv.1
          vset cols kv.2 (some v)) (List.replicate 8 none)
          ([a0, a1, a2, a3] ++ [a4, a5, a6, a7]).zipIdx =
          ok [some w0, some w1, some w2, some w3, some w4, some w5, some w6, some w7] := by
        simp [foldRes, g0, g1, g2, g3, g4, g5, g6, g7, ok_bind, List.replicate, vset]
      simp only [hw, ok_bind, hr, hA']
      simp
    · simp [List.zipIdx_cons]
    · simp [e0, e1, e2, e3, e4, e5, e6, e7]

/-- The edge `e` of the reference cube, carried to the hexahedron by a vertex order. -/
def carriedBy (order : UMap) (e : Nat × Nat) : Option (Nat × Nat) :=
  match (order.find? fun kv => kv.2 = e.1), (order.find? fun kv => kv.2 = e.2) with
  | some a, some b => some (a.1, b.1)
  | _, _ => none

theorem cubeFace_fin : ∀ a b c d : Fin 8, [a, b, c, d].Nodup →
    CubeEdge a.1 b.1 → CubeEdge b.1 c.1 → CubeEdge c.1 d.1 → CubeEdge d.1 a.1 →
    ((∀ e ∈ cubeEdges, ∃ q ∈ carriedBy
      ([a.1, b.1, c.1, d.1] ++ offFace [a.1, b.1, c.1, d.1]).zipIdx e, CubeEdge q.1 q.2) ↔
      [a.1, b.1, c.1, d.1] = [0, 1, 2, 3] ∨ [a.1, b.1, c.1, d.1] = [4, 5, 6, 7]) := by
  decide +kernel

section ordered
variable [LinearOrder K] [IsStrictOrderedRing K]

theorem GeoCfg.isValueZero_iff (g : GeoCfg K) (v tol : K) :
    g.isValueZero v tol = true ↔ |v| ≤ max |tol| g.minTolerance := by
  have h0 : |(0 : K)| ≤ max |tol| g.minTolerance := by
    rw [abs_zero]; exact le_trans (abs_nonneg tol) (le_max_left _ _)
  simp only [GeoCfg.isValueZero, decide_eq_true_eq, GeoCfg.compareValues, h0, true_or, if_true,
    sub_zero, mul_one]
  constructor
  · intro h
    by_contra hc
    rw [if_neg hc] at h
    split at h <;> simp at h
  · intro h; rw [if_pos h]

theorem sqNorm_nonneg (l : List (V3 K)) : 0 ≤ sqNorm l := by
  induction l with
  | nil => simp [sqNorm]
  | cons v l ih =>
    simp only [sqNorm, List.map_cons, List.sum_cons] at ih ⊢
    have : 0 ≤ v.dot v := by
      simp only [V3.dot]
      nlinarith [mul_self_nonneg v.x, mul_self_nonneg v.y, mul_self_nonneg v.z]
    linarith

theorem le_sqNorm {l : List (V3 K)} {v : V3 K} (h : v ∈ l) : v.dot v ≤ sqNorm l := by
  induction l with
  | nil => simp at h
  | cons w l ih =>
    have hw : 0 ≤ w.dot w := by
      simp only [V3.dot]
      nlinarith [mul_self_nonneg w.x, mul_self_nonneg w.y, mul_self_nonneg w.z]
    have hl := sqNorm_nonneg l
    have he : sqNorm (w :: l) = w.dot w + sqNorm l := by simp [sqNorm]
    rcases List.mem_cons.1 h with h | h
    · subst h; linarith
    · have := ih h; linarith

theorem near_of_sqNorm {sqrt : K → K} (hs : IsSqrt sqrt) {T : K} (hT : 0 ≤ T)
    {a b : List (V3 K)} (hlen : a.length = b.length)
    (h : |sqrt (sqNorm (List.zipWith V3.sub a b))| ≤ T) :
    ∀ (k : Nat) (hk : k < a.length), Near T a[k] (b[k]'(hlen ▸ hk)) := by
  intro k hk
  have hmem : (a[k]).sub (b[k]'(hlen ▸ hk)) ∈ List.zipWith V3.sub a b := by
    rw [List.mem_iff_getElem]
    exact ⟨k, by simp; omega, by simp⟩
  have h1 := le_sqNorm hmem
  obtain ⟨h2, h3⟩ := hs _ (sqNorm_nonneg (List.zipWith V3.sub a b))
  rw [abs_of_nonneg h2] at h
  have h4 : sqNorm (List.zipWith V3.sub a b) ≤ T * T := by
    rw [← h3]; exact mul_le_mul h h h2 hT
  have key : ∀ c : K, c * c ≤ T * T → |c| ≤ T := fun c hc => by
    by_contra hn
    have := mul_self_lt_mul_self hT (not_le.1 hn)
    rw [abs_mul_abs_self] at this
    exact absurd hc (not_le.2 this)
  simp only [V3.dot, V3.sub] at h1
  refine ⟨key _ ?_, key _ ?_, key _ ?_⟩
  · nlinarith [mul_self_nonneg (a[k].y - (b[k]'(hlen ▸ hk)).y), mul_self_nonneg (a[k].z - (b[k]'(hlen ▸ hk)).z)]
  · nlinarith [mul_self_nonneg (a[k].x - (b[k]'(hlen ▸ hk)).x), mul_self_nonneg (a[k].z - (b[k]'(hlen ▸ hk)).z)]
  · nlinarith [mul_self_nonneg (a[k].y - (b[k]'(hlen ▸ hk)).y), mul_self_nonneg (a[k].x - (b[k]'(hlen ▸ hk)).x)]

theorem tryOrders_spec {test : Nat × Nat × Nat → Res (Option (AffMap K))}
    {os : List (Nat × Nat × Nat)} (h : ∀ o ∈ os, ∃ r, test o = ok r)
    (hx : ∃ o ∈ os, ∃ m, test o = ok (some m)) :
    ∃ o ∈ os, ∃ m, test o = ok (some m) ∧ tryOrders test os = ok m := by
  induction os with
  | nil => obtain ⟨o, ho, _⟩ := hx; simp at ho
  | cons o os ih =>
    obtain ⟨r, hr⟩ := h o (by simp)
    cases r with
    | some m => exact ⟨o, by simp, m, hr, by simp [tryOrders, hr, ok_bind]⟩
    | none =>
      obtain ⟨o', ho', m, hm⟩ := hx
      have : o' ∈ os := by
        rcases List.mem_cons.1 ho' with e | e
        · subst e; rw [hr] at hm; simp at hm
        · exact e
      obtain ⟨o'', h1, m', h2, h3⟩ := ih (fun o ho => h o (by simp [ho])) ⟨o', this, m, hm⟩
      exact ⟨o'', by simp [h1], m', h2, by simp [tryOrders, hr, ok_bind, h3]⟩

theorem testMapConfiguration_box_ok (sqrt : K → K) (g : GeoCfg K) (o e₁ e₂ e₃ v0 v1 v2 v3 : V3 K) :
    ∃ r, testMapConfiguration sqrt g (boxCorners o e₁ e₂ e₃) refCube v0 v1 v2 v3 = ok r := by
  simp only [testMapConfiguration, boxCorners, refCube, List.map_cons, List.map_nil, subCols,
    List.length_cons, List.length_nil, if_true, ok_bind]
  split
  · exact ⟨_, rfl⟩
  · exact ⟨_, rfl⟩

theorem box_F (o e₁ e₂ e₃ : V3 K) :
    refCube.map (AffMap.build (qMatrix o (o.add e₁) (o.add e₂) (o.add e₃)) o).F =
      boxCorners o e₁ e₂ e₃ := by
  simp only [refCube, boxCorners, List.map_cons, List.map_nil]
  repeat' apply List.cons_eq_cons.2 ⟨?_, ?_⟩
  all_goals first
    | rfl
    | (ext <;> simp only [AffMap.F, AffMap.build, qMatrix, M3.mulVec, V3.add] <;> ring)

theorem testMapConfiguration_box_exact {sqrt : K → K} (hs : IsSqrt sqrt) (g : GeoCfg K)
    (o e₁ e₂ e₃ : V3 K) :
    testMapConfiguration sqrt g (boxCorners o e₁ e₂ e₃) refCube o (o.add e₁) (o.add e₂)
      (o.add e₃) = ok (some (AffMap.build (qMatrix o (o.add e₁) (o.add e₂) (o.add e₃)) o)) := by
  have h0 : sqrt 0 = 0 := by
    obtain ⟨_, h⟩ := hs 0 le_rfl
    exact mul_self_eq_zero.1 h
  have hz : g.isValueZero 0 g.tol1D = true := by
    rw [GeoCfg.isValueZero_iff, abs_zero]
    exact le_trans (abs_nonneg _) (le_max_left _ _)
  have hn : ∀ l : List (V3 K), sqNorm (List.zipWith V3.sub l l) = 0 := by
    intro l
    induction l with
    | nil => simp [sqNorm]
    | cons v l ih =>
      simp only [sqNorm] at ih
      simp [sqNorm, V3.sub, V3.dot, ih]
  simp only [testMapConfiguration, box_F, subCols, if_true, ok_bind, hn, h0, hz]

theorem testMapConfiguration_box_some {sqrt : K → K} (hs : IsSqrt sqrt) (g : GeoCfg K)
    (o e₁ e₂ e₃ v0 v1 v2 v3 : V3 K) (m : AffMap K)
    (h : testMapConfiguration sqrt g (boxCorners o e₁ e₂ e₃) refCube v0 v1 v2 v3 = ok (some m)) :
    m = AffMap.build (qMatrix v0 v1 v2 v3) v0 ∧
    ∀ (k : Nat) (hk : k < 8), Near (max |g.tol1D| g.minTolerance)
      ((boxCorners o e₁ e₂ e₃)[k]'hk) (m.F (refCube[k]'hk)) := by
  have hl : (boxCorners o e₁ e₂ e₃).length =
      (refCube.map (AffMap.build (qMatrix v0 v1 v2 v3) v0).F).length := by
    simp [boxCorners, refCube]
  simp only [testMapConfiguration, subCols, hl, if_true, ok_bind] at h
  split at h
  · rename_i hz
    simp only [Res.ok.injEq, Option.some.injEq] at h
    subst h
    refine ⟨rfl, fun k hk => ?_⟩
    rw [GeoCfg.isValueZero_iff] at hz
    have := near_of_sqNorm hs (le_trans (abs_nonneg _) (le_max_left _ _)) hl hz k hk
    rw [List.getElem_map] at this
    exact this
  · simp at h

theorem perm_134 {l : List Nat} (h : l.Perm [1, 3, 4]) :
    l = [1, 3, 4] ∨ l = [1, 4, 3] ∨ l = [3, 1, 4] ∨ l = [3, 4, 1] ∨ l = [4, 1, 3] ∨
      l = [4, 3, 1] := by
  have hl := h.length_eq
  match l, hl with
  | [a, b, c], _ =>
    have ha : a ∈ [1, 3, 4] := h.subset (by simp)
    have hb : b ∈ [1, 3, 4] := h.subset (by simp)
    have hc : c ∈ [1, 3, 4] := h.subset (by simp)
    simp only [List.mem_cons, List.not_mem_nil, or_false] at ha hb hc
    rcases ha with rfl | rfl | rfl <;> rcases hb with rfl | rfl | rfl <;>
      rcases hc with rfl | rfl | rfl <;> revert h <;> decide

/-- The arrangements of three vectors. -/
def arrangements (a b c : V3 K) : List (V3 K × V3 K × V3 K) :=
  [(a, b, c), (a, c, b), (b, a, c), (b, c, a), (c, a, b), (c, b, a)]

/-- The test of one order, for `MapParallelepiped`. -/
def boxTest (sqrt : K → K) (g : GeoCfg K) (vertices : List (V3 K)) (cs : List Nat)
    (o : Nat × Nat × Nat) : Res (Option (AffMap K)) := do
  let v0 ← csCol vertices cs 0
  let v1 ← csCol vertices cs o.1
  let v2 ← csCol vertices cs o.2.1
  let v3 ← csCol vertices cs o.2.2
  testMapConfiguration sqrt g vertices refCube v0 v1 v2 v3

theorem boxTest_arr (sqrt : K → K) (g : GeoCfg K) (o e₁ e₂ e₃ : V3 K) {l : List Nat}
    (hl : l.Perm [1, 3, 4]) {t : Nat × Nat × Nat} (ht : t ∈ mapOrders) :
    ∃ p ∈ arrangements e₁ e₂ e₃, boxTest sqrt g (boxCorners o e₁ e₂ e₃) (0 :: l) t =
      testMapConfiguration sqrt g (boxCorners o e₁ e₂ e₃) refCube o (o.add p.1) (o.add p.2.1)
        (o.add p.2.2) := by
  simp only [mapOrders, List.mem_cons, List.not_mem_nil, or_false] at ht
  have h0 : vget (boxCorners o e₁ e₂ e₃) 0 = ok o := rfl
  have h1 : vget (boxCorners o e₁ e₂ e₃) 1 = ok (o.add e₁) := rfl
  have h3 : vget (boxCorners o e₁ e₂ e₃) 3 = ok (o.add e₂) := rfl
  have h4 : vget (boxCorners o e₁ e₂ e₃) 4 = ok (o.add e₃) := rfl
  have hv : ∀ a b c d : Nat, vget [a, b, c, d] 0 = ok a ∧ vget [a, b, c, d] 1 = ok b ∧
    vget [a, b, c, d] 2 = ok c ∧ vget [a, b, c, d] 3 = ok d := fun _ _ _ _ => ⟨rfl, rfl, rfl, rfl⟩
  simp only [boxTest, csCol]
  generalize testMapConfiguration sqrt g (boxCorners o e₁ e₂ e₃) refCube = T
  rcases perm_134 hl with rfl | rfl | rfl | rfl | rfl | rfl <;>
    rcases ht with rfl | rfl | rfl | rfl | rfl | rfl <;>
    simp only [hv, ok_bind, h0, h1, h3, h4, arrangements, List.mem_cons, List.not_mem_nil,
      or_false, exists_eq_or_imp, exists_eq_left, true_or, or_true]

theorem boxTest_exact (sqrt : K → K) (g : GeoCfg K) (o e₁ e₂ e₃ : V3 K) {l : List Nat}
    (hl : l.Perm [1, 3, 4]) :
    ∃ t ∈ mapOrders, boxTest sqrt g (boxCorners o e₁ e₂ e₃) (0 :: l) t =
      testMapConfiguration sqrt g (boxCorners o e₁ e₂ e₃) refCube o (o.add e₁) (o.add e₂)
        (o.add e₃) := by
  have h0 : vget (boxCorners o e₁ e₂ e₃) 0 = ok o := rfl
  have h1 : vget (boxCorners o e₁ e₂ e₃) 1 = ok (o.add e₁) := rfl
  have h3 : vget (boxCorners o e₁ e₂ e₃) 3 = ok (o.add e₂) := rfl
  have h4 : vget (boxCorners o e₁ e₂ e₃) 4 = ok (o.add e₃) := rfl
  have hv : ∀ a b c d : Nat, vget [a, b, c, d] 0 = ok a ∧ vget [a, b, c, d] 1 = ok b ∧
    vget [a, b, c, d] 2 = ok c ∧ vget [a, b, c, d] 3 = ok d := fun _ _ _ _ => ⟨rfl, rfl, rfl, rfl⟩
  simp only [boxTest, csCol]
  generalize testMapConfiguration sqrt g (boxCorners o e₁ e₂ e₃) refCube = T
  rcases perm_134 hl with rfl | rfl | rfl | rfl | rfl | rfl <;>
    simp only [hv, ok_bind, h0, h1, h3, h4, mapOrders, List.mem_cons, List.not_mem_nil,
      or_false, exists_eq_or_imp, exists_eq_left, true_or, or_true]

theorem box_core {sqrt : K → K} (hs : IsSqrt sqrt) (g : GeoCfg K) (o e₁ e₂ e₃ : V3 K)
    {l : List Nat} (hl : l.Perm [1, 3, 4]) :
    ∃ p ∈ arrangements e₁ e₂ e₃,
      mapParallelepiped sqrt g (boxCorners o e₁ e₂ e₃) (0 :: l) =
        ok (AffMap.build (qMatrix o (o.add p.1) (o.add p.2.1) (o.add p.2.2)) o) ∧
      ∀ (k : Nat) (hk : k < 8), Near (max |g.tol1D| g.minTolerance)
        ((boxCorners o e₁ e₂ e₃)[k]'hk)
        ((AffMap.build (qMatrix o (o.add p.1) (o.add p.2.1) (o.add p.2.2)) o).F
          (refCube[k]'hk)) := by
  have h1 : ∀ t ∈ mapOrders, ∃ r, boxTest sqrt g (boxCorners o e₁ e₂ e₃) (0 :: l) t = ok r := by
    intro t ht
    obtain ⟨p, _, hp⟩ := boxTest_arr sqrt g o e₁ e₂ e₃ hl ht
    rw [hp]; exact testMapConfiguration_box_ok _ _ _ _ _ _ _ _ _ _
  have h2 : ∃ t ∈ mapOrders, ∃ m,
      boxTest sqrt g (boxCorners o e₁ e₂ e₃) (0 :: l) t = ok (some m) := by
    obtain ⟨t, ht, he⟩ := boxTest_exact sqrt g o e₁ e₂ e₃ hl
    exact ⟨t, ht, _, he.trans (testMapConfiguration_box_exact hs g o e₁ e₂ e₃)⟩
  obtain ⟨t, ht, m, hm, hr⟩ := tryOrders_spec h1 h2
  obtain ⟨p, hp, he⟩ := boxTest_arr sqrt g o e₁ e₂ e₃ hl ht
  rw [he] at hm
  obtain ⟨rfl, hn⟩ := testMapConfiguration_box_some hs g o e₁ e₂ e₃ _ _ _ _ m hm
  exact ⟨p, hp, hr, hn⟩

theorem GeoCfg.pointToBarycentric_eq (g : GeoCfg K) (tol2D : K) (t0 t1 t2 p : V3 K)
    (h : max |tol2D| g.minTolerance < |area2 t0 t1 t2|) :
    let d := (t0.x - t2.x) * (t1.y - t2.y) - (t1.x - t2.x) * (t0.y - t2.y)
    d ≠ 0 ∧ g.pointToBarycentric tol2D t0 t1 t2 p =
      (1 / d * ((t1.y - t2.y) * (p.x - t2.x) - (p.y - t2.y) * (t1.x - t2.x)),
       1 / d * ((p.y - t2.y) * (t0.x - t2.x) - (t0.y - t2.y) * (p.x - t2.x)),
       1 - 1 / d * ((t1.y - t2.y) * (p.x - t2.x) - (p.y - t2.y) * (t1.x - t2.x)) -
       1 / d * ((p.y - t2.y) * (t0.x - t2.x) - (t0.y - t2.y) * (p.x - t2.x))) := by
  intro d
  have hd : d = area2 t0 t1 t2 := by simp only [d, area2]; ring
  have hz : ¬g.isValueZero d tol2D = true := by
    rw [GeoCfg.isValueZero_iff, hd]; exact not_le.2 h
  refine ⟨?_, ?_⟩
  · intro h0
    rw [← hd, h0, abs_zero] at h
    exact absurd (le_trans (abs_nonneg tol2D) (le_max_left _ g.minTolerance)) (not_le.2 h)
  · simp only [GeoCfg.pointToBarycentric]
    exact if_neg hz

end ordered

end Verif
