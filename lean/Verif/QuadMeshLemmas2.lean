import Verif.QuadMeshLemmas
import Mathlib.Tactic.Ring
import Mathlib.Tactic.IntervalCases

/-
Lemmas: what the written mesh reports about the triangulation.
-/
namespace Verif

open Res

namespace TriData

variable {K : Type} [Field K] [LinearOrder K]

/-- A value, or the other one if there is none. -/
def orElse {β : Type} (b : β) : Res β → β
  | ok x => x
  | _ => b

/-- What is read of a mesh. -/
def read (t : Mesh K) : TriData K where
  n0 := t.num .d0
  n1 := t.num .d1
  n2 := t.num .d2
  pt := fun v => orElse ⟨0, 0, 0⟩ (t.point v)
  mk0 := fun v => orElse 0 (t.marker .d0 v)
  ext := fun e => orElse (0, 0) (t.extremes e)
  mk1 := fun e => orElse 0 (t.marker .d1 e)
  vs := fun c i => (orElse [] (t.row .vert2 c)).getD i 0
  es := fun c i => (orElse [] (t.row .edge2 c)).getD i 0

theorem joined_ext {t : Mesh K} {e a b : Nat} (h : JoinedBy t e a b) :
    orElse (0, 0) (t.extremes e) = (a, b) ∨ orElse (0, 0) (t.extremes e) = (b, a) := by
  rcases h with h | h <;> simp [h, orElse]

theorem joined_lt {t : Mesh K} (ht : IsTriangulation t) {e a b : Nat} (h : JoinedBy t e a b) :
    e < t.num .d1 ∧ a < t.num .d0 ∧ b < t.num .d0 := by
  rcases h with h | h
  · have hl := lt_of_extremes h
    obtain ⟨x, y, hx, h1, h2⟩ := ht.edges e hl
    rw [h] at hx
    cases hx
    exact ⟨hl, h1, h2⟩
  · have hl := lt_of_extremes h
    obtain ⟨x, y, hx, h1, h2⟩ := ht.edges e hl
    rw [h] at hx
    cases hx
    exact ⟨hl, h2, h1⟩

theorem read_of [IsStrictOrderedRing K] {t : Mesh K} (ht : IsTriangulation t) : (read t).Of t where
  wf := ht.wf
  n0 := rfl
  n1 := rfl
  n2 := rfl
  pt := by
    intro v hv
    obtain ⟨c, hc⟩ := Mesh.coordinates_exists ht.wf hv
    have hp : t.point v = ok ⟨c.1, c.2.1, c.2.2⟩ := by unfold Mesh.point; rw [hc, ok_bind]
    simp [read, hp, orElse]
  mk0 := by
    intro v hv
    obtain ⟨p, hp⟩ := Mesh.marker_exists ht.wf (d := .d0) hv
    simp [read, hp, orElse]
  ext := by
    intro e he
    obtain ⟨a, b, h, -⟩ := ht.edges e he
    simp [read, h, orElse]
  ext_lt := by
    intro e he
    obtain ⟨a, b, h, h1, h2⟩ := ht.edges e he
    simp [read, h, orElse, h1, h2]
  mk1 := by
    intro v hv
    obtain ⟨p, hp⟩ := Mesh.marker_exists ht.wf (d := .d1) hv
    simp [read, hp, orElse]
  vs := by
    intro c hc
    obtain ⟨a, b, d, e, f, g, h⟩ := ht.cells c hc
    simp [read, h.corners, orElse]
  es := by
    intro c hc
    obtain ⟨a, b, d, e, f, g, h⟩ := ht.cells c hc
    simp [read, h.sides, orElse]
  vs_lt := by
    intro c hc i hi
    obtain ⟨a, b, d, e, f, g, h⟩ := ht.cells c hc
    have h1 := joined_lt ht h.first
    have h2 := joined_lt ht h.second
    interval_cases i <;> simp [read, h.corners, orElse, h1, h2]
  es_lt := by
    intro c hc i hi
    obtain ⟨a, b, d, e, f, g, h⟩ := ht.cells c hc
    have h1 := joined_lt ht h.first
    have h2 := joined_lt ht h.second
    have h3 := joined_lt ht h.third
    interval_cases i <;> simp [read, h.sides, orElse, h1, h2, h3]
  joined := by
    intro c hc i hi
    obtain ⟨a, b, d, e, f, g, h⟩ := ht.cells c hc
    have h1 := joined_ext h.first
    have h2 := joined_ext h.second
    have h3 := joined_ext h.third
    have er : orElse [] (t.row .edge2 c) = [e, f, g] := by rw [h.sides]; rfl
    have vr : orElse [] (t.row .vert2 c) = [a, b, d] := by rw [h.corners]; rfl
    interval_cases i
    · show orElse (0, 0) (t.extremes ((orElse [] (t.row .edge2 c)).getD 0 0)) = ((orElse [] (t.row .vert2 c)).getD 0 0, (orElse [] (t.row .vert2 c)).getD 1 0) ∨ orElse (0, 0) (t.extremes ((orElse [] (t.row .edge2 c)).getD 0 0)) = ((orElse [] (t.row .vert2 c)).getD 1 0, (orElse [] (t.row .vert2 c)).getD 0 0)
      rw [er, vr]; exact h1
    · show orElse (0, 0) (t.extremes ((orElse [] (t.row .edge2 c)).getD 1 0)) = ((orElse [] (t.row .vert2 c)).getD 1 0, (orElse [] (t.row .vert2 c)).getD 2 0) ∨ orElse (0, 0) (t.extremes ((orElse [] (t.row .edge2 c)).getD 1 0)) = ((orElse [] (t.row .vert2 c)).getD 2 0, (orElse [] (t.row .vert2 c)).getD 1 0)
      rw [er, vr]; exact h2
    · show orElse (0, 0) (t.extremes ((orElse [] (t.row .edge2 c)).getD 2 0)) = ((orElse [] (t.row .vert2 c)).getD 2 0, (orElse [] (t.row .vert2 c)).getD 0 0) ∨ orElse (0, 0) (t.extremes ((orElse [] (t.row .edge2 c)).getD 2 0)) = ((orElse [] (t.row .vert2 c)).getD 0 0, (orElse [] (t.row .vert2 c)).getD 2 0)
      rw [er, vr]; exact h3
  different := by
    intro c hc i hi j hj hij
    obtain ⟨a, b, d, e, f, g, h⟩ := ht.cells c hc
    have vr : orElse [] (t.row .vert2 c) = [a, b, d] := by rw [h.corners]; rfl
    obtain ⟨h1, h2, h3⟩ := h.different
    show (orElse [] (t.row .vert2 c)).getD i 0 ≠ (orElse [] (t.row .vert2 c)).getD j 0
    rw [vr]
    interval_cases i <;> interval_cases j <;> simp at hij ⊢ <;> first | assumption | exact Ne.symm ‹_›

variable {T : TriData K} {t : Mesh K}

/-- The final mesh. -/
def result (T : TriData K) : MeshData K := T.data (T.n0 + T.n1 + T.n2) (2 * T.n1 + 3 * T.n2) (3 * T.n2)

theorem result_V {i : Nat} (hi : i < T.n0 + T.n1 + T.n2) : T.result.V[i]? = some (T.fV i) := by
  show (filled _ _ _ _)[i]? = _
  rw [filled_get hi, if_pos hi]

theorem result_E {i : Nat} (hi : i < 2 * T.n1 + 3 * T.n2) : T.result.E[i]? = some (T.fE i) := by
  show (filled _ _ _ _)[i]? = _
  rw [filled_get hi, if_pos hi]

theorem result_P {i : Nat} (hi : i < 3 * T.n2) : T.result.P[i]? = some (T.fP i) := by
  show (filled _ _ _ _)[i]? = _
  rw [filled_get hi, if_pos hi]

theorem result_quad {c i : Nat} (hc : c < T.n2) (hi : i < 3) : T.result.P[3 * c + i]? = some (T.quad c i) := by
  rw [result_P (by omega)]
  unfold fP
  rw [show (3 * c + i) / 3 = c by omega, show (3 * c + i) % 3 = i by omega]

theorem result_spoke {c i : Nat} (hc : c < T.n2) (hi : i < 3) :
    T.result.E[2 * T.n1 + 3 * c + i]? = some ⟨T.n0 + T.es c i, T.n0 + T.n1 + c, 0, true, []⟩ := by
  rw [result_E (by omega)]
  unfold fE
  rw [if_neg (by omega), show 2 * T.n1 + 3 * c + i - 2 * T.n1 = 3 * c + i by omega,
    show (3 * c + i) / 3 = c by omega, show (3 * c + i) % 3 = i by omega]

theorem result_first {e : Nat} (he : e < T.n1) :
    T.result.E[2 * e]? = some ⟨(T.ext e).1, T.n0 + e, T.mk1 e, true, []⟩ := by
  rw [result_E (by omega)]
  unfold fE
  rw [if_pos (by omega), if_pos (by omega), show 2 * e / 2 = e by omega]

theorem result_second {e : Nat} (he : e < T.n1) :
    T.result.E[2 * e + 1]? = some ⟨T.n0 + e, (T.ext e).2, T.mk1 e, true, []⟩ := by
  rw [result_E (by omega)]
  unfold fE
  rw [if_pos (by omega), if_neg (by omega), show (2 * e + 1) / 2 = e by omega]

/-- Two sides of a triangle are different. -/
theorem sides_differ (h : T.Of t) {c i : Nat} (hc : c < T.n2) (hi : i < 3) : T.es c i ≠ T.es c ((i + 2) % 3) := by
  intro he
  have hi2 : (i + 2) % 3 < 3 := Nat.mod_lt _ (by omega)
  have j1 := h.joined c hc i hi
  have j2 := h.joined c hc _ hi2
  rw [show ((i + 2) % 3 + 1) % 3 = i by omega] at j2
  rw [← he] at j2
  have d1 := h.different c hc i hi ((i + 1) % 3) (by omega) (by omega)
  have d2 := h.different c hc i hi ((i + 2) % 3) (by omega) (by omega)
  have d3 := h.different c hc ((i + 1) % 3) (by omega) ((i + 2) % 3) (by omega) (by omega)
  rcases j1 with j1 | j1 <;> rcases j2 with j2 | j2 <;> rw [j1] at j2 <;> simp only [Prod.mk.injEq] at j2
  · exact d2 j2.1
  · exact d3 j2.2
  · exact d3 j2.1
  · exact d2 j2.2

theorem near_join (h : T.Of t) {c i : Nat} (hc : c < T.n2) (hi : i < 3) :
    Joins T.result.mesh (T.near c i) (T.vs c i) (T.n0 + T.es c i) := by
  have l := h.es_lt c hc i hi
  unfold near
  by_cases hx : (T.ext (T.es c i)).1 = T.vs c i
  · rw [if_pos hx]
    exact Or.inl (by rw [MeshData.extremes_E (result_first l), hx])
  · rw [if_neg hx]
    refine Or.inr (by
      rw [MeshData.extremes_E (result_second l)]
      rcases h.joined c hc i hi with j | j
      · exact absurd (by rw [j]) hx
      · rw [j])

theorem before_join (h : T.Of t) {c i : Nat} (hc : c < T.n2) (hi : i < 3) :
    Joins T.result.mesh (T.before c i) (T.n0 + T.es c ((i + 2) % 3)) (T.vs c i) := by
  have hi2 : (i + 2) % 3 < 3 := Nat.mod_lt _ (by omega)
  have l := h.es_lt c hc _ hi2
  have j := h.joined c hc _ hi2
  rw [show ((i + 2) % 3 + 1) % 3 = i by omega] at j
  unfold before
  by_cases hx : (T.ext (T.es c ((i + 2) % 3))).2 = T.vs c i
  · rw [if_pos hx]
    exact Or.inl (by rw [MeshData.extremes_E (result_second l), hx])
  · rw [if_neg hx]
    refine Or.inr (by
      rw [MeshData.extremes_E (result_first l)]
      rcases j with j | j
      · exact absurd (by rw [j]) hx
      · rw [j])

theorem closed (h : T.Of t) : PolygonsOk T.result.mesh := by
  intro x hx _
  have hx : x < 3 * T.n2 := by
    have : x < T.result.P.length := hx
    rwa [show T.result.P.length = 3 * T.n2 from length_filled] at this
  obtain ⟨c, i, hc, hi, rfl⟩ : ∃ c i, c < T.n2 ∧ i < 3 ∧ x = 3 * c + i :=
    ⟨x / 3, x % 3, by omega, by omega, by omega⟩
  have hi2 : (i + 2) % 3 < 3 := Nat.mod_lt _ (by omega)
  have hq := result_quad (T := T) hc hi
  have l1 := h.es_lt c hc i hi
  have l2 := h.es_lt c hc _ hi2
  have l3 := h.vs_lt c hc i hi
  have hd := sides_differ h hc hi
  refine ⟨_, _, MeshData.row_vert2 hq, MeshData.row_edge2 hq, by simp [quad], ?_, rfl, ?_⟩
  · simp only [quad, List.nodup_cons, List.mem_cons, List.not_mem_nil, or_false, not_or, not_false_eq_true, List.nodup_nil,
      and_true]
    omega
  · intro k e a b he ha hb
    have hk : k < 4 := by
      have := (List.getElem?_eq_some_iff.1 he).1
      simpa [quad] using this
    interval_cases k
    · simp only [quad, List.getElem?_cons_zero, List.getElem?_cons_succ, List.length_cons, List.length_nil, Nat.zero_add, Nat.reduceAdd, Nat.reduceMod, Option.some.injEq] at he ha hb
      subst he ha hb
      exact near_join h hc hi
    · simp only [quad, List.getElem?_cons_zero, List.getElem?_cons_succ, List.length_cons, List.length_nil, Nat.zero_add, Nat.reduceAdd, Nat.reduceMod, Option.some.injEq] at he ha hb
      subst he ha hb
      exact Or.inl (MeshData.extremes_E (result_spoke hc hi))
    · simp only [quad, List.getElem?_cons_zero, List.getElem?_cons_succ, List.length_cons, List.length_nil, Nat.zero_add, Nat.reduceAdd, Nat.reduceMod, Option.some.injEq] at he ha hb
      subst he ha hb
      exact Or.inr (MeshData.extremes_E (result_spoke hc hi2))
    · simp only [quad, List.getElem?_cons_zero, List.getElem?_cons_succ, List.length_cons, List.length_nil, Nat.zero_add, Nat.reduceAdd, Nat.reduceMod, Option.some.injEq] at he ha hb
      subst he ha hb
      exact before_join h hc hi

theorem quadsOf [IsStrictOrderedRing K] (h : T.Of t) : QuadsOf t T.result.mesh where
  wf := MeshData.mesh_wf _
  dim := rfl
  points := by
    rw [h.n0, h.n1, h.n2]
    exact length_filled (f := T.fV)
  lines := by
    rw [h.n1, h.n2]
    exact length_filled (f := T.fE)
  quads := by
    rw [h.n2]
    exact length_filled (f := T.fP)
  solids := rfl
  corners := by
    intro v hv
    rw [h.n0] at hv
    have hV := result_V (T := T) (i := v) (by omega)
    rw [MeshData.coordinates_V hV, MeshData.marker_V hV, MeshData.active_V hV, h.mk0 v hv]
    have hp := h.pt v hv
    unfold Mesh.point at hp
    obtain ⟨c, hc, hp⟩ := bind_eq_ok.1 hp
    rw [hc]
    unfold fV
    rw [if_pos hv]
    cases hp' : T.pt v with
    | mk a b d =>
      rw [hp'] at hp
      cases hp
      exact ⟨rfl, rfl, rfl⟩
  middles := by
    intro e a b p q he hp hq
    have hl := lt_of_extremes he
    rw [h.n1] at hl
    have he' := h.ext e hl
    rw [he] at he'
    have hx := h.ext_lt e hl
    have h1 := h.pt _ hx.1
    have h2 := h.pt _ hx.2
    rw [← Res.ok.inj he'] at h1 h2
    rw [hp] at h1
    rw [hq] at h2
    rw [h.n0]
    have hV := result_V (T := T) (i := T.n0 + e) (by omega)
    rw [MeshData.coordinates_V hV, MeshData.marker_V hV, MeshData.active_V hV, h.mk1 e hl]
    unfold fV
    rw [if_neg (by omega), if_pos (by omega), Nat.add_sub_cancel_left]
    refine ⟨?_, rfl, rfl⟩
    unfold mid
    rw [← Res.ok.inj he']
    simp only []
    rw [← Res.ok.inj h1, ← Res.ok.inj h2]
    have e1 : ∀ x y : K, x + 1 / 2 * (y - x) = (x + y) / 2 := by intro x y; ring
    simp only [vcell, V3.add, V3.smul, V3.sub, e1]
  halves := by
    intro e a b he
    have hl := lt_of_extremes he
    rw [h.n1] at hl
    have he' := h.ext e hl
    rw [he] at he'
    have h1 := result_first (T := T) hl
    have h2 := result_second (T := T) hl
    rw [← Res.ok.inj he'] at h1 h2
    rw [MeshData.extremes_E h1, MeshData.extremes_E h2, MeshData.marker_E h1, MeshData.marker_E h2,
      MeshData.active_E h1, MeshData.active_E h2, h.n0, h.mk1 e hl]
    exact ⟨⟨rfl, rfl, rfl⟩, rfl, rfl, rfl⟩
  centers := by
    intro c a b d p q r hr hp hq hs
    have hl : c < t.num .d2 := lt_of_row hr
    rw [h.n2] at hl
    have hv := h.vs c hl
    rw [hr] at hv
    have g0 := h.pt _ (h.vs_lt c hl 0 (by omega))
    have g1 := h.pt _ (h.vs_lt c hl 1 (by omega))
    have g2 := h.pt _ (h.vs_lt c hl 2 (by omega))
    have hv := Res.ok.inj hv
    simp only [List.cons.injEq, and_true] at hv
    rw [← hv.1, hp] at g0
    rw [← hv.2.1, hq] at g1
    rw [← hv.2.2, hs] at g2
    rw [h.n0, h.n1]
    have hV := result_V (T := T) (i := T.n0 + T.n1 + c) (by omega)
    rw [MeshData.coordinates_V hV, MeshData.marker_V hV, MeshData.active_V hV]
    unfold fV
    rw [if_neg (by omega), if_neg (by omega), Nat.add_sub_cancel_left]
    refine ⟨?_, rfl, rfl⟩
    unfold bary
    rw [← hv.1, ← hv.2.1, ← hv.2.2, ← Res.ok.inj g0, ← Res.ok.inj g1, ← Res.ok.inj g2]
    simp [vcell, add_assoc]
  spokes := by
    intro c i e es hes hi
    have hl : c < t.num .d2 := lt_of_row hes
    rw [h.n2] at hl
    have he := h.es c hl
    rw [hes] at he
    have he := Res.ok.inj he
    subst he
    have hk : i < 3 := by
      have := (List.getElem?_eq_some_iff.1 hi).1
      simpa using this
    have : e = T.es c i := by
      interval_cases i <;> simp at hi <;> exact hi.symm
    subst this
    have hE := result_spoke (T := T) hl hk
    rw [h.n0, h.n1, MeshData.extremes_E hE, MeshData.marker_E hE, MeshData.active_E hE]
    exact ⟨rfl, rfl, rfl⟩
  cells := by
    intro c i v e e' vs es hvs hes hi hi' hi''
    have hl : c < t.num .d2 := lt_of_row hes
    rw [h.n2] at hl
    have he := h.es c hl
    rw [hes] at he
    have he := Res.ok.inj he
    subst he
    have hv := h.vs c hl
    rw [hvs] at hv
    have hv := Res.ok.inj hv
    subst hv
    have hk : i < 3 := by
      have := (List.getElem?_eq_some_iff.1 hi).1
      simpa using this
    have q1 : e = T.es c i := by
      interval_cases i <;> simp at hi' <;> exact hi'.symm
    have q2 : e' = T.es c ((i + 2) % 3) := by
      interval_cases i <;> simp at hi'' <;> exact hi''.symm
    have q3 : v = T.vs c i := by
      interval_cases i <;> simp at hi <;> exact hi.symm
    subst q1 q2 q3
    have hP := result_quad (T := T) hl hk
    rw [h.n0, h.n1, MeshData.row_vert2 hP, MeshData.row_edge2 hP, MeshData.marker_P hP, MeshData.active_P hP]
    exact ⟨rfl, rfl, rfl, _, _, rfl, near_or c i, before_or c i⟩
  closed := closed h

end TriData
end Verif
