import Verif.AlignLemmas3
import Verif.HullSpec
import Verif.CheckLemmas
import Verif.MeshLemmas

/-!
# Lemmas for the lines of the edges of a polyhedron: the order of the vertices of a line
-/

namespace Verif
open Res

variable {K : Type} [Field K] [LinearOrder K] [IsStrictOrderedRing K]

/-- The vertices of the line in the order of `c`. -/
theorem sort_line {sort : (Nat → Nat → Bool) → List Nat → List Nat} (hsort : IsSort sort) (vertices : List Nat)
    (c : Nat → K) (hn : vertices.Nodup) (hinj : ∀ u ∈ vertices, ∀ v ∈ vertices, c u = c v → u = v) :
    ∃ vs, mapRes (fun i => vget vertices i) (sortArrayIndices sort (vertices.map c)) = ok vs ∧ vs.Perm vertices ∧
      vs.Pairwise fun u w => c u < c w := by
  have hget : ∀ i, i < vertices.length → (vertices.map c).getD i 0 = c (vertices.getD i 0) := by
    intro i hi
    simp [hi]
  obtain ⟨hp, hpw⟩ := hsort (fun a b => decide ((vertices.map c).getD a 0 < (vertices.map c).getD b 0))
    (List.range (vertices.map c).length) ⟨by simp, by
      intro a _ b _ d _ h1 h2
      simp only [decide_eq_true_eq] at h1 h2 ⊢
      exact h1.trans h2, by
      intro a _ b _ d _ h1 h2
      simp only [decide_eq_false_iff_not, not_lt] at h1 h2 ⊢
      exact ⟨h2.1.trans h1.1, h1.2.trans h2.2⟩⟩
  change (sortArrayIndices sort (vertices.map c)).Perm _ at hp
  change (sortArrayIndices sort (vertices.map c)).Pairwise _ at hpw
  rw [List.length_map] at hp
  have hlt : ∀ i ∈ sortArrayIndices sort (vertices.map c), i < vertices.length := fun i hi =>
    List.mem_range.1 (hp.mem_iff.1 hi)
  have hperm : ((sortArrayIndices sort (vertices.map c)).map fun i => vertices.getD i 0).Perm vertices := by
    have := hp.map fun i => vertices.getD i 0
    have e : (List.range vertices.length).map (fun i => vertices.getD i 0) = vertices := by
      apply List.ext_getElem?
      intro i
      rw [List.getElem?_map]
      by_cases hi : i < vertices.length
      · simp [hi]
      · simp [hi]
    rwa [e] at this
  refine ⟨_, mapRes_eq_map (g := fun i => vertices.getD i 0) ?_, hperm, ?_⟩
  · intro i hi
    rw [vget_of_lt (hlt i hi)]
    simp [hlt i hi]
  · have hnd := hperm.nodup_iff.2 hn
    rw [List.pairwise_map]
    have hn' : (sortArrayIndices sort (vertices.map c)).Nodup := hp.nodup_iff.2 List.nodup_range
    refine (hpw.and hn').imp_of_mem ?_
    intro a b ha hb ⟨h1, h2⟩
    simp only [decide_eq_false_iff_not, not_lt] at h1
    rw [hget a (hlt a ha), hget b (hlt b hb)] at h1
    have la := hlt a ha
    have lb := hlt b hb
    refine lt_of_le_of_ne h1 fun h => h2 ?_
    have := hinj _ (by simp [la]) _ (by simp [lb]) h
    simp only [List.getD_eq_getElem?_getD, List.getElem?_eq_getElem la, List.getElem?_eq_getElem lb,
      Option.getD_some] at this
    exact (List.Nodup.getElem_inj_iff hn).1 this

theorem pairwise_lt_index {c : Nat → K} {vs : List Nat} (h : vs.Pairwise fun u w => c u < c w) {i j u w : Nat}
    (hi : vs[i]? = some u) (hj : vs[j]? = some w) (huw : c u < c w) : i < j := by
  obtain ⟨li, ei⟩ := List.getElem?_eq_some_iff.1 hi
  obtain ⟨lj, ej⟩ := List.getElem?_eq_some_iff.1 hj
  by_contra hlt
  rcases Nat.lt_or_ge j i with h1 | h1
  · have := List.pairwise_iff_getElem.1 h j i lj li h1
    rw [ei, ej] at this
    exact absurd this (not_lt.2 huw.le)
  · have : i = j := by omega
    subst this
    rw [hi] at hj
    obtain rfl := Option.some.inj hj
    exact absurd huw (lt_irrefl _)

/-- Neighbours in the order. -/
theorem neighbours {c : Nat → K} {vs : List Nat} (h : vs.Pairwise fun u w => c u < c w) {i j u w : Nat}
    (hi : vs[i]? = some u) (hj : vs[j]? = some w) (huw : c u < c w)
    (hno : ∀ v ∈ vs, ¬ (c u < c v ∧ c v < c w)) : j = i + 1 := by
  have hij := pairwise_lt_index h hi hj huw
  by_contra hne
  obtain ⟨li, ei⟩ := List.getElem?_eq_some_iff.1 hi
  obtain ⟨lj, ej⟩ := List.getElem?_eq_some_iff.1 hj
  have l1 : i + 1 < vs.length := by omega
  have h1 := List.pairwise_iff_getElem.1 h i (i + 1) li l1 (by omega)
  have h2 := List.pairwise_iff_getElem.1 h (i + 1) j l1 lj (by omega)
  rw [ei] at h1
  rw [ej] at h2
  exact hno _ (List.getElem_mem l1) ⟨h1, h2⟩

theorem not_between {c : Nat → K} {vs : List Nat} (h : vs.Pairwise fun u w => c u < c w) {k u w : Nat}
    (hu : vs[k]? = some u) (hw : vs[k + 1]? = some w) : ∀ v ∈ vs, ¬ (c u < c v ∧ c v < c w) := by
  rintro v hv ⟨h1, h2⟩
  obtain ⟨i, hi⟩ := List.mem_iff_getElem?.1 hv
  have := pairwise_lt_index h hu hi h1
  have := pairwise_lt_index h hi hw h2
  omega

variable {g : GeoCfg K} {sqrt : K → K} {points : List (V3 K)} {edges : List (Nat × Nat)} {tangents : List (V3 K)}
  {lengths : List K} {A : AdjacencyData}

theorem edgeBetween_ok (hG : EdgeGraph points.length edges) (hA : AdjOK points.length edges A) {u w e : Nat}
    (hj : edges[e]? = some (u, w) ∨ edges[e]? = some (w, u)) : edgeBetween A u w = ok e := by
  have hu : u < points.length := by
    rcases hj with hj | hj
    · exact (hG.range _ (List.mem_of_getElem? hj)).1
    · exact (hG.range _ (List.mem_of_getElem? hj)).2.1
  obtain ⟨vs, hvs⟩ := getElem?_ex (l := A.vertices) (i := u) (by rw [hA.lenV]; exact hu)
  obtain ⟨es, hes⟩ := getElem?_ex (l := A.edges) (i := u) (by rw [hA.lenE]; exact hu)
  obtain ⟨m, hm⟩ := getElem?_ex (l := A.verticesMap) (i := u) (by rw [hA.lenM]; exact hu)
  obtain ⟨k', hk1, hk2⟩ := hA.has u _ _ hvs hes e w hj
  unfold edgeBetween
  rw [vget_some hm, ok_bind]
  cases hf : umapFind m w with
  | none => exact absurd (List.mem_of_getElem? hk1) (hA.find_none u _ _ hm hvs w hf)
  | some k =>
    have h1 := hA.find u _ _ hm hvs w k hf
    have hl := hA.len u _ _ hvs hes
    have hkl := (List.getElem?_eq_some_iff.1 h1).1
    obtain ⟨e', he'⟩ := getElem?_ex (l := es) (i := k) (by omega)
    have h3 := hA.join u _ _ hvs hes k w _ h1 he'
    simp only [vget_some hes, ok_bind, vget_some he']
    congr 1
    rcases h3 with h3 | h3 <;> rcases hj with hj | hj <;> exact hG.simple _ _ _ _ h3 hj (by simp)

theorem edgeBetween_ub (hA : AdjOK points.length edges A) {u w : Nat} (hu : u < points.length)
    (h1 : (u, w) ∉ edges) (h2 : (w, u) ∉ edges) : edgeBetween A u w = ub := by
  obtain ⟨vs, hvs⟩ := getElem?_ex (l := A.vertices) (i := u) (by rw [hA.lenV]; exact hu)
  obtain ⟨es, hes⟩ := getElem?_ex (l := A.edges) (i := u) (by rw [hA.lenE]; exact hu)
  obtain ⟨m, hm⟩ := getElem?_ex (l := A.verticesMap) (i := u) (by rw [hA.lenM]; exact hu)
  unfold edgeBetween
  rw [vget_some hm, ok_bind]
  cases hf : umapFind m w with
  | none => rfl
  | some k =>
    exfalso
    have h3 := hA.find u _ _ hm hvs w k hf
    have hl := hA.len u _ _ hvs hes
    have hkl := (List.getElem?_eq_some_iff.1 h3).1
    obtain ⟨e', he'⟩ := getElem?_ex (l := es) (i := k) (by omega)
    rcases hA.join u _ _ hvs hes k w _ h3 he' with h4 | h4
    · exact h1 (List.mem_of_getElem? h4)
    · exact h2 (List.mem_of_getElem? h4)

theorem edgeBetween_cases (hG : EdgeGraph points.length edges) (hA : AdjOK points.length edges A) {u w : Nat}
    (hu : u < points.length) : (∃ e, edgeBetween A u w = ok e) ∨ edgeBetween A u w = ub := by
  by_cases h1 : (u, w) ∈ edges
  · obtain ⟨e, he⟩ := List.mem_iff_getElem?.1 h1
    exact Or.inl ⟨e, edgeBetween_ok hG hA (Or.inl he)⟩
  · by_cases h2 : (w, u) ∈ edges
    · obtain ⟨e, he⟩ := List.mem_iff_getElem?.1 h2
      exact Or.inl ⟨e, edgeBetween_ok hG hA (Or.inr he)⟩
    · exact Or.inr (edgeBetween_ub hA hu h1 h2)

theorem mapRes_ub {β γ : Type} {f : β → Res γ} {l : List β} (h : ∀ x ∈ l, (∃ y, f x = ok y) ∨ f x = ub)
    (hx : ∃ x ∈ l, f x = ub) : mapRes f l = ub := by
  induction l with
  | nil => simp at hx
  | cons b l ih =>
    rw [mapRes]
    rcases h b (by simp) with ⟨y, e⟩ | e
    · rw [e, ok_bind, ih (fun x hx => h x (by simp [hx])) ?_]
      · rfl
      · obtain ⟨x, hx, hu⟩ := hx
        rcases List.mem_cons.1 hx with rfl | hx
        · rw [e] at hu; cases hu
        · exact ⟨x, hx, hu⟩
    · rw [e]; rfl

/-- What is known about the vertices of the line of edge `b` after the sort, with their coordinate `c`. -/
structure Sorted (points : List (V3 K)) (edges : List (Nat × Nat)) (b : Nat) (c : Nat → K) (vs : List Nat) : Prop where
  mem : ∀ v, v ∈ vs ↔ OnEdgeLine points edges (edgeAt edges b) v
  order : vs.Pairwise fun u w => c u < c w
  on : ∀ v ∈ vs, corner points v =
    pointAt (corner points (edgeAt edges b).1) (corner points (edgeAt edges b).2) (c v)

theorem Sorted.between {b : Nat} {c : Nat → K} {vs : List Nat} (h : Sorted points edges b c vs) {u v w : Nat}
    (hu : u ∈ vs) (hv : v ∈ vs) (hw : w ∈ vs) (h1 : c u < c v) (h2 : c v < c w) :
    Between (corner points u) (corner points w) (corner points v) := by
  have hd : 0 < c w - c u := by linarith
  refine ⟨(c v - c u) / (c w - c u), by apply div_pos <;> linarith, by rw [div_lt_one hd]; linarith, ?_⟩
  rw [h.on u hu, h.on v hv, h.on w hw]
  have hd' := hd.ne'
  ext <;> simp only [pointAt] <;> field_simp <;> ring

theorem between_swap {a b c : V3 K} (h : Between a b c) : Between b a c := by
  obtain ⟨s, h1, h2, rfl⟩ := h
  refine ⟨1 - s, by linarith, by linarith, ?_⟩
  ext <;> simp only [pointAt] <;> ring

theorem Sorted.of_between {b : Nat} {c : Nat → K} {vs : List Nat} (h : Sorted points edges b c vs)
    (hb : corner points (edgeAt edges b).1 ≠ corner points (edgeAt edges b).2) {u v w : Nat}
    (hu : u ∈ vs) (hv : v ∈ vs) (hw : w ∈ vs) (huw : c u < c w)
    (hbt : Between (corner points u) (corner points w) (corner points v)) : c u < c v ∧ c v < c w := by
  obtain ⟨s, h1, h2, h3⟩ := hbt
  have key : c v = c u + s * (c w - c u) := by
    by_contra hne
    rw [h.on u hu, h.on v hv, h.on w hw] at h3
    have hne' : c v - (c u + s * (c w - c u)) ≠ 0 := sub_ne_zero.2 hne
    apply hb
    have e : ∀ X : V3 K → K, (X = V3.x ∨ X = V3.y ∨ X = V3.z) → (c v - (c u + s * (c w - c u))) *
        (X (corner points (edgeAt edges b).2) - X (corner points (edgeAt edges b).1)) = 0 := by
      intro X hX
      have := congrArg X h3
      rcases hX with rfl | rfl | rfl <;> simp only [pointAt] at this <;> linear_combination this
    ext
    · have := (mul_eq_zero.1 (e V3.x (by simp))).resolve_left hne'; linarith
    · have := (mul_eq_zero.1 (e V3.y (by simp))).resolve_left hne'; linarith
    · have := (mul_eq_zero.1 (e V3.z (by simp))).resolve_left hne'; linarith
  constructor <;> nlinarith

theorem endOn_range {b v : Nat} :
    EndOn points edges (List.range edges.length) b v ↔ OnEdgeLine points edges (edgeAt edges b) v := by
  constructor
  · rintro ⟨e, he, h1, h2⟩
    exact ⟨_, edgeAt_mem (List.mem_range.1 he), h1, h2⟩
  · rintro ⟨q, hq, h1, h2⟩
    obtain ⟨e, he⟩ := List.mem_iff_getElem?.1 hq
    exact ⟨e, List.mem_range.2 (List.getElem?_eq_some_iff.1 he).1, by unfold SameE; rwa [edgeAt_of he],
      by rwa [edgeAt_of he]⟩

theorem AlignInput.onEdge (h : AlignInput g points edges tangents lengths) {b v : Nat}
    (hv : OnEdgeLine points edges (edgeAt edges b) v) :
    v < points.length ∧
      OnLine (corner points (edgeAt edges b).1) (corner points (edgeAt edges b).2) (corner points v) := by
  obtain ⟨q, hq, h1, h2⟩ := hv
  rcases h2 with rfl | rfl
  · exact ⟨(h.graph.range q hq).1, h1.1⟩
  · exact ⟨(h.graph.range q hq).2.1, h1.2⟩

/-- The order of one line. -/
theorem AlignInput.order (h : AlignInput g points edges tangents lengths)
    {sort : (Nat → Nat → Bool) → List Nat → List Nat} (hsort : IsSort sort) {b : Nat} (hb : b < edges.length)
    {l : AlignedEdge K} (hl : LineOK points edges (List.range edges.length) b l) :
    ∃ vs c, Sorted points edges b c vs ∧ 2 ≤ vs.length ∧ orderLine sort points A l = (do
      let es ← mapRes (fun i => do
        let a ← vget vs i
        let b ← vget vs (i + 1)
        edgeBetween A a b) (List.range (vs.length - 1))
      ok (vs, es)) := by
  have hmem : ∀ v, v ∈ l.vertices ↔ OnEdgeLine points edges (edgeAt edges b) v := fun v =>
    (hl.mem v).trans endOn_range
  have hne := h.corner_ne (edgeAt_mem hb)
  generalize hP : corner points (edgeAt edges b).1 = P at *
  generalize hQ : corner points (edgeAt edges b).2 = Q at *
  have hT := V3.dot_self_pos hne
  have ho : l.origin = P ∨ l.origin = Q := hP ▸ hQ ▸ hl.origin
  have ht : l.tangent = Q.sub P := hP ▸ hQ ▸ hl.tangent
  have hlen := hl.length
  -- the coordinate that the code computes is an increasing function of the place on the line
  obtain ⟨d, hd⟩ : ∃ d : K, ∀ r, lineCoordinate (pointAt P Q r) l.origin l.tangent l.squaredLength =
      (r - d) * ((Q.sub P).dot (Q.sub P) / l.squaredLength) := by
    rw [ht]
    rcases ho with ho | ho
    · refine ⟨0, fun r => ?_⟩
      rw [ho]
      unfold lineCoordinate
      field_simp
      simp only [V3.dot, V3.sub, pointAt]
      ring
    · refine ⟨1, fun r => ?_⟩
      rw [ho]
      unfold lineCoordinate
      field_simp
      simp only [V3.dot, V3.sub, pointAt]
      ring
  have hk : 0 < (Q.sub P).dot (Q.sub P) / l.squaredLength := div_pos hT hlen
  have hon : ∀ v ∈ l.vertices, v < points.length ∧ OnLine P Q (corner points v) := by
    intro v hv
    have := h.onEdge ((hmem v).1 hv)
    rwa [hP, hQ] at this
  have hplace : ∀ v, ∃ r, v ∈ l.vertices → corner points v = pointAt P Q r := by
    intro v
    by_cases hv : v ∈ l.vertices
    · obtain ⟨r, hr⟩ := (hon v hv).2
      exact ⟨r, fun _ => hr⟩
    · exact ⟨0, fun hv' => absurd hv' hv⟩
  choose c hc using hplace
  have hcoord : ∀ v ∈ l.vertices, lineCoordinate (corner points v) l.origin l.tangent l.squaredLength =
      (c v - d) * ((Q.sub P).dot (Q.sub P) / l.squaredLength) := by
    intro v hv
    rw [hc v hv, hd]
  have hinj : ∀ u ∈ l.vertices, ∀ v ∈ l.vertices,
      (c u - d) * ((Q.sub P).dot (Q.sub P) / l.squaredLength) =
        (c v - d) * ((Q.sub P).dot (Q.sub P) / l.squaredLength) → u = v := by
    intro u hu v hv huv
    have := mul_right_cancel₀ hk.ne' huv
    refine corner_inj h.nodup (hon u hu).1 (hon v hv).1 ?_
    rw [hc u hu, hc v hv, show c u = c v by linarith]
  obtain ⟨vs, e1, hperm, hpw⟩ := sort_line hsort l.vertices
    (fun v => (c v - d) * ((Q.sub P).dot (Q.sub P) / l.squaredLength)) hl.nodup hinj
  refine ⟨vs, c, ⟨fun v => hperm.mem_iff.trans (hmem v), ?_, fun v hv => hP ▸ hQ ▸ hc v (hperm.mem_iff.1 hv)⟩, ?_, ?_⟩
  · refine hpw.imp ?_
    intro u w huw
    have := lt_of_mul_lt_mul_right huw hk.le
    linarith
  · have hr := (h.graph.range _ (edgeAt_mem hb)).2.2
    have h1 : (edgeAt edges b).1 ∈ vs := hperm.mem_iff.2 ((hmem _).2
      ⟨_, edgeAt_mem hb, SameLine.refl _, Or.inl rfl⟩)
    have h2 : (edgeAt edges b).2 ∈ vs := hperm.mem_iff.2 ((hmem _).2
      ⟨_, edgeAt_mem hb, SameLine.refl _, Or.inr rfl⟩)
    rcases vs with _ | ⟨x, _ | ⟨y, vs⟩⟩
    · simp at h1
    · simp only [List.mem_singleton] at h1 h2
      exact absurd (h1.trans h2.symm) hr
    · simp
  · unfold orderLine
    rw [mapRes_eq_map (g := fun v => (c v - d) * ((Q.sub P).dot (Q.sub P) / l.squaredLength)), ok_bind, e1, ok_bind]
    intro v hv
    rw [corner_get (hon v hv).1, ok_bind, hcoord v hv]

end Verif
