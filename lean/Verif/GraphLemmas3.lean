import Verif.GraphLemmas2
import Mathlib.Data.List.Nodup
import Mathlib.Data.List.Count

/-
Helper lemmas: sub-graphs and conversions.
-/
namespace Verif

open Res Relation

theorem umapFind_eq_some {m : UMap} (h : m.IsMap) {k v : Nat} :
    umapFind m k = some v ↔ (k, v) ∈ m := by
  induction m with
  | nil => simp [umapFind]
  | cons p m ih =>
    obtain ⟨a, b⟩ := p
    have h' := List.nodup_cons.1 (show (a :: m.map (·.1)).Nodup from h)
    rw [umapFind]
    by_cases ha : a = k
    · subst ha
      simp only [if_true, Option.some.injEq, List.mem_cons, Prod.mk.injEq, true_and]
      constructor
      · intro h; exact Or.inl h.symm
      · rintro (h | h)
        · exact h.symm
        · exact absurd (List.mem_map.2 ⟨_, h, rfl⟩) h'.1
    · rw [if_neg ha, ih h'.2]
      simp [Ne.symm ha]

theorem extractSubGraph_eq {G : Graph} {f : UMap} (hk : ∀ p ∈ f, p.1 < G.length)
    (hv : ∀ p ∈ f, p.2 < f.length) :
    extractSubGraph G f = ok (pushed (List.replicate f.length [])
      (f.flatMap fun p => ((((G[p.1]?).getD []).filterMap (umapFind f)).map fun w => (p.2, w)))) := by
  rw [← pushAll_eq]
  · rw [foldRes_flatMap]
    unfold extractSubGraph
    apply foldRes_congr
    intro adj p hp
    rw [vget_of_lt (hk p hp), ok_bind, foldRes_map, foldRes_filterMap]
    rw [List.getElem?_eq_getElem (hk p hp), Option.getD_some]
    apply foldRes_congr
    intro adj w _
    unfold subGraphStep
    cases umapFind f w <;> rfl
  · intro q hq
    obtain ⟨p, hp, hq⟩ := List.mem_flatMap.1 hq
    obtain ⟨w, _, rfl⟩ := List.mem_map.1 hq
    simpa using hv p hp

theorem filter_flatMap_single {f : List (Nat × Nat)} (g : Nat → List Nat)
    (hinj : (f.map (·.2)).Nodup) {u fu : Nat} (hu : (u, fu) ∈ f) :
    ((f.flatMap fun p => (g p.1).map fun w => (p.2, w)).filter fun q => q.1 == fu).map (·.2) =
      g u := by
  induction f with
  | nil => simp at hu
  | cons p f ih =>
    have h' := List.nodup_cons.1 (show (p.2 :: f.map (·.2)).Nodup from hinj)
    have hrest : fu ∉ f.map (·.2) →
        (f.flatMap fun p => (g p.1).map fun w => (p.2, w)).filter (fun q => q.1 == fu) = [] := by
      intro hfu
      rw [List.filter_eq_nil_iff]
      intro q hq
      obtain ⟨p, hp, hq⟩ := List.mem_flatMap.1 hq
      obtain ⟨w, _, rfl⟩ := List.mem_map.1 hq
      simp only [beq_iff_eq]
      rintro rfl
      exact hfu (List.mem_map.2 ⟨p, hp, rfl⟩)
    rw [List.flatMap_cons, List.filter_append, List.map_append]
    rcases List.mem_cons.1 hu with rfl | hu
    · rw [hrest h'.1]
      simp [List.filter_map, Function.comp_def]
    · have hne : p.2 ≠ fu := fun h => h'.1 (h ▸ List.mem_map.2 ⟨_, hu, rfl⟩)
      rw [ih h'.2 hu]
      have : ((g p.1).map fun w => (p.2, w)).filter (fun q => q.1 == fu) = [] := by
        rw [List.filter_eq_nil_iff]
        intro q hq
        obtain ⟨w, _, rfl⟩ := List.mem_map.1 hq
        simpa using hne
      rw [this]; rfl

theorem count_filterMap_inj {f : UMap} (hf : f.IsMap) (hinj : (f.map (·.2)).Nodup) {w fw : Nat}
    (hw : (w, fw) ∈ f) (l : List Nat) : (l.filterMap (umapFind f)).count fw = l.count w := by
  have key : ∀ x, umapFind f x = some fw ↔ x = w := by
    intro x
    rw [umapFind_eq_some hf]
    refine ⟨fun hx => ?_, fun hx => hx ▸ hw⟩
    exact congrArg Prod.fst (List.inj_on_of_nodup_map hinj hx hw rfl)
  induction l with
  | nil => rfl
  | cons x l ih =>
    rw [List.filterMap_cons, List.count_cons]
    cases hx : umapFind f x with
    | none =>
      have : x ≠ w := fun h => by simp [(key x).2 h] at hx
      simp [ih, this]
    | some y =>
      simp only [List.count_cons, ih]
      have : y = fw ↔ x = w := by rw [← key x, hx]; simp
      by_cases h : x = w
      · simp [h, this.2 h]
      · simp [h, mt this.1 h]

/-- What `GraphConnectivityToGraphAdjacency` has to list at vertex `v`: for each edge in order, the
other end together with the number of the edge. -/
def incidences (edges : List (Nat × Nat)) (direct : Bool) (v : Nat) : List (Nat × Nat) :=
  edges.zipIdx.flatMap fun c =>
    (if c.1.1 = v then [(c.1.2, c.2)] else []) ++
      (if direct = false ∧ c.1.2 = v then [(c.1.1, c.2)] else [])

theorem connectivity_adj (n : Nat) (edges : List (Nat × Nat)) (direct : Bool)
    (he : ∀ e ∈ edges, e.1 < n ∧ e.2 < n) :
    foldRes (connectivityStep direct) (List.replicate n []) edges.zipIdx =
      ok ((List.range n).map (incidences edges direct)) := by
  have h1 : foldRes (connectivityStep direct) (List.replicate n []) edges.zipIdx =
      foldRes (fun adj p => pushBack adj p.1 p.2) (List.replicate n [])
        (edges.zipIdx.flatMap fun c => (c.1.1, (c.1.2, c.2)) ::
          (if direct then [] else [(c.1.2, (c.1.1, c.2))])) := by
    rw [foldRes_flatMap]
    apply foldRes_congr
    intro adj c _
    unfold connectivityStep
    cases direct
    · simp only [foldRes_cons, foldRes_nil, Bool.false_eq_true, if_false]
      cases pushBack adj c.1.1 (c.1.2, c.2) <;> simp
      cases pushBack _ c.1.2 (c.1.1, c.2) <;> simp
    · simp only [foldRes_cons, foldRes_nil, if_true]
  rw [h1, pushAll_eq]
  · congr 1
    apply List.ext_getElem
    · simp
    · intro v hv hv'
      have hv : v < n := by simpa using hv
      simp only [pushed, List.getElem_mapIdx, List.getElem_replicate, List.nil_append,
        List.getElem_map, List.getElem_range, incidences]
      induction edges.zipIdx with
      | nil => rfl
      | cons c l ih =>
        simp only [List.flatMap_cons, List.filter_append, List.map_append, ih]
        congr 1
        by_cases ha : c.1.1 = v <;> by_cases hb : c.1.2 = v <;> cases direct <;> simp [ha, hb]
  · intro p hp
    obtain ⟨c, hc, hp⟩ := List.mem_flatMap.1 hp
    have := he c.1 (List.fst_mem_of_mem_zipIdx hc)
    rcases List.mem_cons.1 hp with rfl | hp
    · simpa using this.1
    · cases direct <;> simp at hp
      rw [hp]; simpa using this.2

/-- Position of the first occurrence. -/
theorem adjacencyRow_spec (l : List (Nat × Nat)) : ∀ (vs : List Nat) (vm : UMap) (es : List Nat)
    (em : UMap), vs.length = es.length →
    (∀ w, umapFind vm w = if w ∈ vs then some (vs.idxOf w) else none) →
    (∀ e, umapFind em e = if e ∈ es then some (es.idxOf e) else none) →
    ∃ vm' em', adjacencyRow (vs, vm, es, em) l = (vs ++ l.map (·.1), vm', es ++ l.map (·.2), em') ∧
      (∀ w, umapFind vm' w = if w ∈ vs ++ l.map (·.1) then some ((vs ++ l.map (·.1)).idxOf w)
        else none) ∧
      (∀ e, umapFind em' e = if e ∈ es ++ l.map (·.2) then some ((es ++ l.map (·.2)).idxOf e)
        else none) := by
  have hfind : ∀ (m : UMap) (k v x : Nat), umapFind (umapInsert m k v) x =
      match umapFind m x with | some y => some y | none => if x = k then some v else none := by
    intro m k v x
    have happ : ∀ m : UMap, umapFind (m ++ [(k, v)]) x =
        match umapFind m x with | some y => some y | none => if x = k then some v else none := by
      intro m
      induction m with
      | nil => simp [umapFind, eq_comm]
      | cons p m ih =>
        obtain ⟨a, b⟩ := p
        simp only [List.cons_append, umapFind]
        by_cases h : a = x
        · simp [h]
        · simp [h, ih]
    unfold umapInsert
    cases hk : umapFind m k with
    | none => exact happ m
    | some y =>
      simp only
      cases hx : umapFind m x with
      | some z => rfl
      | none =>
        simp only
        rw [if_neg]
        rintro rfl
        rw [hk] at hx; cases hx
  have hins : ∀ (xs : List Nat) (m : UMap) (k : Nat),
      (∀ w, umapFind m w = if w ∈ xs then some (xs.idxOf w) else none) →
      ∀ w, umapFind (umapInsert m k xs.length) w =
        if w ∈ xs ++ [k] then some ((xs ++ [k]).idxOf w) else none := by
    intro xs m k h w
    rw [hfind, h w]
    by_cases hw : w ∈ xs
    · simp [hw, List.idxOf_append]
    · by_cases hk : w = k
      · subst hk; simp [hw, List.idxOf_append]
      · simp [hw, hk]
  induction l with
  | nil => intro vs vm es em _ h1 h2; exact ⟨vm, em, by simp [adjacencyRow], by simpa using h1, by simpa using h2⟩
  | cons p l ih =>
    obtain ⟨w, e⟩ := p
    intro vs vm es em hl h1 h2
    obtain ⟨vm', em', h, h3, h4⟩ := ih (vs ++ [w]) (umapInsert vm w vs.length) (es ++ [e])
      (umapInsert em e es.length) (by simp [hl]) (hins vs vm w h1) (hins es em e h2)
    refine ⟨vm', em', ?_, ?_, ?_⟩
    · rw [adjacencyRow, h]; simp
    · simpa only [List.append_assoc, List.map_cons, List.singleton_append] using h3
    · simpa only [List.append_assoc, List.map_cons, List.singleton_append] using h4

/-- The data of `GraphConnectivityToGraphAdjacency`, row by row. -/
theorem connectivity_rows (n : Nat) (edges : List (Nat × Nat)) (direct : Bool)
    (he : ∀ e ∈ edges, e.1 < n ∧ e.2 < n) :
    ∃ A : AdjacencyData, connectivityToAdjacency n edges direct = ok A ∧
      A.vertices = (List.range n).map (fun v => (incidences edges direct v).map (·.1)) ∧
      A.edges = (List.range n).map (fun v => (incidences edges direct v).map (·.2)) ∧
      A.verticesMap.length = n ∧ A.edgesMap.length = n ∧
      (∀ (v : Nat) (m : UMap) (row : List Nat), A.verticesMap[v]? = some m → A.vertices[v]? = some row →
        ∀ w, umapFind m w = if w ∈ row then some (row.idxOf w) else none) ∧
      (∀ (v : Nat) (m : UMap) (row : List Nat), A.edgesMap[v]? = some m → A.edges[v]? = some row →
        ∀ e, umapFind m e = if e ∈ row then some (row.idxOf e) else none) := by
  have hrow : ∀ v, ∃ vm em, adjacencyRow ([], [], [], []) (incidences edges direct v) =
      ((incidences edges direct v).map (·.1), vm, (incidences edges direct v).map (·.2), em) ∧
      (∀ w, umapFind vm w = if w ∈ (incidences edges direct v).map (·.1) then
        some (((incidences edges direct v).map (·.1)).idxOf w) else none) ∧
      (∀ e, umapFind em e = if e ∈ (incidences edges direct v).map (·.2) then
        some (((incidences edges direct v).map (·.2)).idxOf e) else none) := by
    intro v
    simpa using adjacencyRow_spec (incidences edges direct v) [] [] [] [] rfl
      (by simp [umapFind]) (by simp [umapFind])
  refine ⟨_, by unfold connectivityToAdjacency; rw [connectivity_adj n edges direct he]; rfl,
    ?_, ?_, by simp, by simp, ?_, ?_⟩
  · simp only [List.map_map]
    apply List.map_congr_left
    intro v _
    obtain ⟨vm, em, h, _⟩ := hrow v
    simp [h]
  · simp only [List.map_map]
    apply List.map_congr_left
    intro v _
    obtain ⟨vm, em, h, _⟩ := hrow v
    simp [h]
  · intro v m row hm hr w
    obtain ⟨vm, em, h, h1, h2⟩ := hrow v
    have hv : v < n := by simpa using (List.getElem?_eq_some_iff.1 hm).1
    simp [hv, h] at hm hr
    subst hm; subst hr
    exact h1 w
  · intro v m row hm hr w
    obtain ⟨vm, em, h, h1, h2⟩ := hrow v
    have hv : v < n := by simpa using (List.getElem?_eq_some_iff.1 hm).1
    simp [hv, h] at hm hr
    subst hm; subst hr
    exact h2 w

theorem adjacencyToConnectivity_eq (G : Graph) :
    adjacencyToConnectivity (edgeList G).length G = ok ((edgeList G).map some) := by
  have key : ∀ (ps done : List (Nat × Nat)),
      foldRes (fun s (p : Nat × Nat) => connectivityWrite p.1 s p.2)
        (done.map some ++ List.replicate ps.length none, done.length) ps =
      ok ((done ++ ps).map some, (done ++ ps).length) := by
    intro ps
    induction ps with
    | nil => intro done; simp
    | cons p ps ih =>
      intro done
      rw [foldRes_cons]
      have : connectivityWrite p.1 (done.map some ++ List.replicate (p :: ps).length none,
          done.length) p.2 = ok ((done ++ [p]).map some ++ List.replicate ps.length none,
          (done ++ [p]).length) := by
        unfold connectivityWrite
        rw [vset_of_lt _ (by simp), ok_bind]
        simp [List.replicate_succ]
      rw [this, ok_bind, ih]; simp
  unfold adjacencyToConnectivity
  rw [foldRes_rows G connectivityWrite]
  have := key (edgeList G) []
  simp only [List.map_nil, List.nil_append, List.length_nil] at this
  rw [← edgeList, this]; rfl

theorem mem_incidences {edges : List (Nat × Nat)} {direct : Bool} {v w e : Nat} :
    (w, e) ∈ incidences edges direct v ↔
      edges[e]? = some (v, w) ∨ (direct = false ∧ edges[e]? = some (w, v)) := by
  unfold incidences
  simp only [List.mem_flatMap, List.mem_append]
  constructor
  · rintro ⟨⟨⟨a, b⟩, k⟩, hc, h⟩
    have hk := List.mem_zipIdx_iff_getElem?.1 hc
    simp only at hk h
    rcases h with h | h
    · by_cases ha : a = v
      · simp [ha] at h
        left; rw [h.2, hk, ha, h.1]
      · simp [ha] at h
    · by_cases hb : direct = false ∧ b = v
      · simp [hb] at h
        right; exact ⟨hb.1, by rw [h.2, hk, hb.2, h.1]⟩
      · simp only [hb, if_false, List.not_mem_nil] at h
  · rintro (h | ⟨hd, h⟩)
    · exact ⟨((v, w), e), List.mem_zipIdx_iff_getElem?.2 h, Or.inl (by simp)⟩
    · exact ⟨((w, v), e), List.mem_zipIdx_iff_getElem?.2 h, Or.inr (by simp [hd])⟩

theorem count_incidences {edges : List (Nat × Nat)} {direct : Bool} {v e : Nat} {p : Nat × Nat}
    (h : edges[e]? = some p) : ((incidences edges direct v).map (·.2)).count e =
      (if p.1 = v then 1 else 0) + (if direct = false ∧ p.2 = v then 1 else 0) := by
  unfold incidences
  suffices hk : ∀ (edges : List (Nat × Nat)) (k : Nat),
      (((edges.zipIdx k).flatMap fun c => (if c.1.1 = v then [(c.1.2, c.2)] else []) ++
        (if direct = false ∧ c.1.2 = v then [(c.1.1, c.2)] else [])).map (·.2)).count e =
      if k ≤ e then (match edges[e - k]? with
        | none => 0
        | some p => (if p.1 = v then 1 else 0) + (if direct = false ∧ p.2 = v then 1 else 0))
      else 0 by
    rw [hk edges 0]; simp [h]
  clear h
  intro edges
  induction edges with
  | nil => intro k; simp
  | cons q edges ih =>
    intro k
    rw [List.zipIdx_cons, List.flatMap_cons, List.map_append, List.count_append, ih]
    generalize hX : ((if ((q, k) : (Nat × Nat) × Nat).1.1 = v then [(q.2, k)] else []) ++
      (if direct = false ∧ ((q, k) : (Nat × Nat) × Nat).1.2 = v then [(q.1, k)] else [])) = X
    have hXk : (X.map (·.2)).count e = if k = e then
        (if q.1 = v then 1 else 0) + (if direct = false ∧ q.2 = v then 1 else 0) else 0 := by
      subst hX
      by_cases hke : k = e <;> by_cases ha : q.1 = v <;> by_cases hb : direct = false ∧ q.2 = v <;>
        simp [hke, ha, hb]
    rw [hXk]
    rcases Nat.lt_trichotomy k e with hlt | rfl | hgt
    · have h1 : e - k = (e - (k + 1)) + 1 := by omega
      have h2 : k + 1 ≤ e := hlt
      have h3 : k ≤ e := Nat.le_of_lt hlt
      have h4 : ¬ k = e := by omega
      simp only [h2, h3, h4, if_true, if_false, h1, List.getElem?_cons_succ, Nat.zero_add]
    · have h2 : ¬ k + 1 ≤ k := by omega
      simp [h2]
    · have h2 : ¬ k + 1 ≤ e := by omega
      have h3 : ¬ k ≤ e := by omega
      have h4 : ¬ k = e := by omega
      simp [h2, h3, h4]

end Verif
