import Verif.SolidSpec
import Verif.PolygonLemmas
import Verif.DualLemmas
import Verif.GraphLemmas2
import Verif.MeshLemmas

/-
Helper lemmas for polyhedra.
-/
namespace Verif

open Res

variable {K : Type} [Field K]

/-! ### Faces with known entries -/

def faceCheck (numVertices : Nat) (edges : List (Nat × Nat)) (face : List (Nat × Nat)) : Bool :=
  (List.range face.length).all fun i =>
    match face[i]?, face[(i + 1) % face.length]? with
    | some c, some c' => decide (c.1 < numVertices) &&
      match edges[c.2]? with
      | some e => decide (e = (c.1, c'.1)) || decide (e = (c'.1, c.1))
      | none => false
    | _, _ => true

theorem faceOk_of_check {n : Nat} {edges face : List (Nat × Nat)} (h : faceCheck n edges face = true) :
    FaceOk n edges face := by
  intro i c c' hc hc'
  have hi : i < face.length := (List.getElem?_eq_some_iff.1 hc).1
  have := List.all_eq_true.1 h i (List.mem_range.2 hi)
  rw [hc, hc'] at this
  simp only [Bool.and_eq_true, decide_eq_true_eq] at this
  refine ⟨this.1, ?_⟩
  cases he : edges[c.2]? with
  | none => rw [he] at this; simp at this
  | some e =>
    rw [he] at this
    refine ⟨e, rfl, ?_⟩
    simpa [JoinsPair] using this.2

instance (e : Nat × Nat) (a b : Nat) : Decidable (JoinsPair e a b) := by unfold JoinsPair; infer_instance

instance (n : Nat) (edges : List (Nat × Nat)) : Decidable (EdgesOk n edges) := by unfold EdgesOk; infer_instance

/-! ### Extrusion -/

def extEdges (n : Nat) : List (Nat × Nat) :=
  (List.range n).map (fun v => (v, (v + 1) % n)) ++ (List.range n).map (fun v => (n + v, n + (v + 1) % n)) ++
    (List.range n).map (fun v => (v, n + v))

theorem extEdges_bottom {n v : Nat} (h : v < n) : (extEdges n)[v]? = some (v, (v + 1) % n) := by
  unfold extEdges
  rw [List.append_assoc, List.getElem?_append_left (by simpa using h)]
  simp [h]

theorem extEdges_top {n v : Nat} (h : v < n) : (extEdges n)[n + v]? = some (n + v, n + (v + 1) % n) := by
  unfold extEdges
  rw [List.append_assoc, List.getElem?_append_right (by simp), List.getElem?_append_left (by simp; omega)]
  simp [h]

theorem extEdges_side {n v : Nat} (h : v < n) : (extEdges n)[2 * n + v]? = some (v, n + v) := by
  unfold extEdges
  rw [List.getElem?_append_right (by simp; omega)]
  have : 2 * n + v - (n + n) = v := by omega
  simp [this, h]

theorem extEdges_cases {n e : Nat} (h : e < (extEdges n).length) :
    (∃ v, v < n ∧ e = v) ∨ (∃ v, v < n ∧ e = n + v) ∨ ∃ v, v < n ∧ e = 2 * n + v := by
  have : e < n + (n + n) := by simpa [extEdges] using h
  by_cases h1 : e < n
  · exact Or.inl ⟨e, h1, rfl⟩
  · by_cases h2 : e < n + n
    · exact Or.inr (Or.inl ⟨e - n, by omega, by omega⟩)
    · exact Or.inr (Or.inr ⟨e - 2 * n, by omega, by omega⟩)

def extSide (n v : Nat) : List (Nat × Nat) :=
  [(v, v), ((v + 1) % n, 2 * n + (v + 1) % n), (n + (v + 1) % n, n + v), (n + v, 2 * n + v)]

def extFaces (n : Nat) : List (List (Nat × Nat)) :=
  (List.range n).map (fun v => (v, v)) :: (List.range n).map (fun v => (n + v, n + v)) ::
    (List.range n).map (extSide n)

theorem extrusion_eq (polygon heights : List (V3 K)) (h : polygon.length = heights.length) :
    createPolyhedronWithExtrusion polygon heights = ok ⟨polygon ++ List.zipWith V3.add polygon heights,
      extEdges polygon.length, extFaces polygon.length⟩ := by
  unfold createPolyhedronWithExtrusion
  rw [assert_true h]
  rfl

theorem mod_succ_ne {n v w : Nat} (hn : 3 ≤ n) (hv : v < n) (hw : w < n) (h1 : v = (w + 1) % n)
    (h2 : (v + 1) % n = w) : False := by
  by_cases h : w + 1 < n
  · rw [Nat.mod_eq_of_lt h] at h1
    by_cases h' : v + 1 < n
    · rw [Nat.mod_eq_of_lt h'] at h2; omega
    · have : v + 1 = n := by omega
      rw [this, Nat.mod_self] at h2; omega
  · have : w + 1 = n := by omega
    rw [this, Nat.mod_self] at h1
    subst h1
    rw [Nat.mod_eq_of_lt (by omega)] at h2; omega

theorem extEdges_ok {n : Nat} (hn : 3 ≤ n) : EdgesOk (2 * n) (extEdges n) := by
  have hmod : ∀ v, (v + 1) % n < n := fun v => Nat.mod_lt _ (by omega)
  have hne : ∀ v, v < n → v ≠ (v + 1) % n := by
    intro v hv h
    by_cases h' : v + 1 < n
    · rw [Nat.mod_eq_of_lt h'] at h; omega
    · have : v + 1 = n := by omega
      rw [this, Nat.mod_self] at h; omega
  constructor
  · intro e he
    unfold extEdges at he
    simp only [List.mem_append, List.mem_map, List.mem_range] at he
    rcases he with (⟨v, hv, rfl⟩ | ⟨v, hv, rfl⟩) | ⟨v, hv, rfl⟩
    · have := hmod v; exact ⟨by show v < _; omega, by show (v + 1) % n < _; omega, hne v hv⟩
    · have := hmod v
      exact ⟨by show n + v < _; omega, by show n + (v + 1) % n < _; omega, fun h => hne v hv (by simpa using h)⟩
    · exact ⟨by show v < _; omega, by show n + v < _; omega, by show v ≠ n + v; omega⟩
  · rw [List.pairwise_iff_getElem]
    intro i j hi hj hij hJ
    have gi := List.getElem?_eq_getElem hi
    have gj := List.getElem?_eq_getElem hj
    generalize (extEdges n)[i] = x at gi hJ
    generalize (extEdges n)[j] = y at gj hJ
    rcases extEdges_cases hi with ⟨v, hv, hiv⟩ | ⟨v, hv, hiv⟩ | ⟨v, hv, hiv⟩ <;>
      rcases extEdges_cases hj with ⟨w, hw, hjw⟩ | ⟨w, hw, hjw⟩ | ⟨w, hw, hjw⟩
    · rw [hiv, extEdges_bottom hv] at gi
      rw [hjw, extEdges_bottom hw] at gj
      rw [← Option.some.inj gi, ← Option.some.inj gj] at hJ
      rcases hJ with h | h
      · have := congrArg Prod.fst h; simp at this; omega
      · exact mod_succ_ne hn hv hw (congrArg Prod.fst h) (congrArg Prod.snd h)
    · rw [hiv, extEdges_bottom hv] at gi
      rw [hjw, extEdges_top hw] at gj
      rw [← Option.some.inj gi, ← Option.some.inj gj] at hJ
      have := hmod v
      rcases hJ with h | h
      · have := congrArg Prod.fst h; simp at this; omega
      · have := congrArg Prod.fst h; simp at this; omega
    · rw [hiv, extEdges_bottom hv] at gi
      rw [hjw, extEdges_side hw] at gj
      rw [← Option.some.inj gi, ← Option.some.inj gj] at hJ
      have := hmod v
      rcases hJ with h | h
      · have := congrArg Prod.snd h; simp at this; omega
      · have := congrArg Prod.fst h; simp at this; omega
    · omega
    · rw [hiv, extEdges_top hv] at gi
      rw [hjw, extEdges_top hw] at gj
      rw [← Option.some.inj gi, ← Option.some.inj gj] at hJ
      rcases hJ with h | h
      · have := congrArg Prod.fst h; simp at this; omega
      · have h1 := congrArg Prod.fst h
        have h2 := congrArg Prod.snd h
        simp at h1 h2
        exact mod_succ_ne hn hv hw h1 h2
    · rw [hiv, extEdges_top hv] at gi
      rw [hjw, extEdges_side hw] at gj
      rw [← Option.some.inj gi, ← Option.some.inj gj] at hJ
      rcases hJ with h | h
      · have := congrArg Prod.fst h; simp at this; omega
      · have := congrArg Prod.snd h; simp at this; omega
    · omega
    · omega
    · rw [hiv, extEdges_side hv] at gi
      rw [hjw, extEdges_side hw] at gj
      rw [← Option.some.inj gi, ← Option.some.inj gj] at hJ
      rcases hJ with h | h
      · have := congrArg Prod.fst h; simp at this; omega
      · have := congrArg Prod.fst h; simp at this; omega

theorem extFaces_ok {n : Nat} (hn : 0 < n) : ∀ face ∈ extFaces n, FaceOk (2 * n) (extEdges n) face := by
  have hmod : ∀ v, (v + 1) % n < n := fun v => Nat.mod_lt _ hn
  intro face hf
  unfold extFaces at hf
  simp only [List.mem_cons, List.mem_map, List.mem_range] at hf
  rcases hf with rfl | rfl | ⟨v, hv, rfl⟩
  · intro i c c' hc hc'
    have hi : i < n := by have := (List.getElem?_eq_some_iff.1 hc).1; simpa using this
    have hl : ((List.range n).map fun v => (v, v)).length = n := by simp
    rw [hl] at hc'
    simp only [List.getElem?_map, List.getElem?_range hi, Option.map_some, Option.some.injEq] at hc
    simp only [List.getElem?_map, List.getElem?_range (hmod i), Option.map_some, Option.some.injEq] at hc'
    subst hc hc'
    exact ⟨by show i < _; omega, _, extEdges_bottom hi, Or.inl rfl⟩
  · intro i c c' hc hc'
    have hi : i < n := by have := (List.getElem?_eq_some_iff.1 hc).1; simpa using this
    have hl : ((List.range n).map fun v => (n + v, n + v)).length = n := by simp
    rw [hl] at hc'
    simp only [List.getElem?_map, List.getElem?_range hi, Option.map_some, Option.some.injEq] at hc
    simp only [List.getElem?_map, List.getElem?_range (hmod i), Option.map_some, Option.some.injEq] at hc'
    subst hc hc'
    exact ⟨by show n + i < _; omega, _, extEdges_top hi, Or.inl rfl⟩
  · intro i c c' hc hc'
    have hi : i < 4 := by have := (List.getElem?_eq_some_iff.1 hc).1; simpa [extSide] using this
    have hm := hmod v
    have hi' : i = 0 ∨ i = 1 ∨ i = 2 ∨ i = 3 := by omega
    rcases hi' with rfl | rfl | rfl | rfl
    · obtain rfl := Option.some.inj hc
      obtain rfl := Option.some.inj hc'
      exact ⟨by show v < _; omega, _, extEdges_bottom hv, Or.inl rfl⟩
    · obtain rfl := Option.some.inj hc
      obtain rfl := Option.some.inj hc'
      exact ⟨by show (v + 1) % n < _; omega, _, extEdges_side hm, Or.inl rfl⟩
    · obtain rfl := Option.some.inj hc
      obtain rfl := Option.some.inj hc'
      exact ⟨by show n + (v + 1) % n < _; omega, _, extEdges_top hv, Or.inr rfl⟩
    · rw [show (3 + 1) % (extSide n v).length = 0 from by simp [extSide]] at hc'
      obtain rfl := Option.some.inj hc
      obtain rfl := Option.some.inj hc'
      exact ⟨by show n + v < _; omega, _, extEdges_side hv, Or.inr rfl⟩

theorem countP_range_eq (n : Nat) (p : Nat → Prop) [DecidablePred p] (e : Nat) (he : e < n) (h : ∀ v, v < n → (p v ↔ v = e)) :
    (List.range n).countP (fun v => decide (p v)) = 1 := by
  have : (List.range n).countP (fun v => decide (p v)) = (List.range n).count e := by
    rw [List.count]
    apply List.countP_congr
    intro v hv
    simp only [decide_eq_true_eq, beq_iff_eq]
    exact h v (List.mem_range.1 hv)
  rw [this, List.count_eq_one_of_mem List.nodup_range (List.mem_range.2 he)]

theorem countP_range_zero (n : Nat) (p : Nat → Prop) [DecidablePred p] (h : ∀ v, v < n → ¬ p v) :
    (List.range n).countP (fun v => decide (p v)) = 0 := by
  rw [List.countP_eq_zero]
  intro v hv
  simpa using h v (List.mem_range.1 hv)

theorem extFaces_sides {n : Nat} (e : Nat) :
    (extFaces n).flatten.countP (fun c => decide (c.2 = e)) =
      (List.range n).countP (fun v => decide (v = e)) + (List.range n).countP (fun v => decide (n + v = e)) +
      ((List.range n).countP (fun v => decide (v = e)) + (List.range n).countP (fun v => decide (2 * n + (v + 1) % n = e)) +
      (List.range n).countP (fun v => decide (n + v = e)) + (List.range n).countP (fun v => decide (2 * n + v = e))) := by
  unfold extFaces
  rw [List.flatten_cons, List.flatten_cons, List.countP_append, List.countP_append, List.countP_map, List.countP_map,
    ← Nat.add_assoc]
  congr 1
  generalize List.range n = R
  induction R with
  | nil => rfl
  | cons v R ih =>
    rw [List.map_cons, List.flatten_cons, List.countP_append, ih]
    simp only [extSide, List.countP_cons, List.countP_nil]
    ring

theorem mod_succ_unique {n w : Nat} (hw : w < n) : ∃ u, u < n ∧ ∀ v, v < n → ((v + 1) % n = w ↔ v = u) := by
  by_cases h : w = 0
  · subst h
    refine ⟨n - 1, by omega, fun v hv => ?_⟩
    constructor
    · intro h'
      by_contra hne
      rw [Nat.mod_eq_of_lt (by omega)] at h'
      omega
    · rintro rfl
      rw [Nat.sub_add_cancel (by omega), Nat.mod_self]
  · refine ⟨w - 1, by omega, fun v hv => ?_⟩
    constructor
    · intro h'
      by_cases h1 : v + 1 < n
      · rw [Nat.mod_eq_of_lt h1] at h'; omega
      · have : v + 1 = n := by omega
        rw [this, Nat.mod_self] at h'; omega
    · rintro rfl
      rw [Nat.mod_eq_of_lt (by omega)]; omega

theorem extFaces_closed {n : Nat} {e : Nat} (he : e < (extEdges n).length) :
    (extFaces n).flatten.countP (fun c => decide (c.2 = e)) = 2 := by
  rw [extFaces_sides]
  rcases extEdges_cases he with ⟨v, hv, hev⟩ | ⟨v, hv, rfl⟩ | ⟨v, hv, rfl⟩
  · subst hev
    rw [countP_range_eq n (fun u => u = e) e hv (fun u _ => Iff.rfl),
      countP_range_zero n (fun u => n + u = e) (fun u _ => by omega),
      countP_range_zero n (fun u => 2 * n + (u + 1) % n = e) (fun u _ => by omega),
      countP_range_zero n (fun u => 2 * n + u = e) (fun u _ => by omega)]
  · rw [countP_range_zero n (fun u => u = n + v) (fun u _ => by omega),
      countP_range_eq n (fun u => n + u = n + v) v hv (fun u _ => by omega),
      countP_range_zero n (fun u => 2 * n + (u + 1) % n = n + v) (fun u _ => by omega),
      countP_range_zero n (fun u => 2 * n + u = n + v) (fun u _ => by omega)]
  · obtain ⟨u, hu, huu⟩ := mod_succ_unique hv
    rw [countP_range_zero n (fun u => u = 2 * n + v) (fun u _ => by omega),
      countP_range_zero n (fun u => n + u = 2 * n + v) (fun u _ => by omega),
      countP_range_eq n (fun w => 2 * n + (w + 1) % n = 2 * n + v) u hu (fun w hw => by rw [← huu w hw]; omega),
      countP_range_eq n (fun u => 2 * n + u = 2 * n + v) v hv (fun u _ => by omega)]

/-! ### Facets -/

section keys

variable {α : Type} [DecidableEq α]

theorem mem_insertKey {keys : List α} {k x : α} : x ∈ insertKey keys k ↔ x ∈ keys ∨ x = k := by
  unfold insertKey
  split
  · rename_i h
    constructor
    · exact Or.inl
    · rintro (h' | rfl)
      · exact h'
      · exact h
  · simp

def keysOf (l : List α) : List α := l.foldl insertKey []

theorem keysOf_append_single (l : List α) (x : α) : keysOf (l ++ [x]) = insertKey (keysOf l) x := by
  simp [keysOf]

theorem keysOf_spec (l : List α) : (keysOf l).Nodup ∧ (∀ x, x ∈ keysOf l ↔ x ∈ l) ∧
    (keysOf l).Pairwise fun a b => l.idxOf a < l.idxOf b := by
  induction l using List.reverseRecOn with
  | nil => simp [keysOf]
  | append_singleton l x ih =>
    obtain ⟨h1, h2, h3⟩ := ih
    rw [keysOf_append_single]
    have hP : (keysOf l).Pairwise fun a b => (l ++ [x]).idxOf a < (l ++ [x]).idxOf b := by
      refine h3.imp_of_mem fun {a b} ha hb h => ?_
      rw [List.idxOf_append_of_mem ((h2 a).1 ha), List.idxOf_append_of_mem ((h2 b).1 hb)]
      exact h
    refine ⟨?_, fun y => ?_, ?_⟩
    · unfold insertKey
      split
      · exact h1
      · rename_i h
        rw [List.nodup_append]
        refine ⟨h1, by simp, ?_⟩
        rintro a ha b hb rfl
        rw [List.mem_singleton] at hb
        exact h (hb ▸ ha)
    · rw [mem_insertKey, h2, List.mem_append, List.mem_singleton]
    · unfold insertKey
      split
      · exact hP
      · rename_i h
        rw [List.pairwise_append]
        refine ⟨hP, by simp, ?_⟩
        intro a ha b hb
        rw [List.mem_singleton] at hb
        subst hb
        rw [List.idxOf_append_of_mem ((h2 a).1 ha), List.idxOf_append_of_notMem (fun hx => h ((h2 b).2 hx))]
        have := List.idxOf_lt_length_of_mem ((h2 a).1 ha)
        omega

def keyIdx (keys : List α) (k : α) : Nat := keys.idxOf k

theorem keyIdx_nat (keys : List Nat) (k : Nat) : keyIdx keys k = keys.idxOf k := rfl

theorem atKey_of_mem {keys : List α} {k : α} (h : k ∈ keys) : atKey keys k = ok (keyIdx keys k) := by
  unfold atKey
  rw [if_pos h]
  rfl

theorem getElem?_idxOf_of_mem {keys : List α} {k : α} (h : k ∈ keys) : keys[keyIdx keys k]? = some k := by
  unfold keyIdx
  rw [List.getElem?_eq_getElem (List.idxOf_lt_length_of_mem h), List.getElem_idxOf]

theorem idxOf_inj_of_mem {keys : List α} {a b : α} (ha : a ∈ keys) (hb : b ∈ keys)
    (h : keyIdx keys a = keyIdx keys b) : a = b := by
  have := getElem?_idxOf_of_mem ha
  rw [h, getElem?_idxOf_of_mem hb] at this
  exact (Option.some.inj this).symm

theorem keyIdx_getElem? {keys : List α} (hn : keys.Nodup) {i : Nat} {k : α} (h : keys[i]? = some k) :
    keyIdx keys k = i := by
  obtain ⟨hi, rfl⟩ := List.getElem?_eq_some_iff.1 h
  exact hn.idxOf_getElem i hi

end keys

theorem facetsToVertices_eq (facets : List (List Nat)) : facetsToVertices facets = keysOf facets.flatten := by
  unfold facetsToVertices keysOf
  rw [List.foldl_flatten]

def sideAt (facet : List Nat) (v : Nat) : Nat × Nat :=
  (min (facet.getD v 0) (facet.getD ((v + 1) % facet.length) 0),
   max (facet.getD v 0) (facet.getD ((v + 1) % facet.length) 0))

theorem nat_getElem?_getD {l : List Nat} {i : Nat} (h : i < l.length) : l[i]? = some (l.getD i 0) := by
  rw [List.getD_eq_getElem?_getD, List.getElem?_eq_getElem h]; rfl

theorem nat_vget_getD {l : List Nat} {i : Nat} (h : i < l.length) : vget l i = ok (l.getD i 0) := by
  unfold vget; rw [nat_getElem?_getD h]

theorem facetSide_eq {facet : List Nat} {v : Nat} (h : v < facet.length) : facetSide facet v = ok (sideAt facet v) := by
  unfold facetSide
  rw [nat_vget_getD h, ok_bind, nat_vget_getD (Nat.mod_lt _ (by omega)), ok_bind]
  rfl

def sidesOf (facet : List Nat) : List (Nat × Nat) := (List.range facet.length).map (sideAt facet)

theorem foldRes_pure {σ β : Type} {f : σ → β → Res σ} {g : σ → β → σ} (l : List β) (h : ∀ s, ∀ x ∈ l, f s x = ok (g s x))
    (s : σ) : foldRes f s l = ok (l.foldl g s) := by
  induction l generalizing s with
  | nil => rfl
  | cons x l ih =>
    rw [foldRes_cons, h s x (by simp), ok_bind, ih (fun s y hy => h s y (by simp [hy]))]
    rfl

theorem facetsToEdges_eq (facets : List (List Nat)) :
    facetsToEdges facets = ok (keysOf (facets.map sidesOf).flatten) := by
  unfold facetsToEdges keysOf
  rw [List.foldl_flatten, List.foldl_map]
  apply foldRes_pure
  intro s facet _
  unfold sidesOf
  rw [List.foldl_map]
  apply foldRes_pure
  intro s v hv
  rw [facetSide_eq (List.mem_range.1 hv), ok_bind]

def facetFace (ids : List Nat) (sides : List (Nat × Nat)) (facet : List Nat) : List (Nat × Nat) :=
  (List.range facet.length).map fun v => (keyIdx ids (facet.getD v 0), keyIdx sides (sideAt facet v))

theorem mem_sides {facets : List (List Nat)} {facet : List Nat} {v : Nat} (hf : facet ∈ facets) (hv : v < facet.length) :
    sideAt facet v ∈ keysOf (facets.map sidesOf).flatten := by
  rw [(keysOf_spec _).2.1]
  exact List.mem_flatten.2 ⟨sidesOf facet, List.mem_map_of_mem hf, List.mem_map_of_mem (List.mem_range.2 hv)⟩

theorem mem_ids {facets : List (List Nat)} {facet : List Nat} {v : Nat} (hf : facet ∈ facets) (hv : v < facet.length) :
    facet.getD v 0 ∈ keysOf facets.flatten := by
  rw [(keysOf_spec _).2.1]
  refine List.mem_flatten.2 ⟨facet, hf, ?_⟩
  exact List.mem_of_getElem? (nat_getElem?_getD hv)

theorem side_mem {facets : List (List Nat)} {side : Nat × Nat} (h : side ∈ keysOf (facets.map sidesOf).flatten) :
    ∃ facet ∈ facets, ∃ v, v < facet.length ∧ side = sideAt facet v := by
  rw [(keysOf_spec _).2.1] at h
  obtain ⟨l, hl, hs⟩ := List.mem_flatten.1 h
  obtain ⟨facet, hf, rfl⟩ := List.mem_map.1 hl
  obtain ⟨v, hv, rfl⟩ := List.mem_map.1 hs
  exact ⟨facet, hf, v, List.mem_range.1 hv, rfl⟩

theorem side_ends {facets : List (List Nat)} {side : Nat × Nat} (h : side ∈ keysOf (facets.map sidesOf).flatten) :
    side.1 ∈ keysOf facets.flatten ∧ side.2 ∈ keysOf facets.flatten := by
  obtain ⟨facet, hf, v, hv, rfl⟩ := side_mem h
  have h1 := mem_ids hf hv
  have h2 := mem_ids (v := (v + 1) % facet.length) hf (Nat.mod_lt _ (by omega))
  unfold sideAt
  constructor
  · show min _ _ ∈ _
    rcases min_choice (facet.getD v 0) (facet.getD ((v + 1) % facet.length) 0) with e | e <;> rw [e] <;> assumption
  · show max _ _ ∈ _
    rcases max_choice (facet.getD v 0) (facet.getD ((v + 1) % facet.length) 0) with e | e <;> rw [e] <;> assumption

theorem facetsToPolyhedron_eq (points : List (V3 K)) (facets : List (List Nat)) {vertices : List (V3 K)}
    (hv : (keysOf facets.flatten).map (fun i => points[i]?) = vertices.map some) :
    facetsToPolyhedron points facets = ok ⟨vertices,
      (keysOf (facets.map sidesOf).flatten).map (fun side => (keyIdx (keysOf facets.flatten) side.1,
        keyIdx (keysOf facets.flatten) side.2)),
      facets.map (facetFace (keysOf facets.flatten) (keysOf (facets.map sidesOf).flatten))⟩ := by
  unfold facetsToPolyhedron
  simp only
  rw [facetsToVertices_eq, extractPoints_eq _ _ _ hv, ok_bind, facetsToEdges_eq, ok_bind]
  have e1 : ∀ facet ∈ facets, mapRes (fun v => do
      let id ← vget facet v
      let side ← facetSide facet v
      let a ← atKey (keysOf facets.flatten) id
      let e ← atKey (keysOf (facets.map sidesOf).flatten) side
      ok (a, e)) (List.range facet.length) =
      ok (facetFace (keysOf facets.flatten) (keysOf (facets.map sidesOf).flatten) facet) := by
    intro facet hf
    apply mapRes_eq_map
    intro v hv
    have hv := List.mem_range.1 hv
    rw [nat_vget_getD hv, ok_bind, facetSide_eq hv, ok_bind, atKey_of_mem (mem_ids hf hv), ok_bind,
      atKey_of_mem (mem_sides hf hv), ok_bind]
  rw [mapRes_eq_map e1, ok_bind]
  have e2 : ∀ side ∈ keysOf (facets.map sidesOf).flatten, (do
      let a ← atKey (keysOf facets.flatten) side.1
      let b ← atKey (keysOf facets.flatten) side.2
      ok (a, b)) = ok (keyIdx (keysOf facets.flatten) side.1, keyIdx (keysOf facets.flatten) side.2) := by
    intro side hs
    rw [atKey_of_mem (side_ends hs).1, ok_bind, atKey_of_mem (side_ends hs).2, ok_bind]
  rw [mapRes_eq_map e2, ok_bind]

theorem sideAt_eq_iff {facet : List Nat} {v a b : Nat} (hv : v < facet.length) (hab : a ≤ b) :
    sideAt facet v = (a, b) ↔ (facet[v]? = some a ∧ facet[(v + 1) % facet.length]? = some b ∨
      facet[v]? = some b ∧ facet[(v + 1) % facet.length]? = some a) := by
  rw [nat_getElem?_getD hv, nat_getElem?_getD (Nat.mod_lt _ (by omega) : (v + 1) % facet.length < facet.length)]
  unfold sideAt
  generalize facet.getD v 0 = x
  generalize facet.getD ((v + 1) % facet.length) 0 = y
  simp only [Prod.mk.injEq, Option.some.injEq]
  omega

theorem sideAt_le (facet : List Nat) (v : Nat) : (sideAt facet v).1 ≤ (sideAt facet v).2 := by
  unfold sideAt
  show min _ _ ≤ max _ _
  omega

theorem faces_sides {facets : List (List Nat)} {ids : List Nat} {sides : List (Nat × Nat)} (hs : sides.Nodup)
    (hm : ∀ facet ∈ facets, ∀ v, v < facet.length → sideAt facet v ∈ sides) {e : Nat} {side : Nat × Nat}
    (he : sides[e]? = some side) (hle : side.1 ≤ side.2) :
    ((facets.map (facetFace ids sides)).flatten.countP fun c => decide (c.2 = e)) = facetSides facets side.1 side.2 := by
  unfold facetSides
  induction facets with
  | nil => rfl
  | cons facet facets ih =>
    rw [List.map_cons, List.flatten_cons, List.countP_append, ih (fun f hf => hm f (by simp [hf])), List.map_cons,
      List.sum_cons]
    congr 1
    unfold facetFace
    rw [List.countP_map]
    apply List.countP_congr
    intro v hv
    have hv := List.mem_range.1 hv
    have hmem := hm facet (by simp) v hv
    simp only [Function.comp, decide_eq_true_eq]
    rw [← sideAt_eq_iff hv hle]
    constructor
    · rintro rfl
      rw [getElem?_idxOf_of_mem hmem] at he
      exact Option.some.inj he
    · intro h
      rw [h]
      exact keyIdx_getElem? hs he

theorem keysOf_numbered {facets : List (List Nat)} (h : Numbered facets) :
    keysOf facets.flatten = List.range (keysOf facets.flatten).length := by
  obtain ⟨h1, h2, h3⟩ := keysOf_spec facets.flatten
  have hs : (keysOf facets.flatten).Pairwise (· < ·) := by
    refine h3.imp_of_mem fun {a b} ha hb hab => ?_
    by_contra hle
    rcases Nat.lt_or_eq_of_le (Nat.le_of_not_lt hle) with hlt | rfl
    · have := (h a ((h2 a).1 ha) b hlt).2
      omega
    · omega
  have hd : ∀ k ∈ keysOf facets.flatten, ∀ j, j < k → j ∈ keysOf facets.flatten := fun k hk j hj =>
    (h2 j).2 (h k ((h2 k).1 hk) j hj).1
  revert hs hd
  generalize keysOf facets.flatten = l
  intro hs hd
  have key : ∀ (l : List Nat), l.Pairwise (· < ·) → (∀ k ∈ l, ∀ j, j < k → j ∈ l) → l = List.range l.length := by
    intro l
    induction l using List.reverseRecOn with
    | nil => intros; rfl
    | append_singleton l x ih =>
      intro hs hd
      rw [List.pairwise_append] at hs
      have hx : ∀ a ∈ l, a < x := fun a ha => hs.2.2 a ha x (by simp)
      have hd' : ∀ k ∈ l, ∀ j, j < k → j ∈ l := by
        intro k hk j hj
        have := hd k (by simp [hk]) j hj
        rw [List.mem_append, List.mem_singleton] at this
        rcases this with h | rfl
        · exact h
        · have := hx k hk; omega
      have e := ih hs.1 hd'
      have hxl : x = l.length := by
        have h1 : ∀ j, j < x → j < l.length := by
          intro j hj
          have := hd x (by simp) j hj
          rw [List.mem_append, List.mem_singleton] at this
          rcases this with h | rfl
          · rw [e] at h; exact List.mem_range.1 h
          · omega
        by_contra hne
        rcases Nat.lt_or_gt_of_ne hne with hlt | hgt
        · have := hx x (by rw [e]; exact List.mem_range.2 hlt)
          omega
        · exact absurd (h1 l.length hgt) (by omega)
      rw [List.length_append, List.length_singleton, List.range_succ, ← e, hxl]
  exact key l hs hd

theorem extractPoints_ub {α : Type} (ps : List α) (l : List Nat) (h : ∃ i ∈ l, ps.length ≤ i) :
    extractPoints ps l = ub := by
  induction l with
  | nil => simp at h
  | cons i l ih =>
    unfold extractPoints
    by_cases hi : i < ps.length
    · rw [vget_of_lt hi, ok_bind, ih]
      · rfl
      · obtain ⟨j, hj, hj'⟩ := h
        rcases List.mem_cons.1 hj with rfl | hj
        · omega
        · exact ⟨j, hj, hj'⟩
    · have : vget ps i = ub := by
        unfold vget
        rw [List.getElem?_eq_none (by omega)]
      rw [this]; rfl

/-! ### Orientation of the faces -/

theorem mapRes_map_pure {α β γ : Type} {f : β → Res γ} {g : α → β} {k : α → γ} {l : List α}
    (h : ∀ x ∈ l, f (g x) = ok (k x)) : mapRes f (l.map g) = ok (l.map k) := by
  induction l with
  | nil => rfl
  | cons x l ih =>
    rw [List.map_cons, mapRes, h x (by simp), ok_bind, ih (fun y hy => h y (by simp [hy])), ok_bind]
    rfl

theorem changeFaceOrientation_eq {face : List (Nat × Nat)} (h : 0 < face.length) :
    ∃ r, changeFaceOrientation face = ok r ∧ r.length = face.length ∧
      ∀ i c, r[i]? = some c → ∃ x y, face[(face.length - i) % face.length]? = some (c.1, x) ∧
        face[face.length - 1 - i]? = some (y, c.2) := by
  set n := face.length with hn
  have hord : changePolygonOrientation n = ok ((List.range n).map fun i => (n - i) % n) := by
    rw [changePolygonOrientation_eq n h]
    congr 1
    apply List.ext_getElem?
    intro i
    cases i with
    | zero => simp [h]
    | succ i =>
      by_cases hi : i + 1 < n
      · rw [List.getElem?_cons_succ, List.getElem?_map, List.getElem?_map, List.getElem?_range hi,
          List.getElem?_range' (by omega)]
        simp only [Option.map_some, Option.some.injEq]
        rw [Nat.mod_eq_of_lt (by omega)]
        omega
      · rw [List.getElem?_eq_none (by simp; omega), List.getElem?_eq_none (by simp; omega)]
  set d : Nat × Nat := (0, 0) with hd
  have hget : ∀ i, i < n → face[i]? = some (face.getD i d) := fun i hi => by
    rw [List.getD_eq_getElem?_getD, List.getElem?_eq_getElem hi]; rfl
  refine ⟨(List.range n).map fun i => ((face.getD ((n - i) % n) d).1, (face.getD (n - 1 - i) d).2), ?_, by simp, ?_⟩
  · unfold changeFaceOrientation
    simp only
    rw [← hn, hord, ok_bind]
    rw [mapRes_map_pure (k := fun i => ((face.getD ((n - i) % n) d).1, (face.getD (n - 1 - i) d).2))]
    intro i hi
    have hi := List.mem_range.1 hi
    have e1 : vget face ((n - i) % n) = ok (face.getD ((n - i) % n) d) := by
      unfold vget; rw [hget _ (Nat.mod_lt _ h)]
    have e2 : (if (n - i) % n = 0 then n - 1 else (n - i) % n - 1) = n - 1 - i := by
      by_cases h0 : i = 0
      · subst h0; simp
      · rw [Nat.mod_eq_of_lt (by omega), if_neg (by omega)]; omega
    have e3 : vget face (n - 1 - i) = ok (face.getD (n - 1 - i) d) := by
      unfold vget; rw [hget _ (by omega)]
    rw [e2, e1, ok_bind, e3, ok_bind]
  · intro i c hc
    have hi : i < n := by have := (List.getElem?_eq_some_iff.1 hc).1; simpa using this
    rw [List.getElem?_map, List.getElem?_range hi] at hc
    obtain rfl := Option.some.inj hc
    exact ⟨_, _, hget _ (Nat.mod_lt _ h), hget _ (by omega)⟩

theorem coordinateLoop_eq (edges : List (Nat × Nat)) (found : List Nat) (h : found.length < 3) :
    coordinateLoop edges found = (found ++ (edges.filter fun e => decide (e.1 = 0 ∨ e.2 = 0)).map
      fun e => if e.1 = 0 then e.2 else e.1).take 3 := by
  induction edges generalizing found with
  | nil => simp [coordinateLoop, List.take_of_length_le (Nat.le_of_lt h)]
  | cons e edges ih =>
    unfold coordinateLoop
    by_cases he : e.1 = 0 ∨ e.2 = 0
    · simp only [if_pos he, List.filter_cons, decide_eq_true_eq, List.map_cons]
      generalize (if e.1 = 0 then e.2 else e.1) = x
      by_cases h3 : (found ++ [x]).length = 3
      · rw [if_pos h3]
        have e3 : ∀ M : List Nat, found ++ x :: M = (found ++ [x]) ++ M := fun M => by simp
        conv_rhs => rw [e3]
        rw [List.take_append_of_le_length (by omega), List.take_of_length_le (by omega)]
      · rw [if_neg h3, ih _ (by simp only [List.length_append, List.length_singleton] at h3 ⊢; omega)]
        simp
    · simp only [if_neg he, List.filter_cons, decide_eq_true_eq]
      rw [if_neg (by omega), ih _ h]

end Verif
