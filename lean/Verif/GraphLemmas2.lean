import Verif.GraphLemmas
import Mathlib.Tactic.Push

/-
Helper lemmas: pushes into vectors of lists, transpose, components, breadth-first search.
-/
namespace Verif

open Res Relation

/-! ### Pushes -/

theorem pushBack_eq {α : Type} {adj : List (List α)} {i : Nat} (x : α) (hi : i < adj.length) :
    pushBack adj i x = ok (adj.set i (adj[i] ++ [x])) := by
  unfold pushBack
  rw [vget_of_lt hi, ok_bind, vset_of_lt _ hi]

/-- The effect of a sequence of pushes `(position, value)`. -/
def pushed {α : Type} (adj : List (List α)) (ps : List (Nat × α)) : List (List α) :=
  adj.mapIdx fun i r => r ++ (ps.filter fun p => p.1 == i).map (·.2)

@[simp] theorem length_pushed {α : Type} (adj : List (List α)) (ps : List (Nat × α)) :
    (pushed adj ps).length = adj.length := by simp [pushed]

theorem pushed_nil {α : Type} (adj : List (List α)) : pushed adj [] = adj := by
  apply List.ext_getElem <;> simp [pushed]

theorem pushed_cons {α : Type} (adj : List (List α)) (p : Nat × α) (ps : List (Nat × α))
    (hp : p.1 < adj.length) :
    pushed (adj.set p.1 (adj[p.1] ++ [p.2])) ps = pushed adj (p :: ps) := by
  apply List.ext_getElem
  · simp
  · intro i h1 h2
    simp only [pushed, List.getElem_mapIdx, List.getElem_set, List.filter_cons]
    by_cases h : p.1 = i
    · subst h; simp
    · simp [h]

theorem pushAll_eq {α : Type} (ps : List (Nat × α)) : ∀ adj : List (List α),
    (∀ p ∈ ps, p.1 < adj.length) →
    foldRes (fun adj p => pushBack adj p.1 p.2) adj ps = ok (pushed adj ps) := by
  induction ps with
  | nil => intro adj _; rw [foldRes_nil, pushed_nil]
  | cons p ps ih =>
    intro adj h
    have hp := h p (by simp)
    rw [foldRes_cons, pushBack_eq _ hp, ok_bind, ih _ (fun q hq => by
      simpa using h q (by simp [hq])), pushed_cons _ _ _ hp]

theorem pushed_replicate {α : Type} (n : Nat) (ps : List (Nat × α)) (i : Nat) (hi : i < n) :
    (pushed (List.replicate n []) ps)[i]? = some ((ps.filter fun p => p.1 == i).map (·.2)) := by
  rw [List.getElem?_eq_getElem (by simpa using hi)]
  simp [pushed]

theorem foldRes_map {σ β γ : Type} (f : σ → γ → Res σ) (g : β → γ) (s : σ) (xs : List β) :
    foldRes f s (xs.map g) = foldRes (fun s x => f s (g x)) s xs := by
  induction xs generalizing s with
  | nil => rfl
  | cons x xs ih =>
    simp only [List.map_cons, foldRes_cons]
    cases f s (g x) <;> simp [ih]

theorem foldRes_flatMap {σ β γ : Type} (f : σ → γ → Res σ) (g : β → List γ) (s : σ)
    (xs : List β) :
    foldRes f s (xs.flatMap g) = foldRes (fun s x => foldRes f s (g x)) s xs := by
  induction xs generalizing s with
  | nil => rfl
  | cons x xs ih =>
    simp only [List.flatMap_cons, foldRes_append, foldRes_cons]
    cases foldRes f s (g x) <;> simp [ih]

theorem foldRes_congr {σ β : Type} {f g : σ → β → Res σ} (xs : List β) :
    ∀ s, (∀ s, ∀ x ∈ xs, f s x = g s x) → foldRes f s xs = foldRes g s xs := by
  induction xs with
  | nil => intros; rfl
  | cons x xs ih =>
    intro s h
    rw [foldRes_cons, foldRes_cons, h s x (by simp)]
    cases g s x <;> simp
    exact ih _ fun s y hy => h s y (by simp [hy])

theorem foldRes_filterMap {σ β γ : Type} (f : σ → γ → Res σ) (g : β → Option γ) (s : σ)
    (xs : List β) :
    foldRes f s (xs.filterMap g) =
      foldRes (fun s x => match g x with | none => ok s | some y => f s y) s xs := by
  induction xs generalizing s with
  | nil => rfl
  | cons x xs ih =>
    rw [List.filterMap_cons, foldRes_cons]
    cases hg : g x with
    | none => simp [ih]
    | some y => simp only [foldRes_cons]; cases f s y <;> simp [ih]

/-- A loop over the vertices that reads each row of the graph. -/
theorem foldRes_rows {σ : Type} (G : Graph) (f : Nat → σ → Nat → Res σ) (s : σ) :
    foldRes (fun s v => do
        let row ← vget G v
        foldRes (f v) s row) s (List.range G.length) =
      foldRes (fun s (p : Nat × Nat) => f p.1 s p.2) s
        ((List.range G.length).flatMap fun v => ((G[v]?).getD []).map fun w => (v, w)) := by
  rw [foldRes_flatMap]
  apply foldRes_congr
  intro s v hv
  have hv := List.mem_range.1 hv
  rw [vget_of_lt hv, ok_bind, foldRes_map]
  simp [hv]

/-- All edges of a graph, by rows. -/
def edgeList (G : Graph) : List (Nat × Nat) :=
  (List.range G.length).flatMap fun v => ((G[v]?).getD []).map fun w => (v, w)

theorem mem_edgeList {G : Graph} {v w : Nat} : (v, w) ∈ edgeList G ↔ Edge G v w := by
  unfold edgeList Edge
  simp only [List.mem_flatMap, List.mem_range, List.mem_map, Prod.mk.injEq]
  constructor
  · rintro ⟨u, hu, x, hx, rfl, rfl⟩
    exact ⟨G[u], by simp [hu], by simpa [hu] using hx⟩
  · rintro ⟨row, hrow, hw⟩
    obtain ⟨hv, _⟩ := List.getElem?_eq_some_iff.1 hrow
    exact ⟨v, hv, w, by simpa [hrow] using hw, rfl, rfl⟩

theorem Edge.lt_left {G : Graph} {v w : Nat} (h : Edge G v w) : v < G.length := by
  obtain ⟨row, hrow, _⟩ := h
  exact (List.getElem?_eq_some_iff.1 hrow).1

theorem edge_iff_mult {G : Graph} {v w : Nat} : Edge G v w ↔ 0 < mult G v w := by
  unfold Edge mult
  rw [List.count_pos_iff]
  cases h : G[v]? <;> simp

theorem mult_of_ge {G : Graph} {v w : Nat} (h : G.length ≤ v) : mult G v w = 0 := by
  simp [mult, List.getElem?_eq_none h]

theorem count_map_pair (v u w : Nat) (l : List Nat) :
    (l.map fun x => (v, x)).count (u, w) = if v = u then l.count w else 0 := by
  induction l with
  | nil => simp
  | cons x l ih =>
    simp only [List.map_cons, List.count_cons, ih]
    by_cases h : v = u <;> simp [h]

theorem count_flatMap_range (f : Nat → List (Nat × Nat)) (x : Nat × Nat) (n : Nat)
    (h : ∀ v, v ≠ x.1 → (f v).count x = 0) :
    ((List.range n).flatMap f).count x = if x.1 < n then (f x.1).count x else 0 := by
  induction n with
  | zero => simp
  | succ n ih =>
    rw [List.range_succ, List.flatMap_append, List.count_append, ih]
    simp only [List.flatMap_cons, List.flatMap_nil, List.append_nil]
    by_cases hx : x.1 = n
    · subst hx; simp
    · rw [h n (fun h => hx h.symm)]
      by_cases hlt : x.1 < n
      · simp [hlt, show x.1 < n + 1 by omega]
      · simp [hlt, show ¬ x.1 < n + 1 by omega]

theorem count_edgeList (G : Graph) (u w : Nat) : (edgeList G).count (u, w) = mult G u w := by
  unfold edgeList
  rw [count_flatMap_range _ (u, w) _ (fun v hv => by rw [count_map_pair]; simp_all)]
  rw [count_map_pair]
  by_cases h : u < G.length
  · simp [h, mult]
  · simp [h, mult, List.getElem?_eq_none (Nat.le_of_not_lt h)]

/-- The pushes `(i, x)` for position `i` hold `x` as often as the pair occurs. -/
theorem count_pushes (ps : List (Nat × Nat)) (i x : Nat) :
    ((ps.filter fun p => p.1 == i).map (·.2)).count x = ps.count (i, x) := by
  induction ps with
  | nil => simp
  | cons p ps ih =>
    obtain ⟨a, b⟩ := p
    by_cases h : a = i
    · subst h; simp [List.count_cons, ih]
    · simp [List.count_cons, ih, h]

/-! ### Transpose -/

theorem transpose_eq {G : Graph} (hG : G.InRange) :
    adjacencyTranspose G = ok (pushed (List.replicate G.length [])
      ((edgeList G).map fun p => (p.2, p.1))) := by
  unfold adjacencyTranspose
  have := foldRes_rows G (fun v adj w => pushBack adj w v) (List.replicate G.length [])
  rw [this, ← pushAll_eq, foldRes_map]
  · rfl
  · intro p hp
    obtain ⟨⟨u, w⟩, hq, rfl⟩ := List.mem_map.1 hp
    simpa using hG u w (mem_edgeList.1 hq)

theorem transpose_mult {G T : Graph} (hG : G.InRange) (hT : adjacencyTranspose G = ok T) :
    T.length = G.length ∧ ∀ u w, mult T w u = mult G u w := by
  rw [transpose_eq hG] at hT
  cases hT
  refine ⟨by simp, fun u w => ?_⟩
  by_cases hw : w < G.length
  · have hc : ∀ l : List (Nat × Nat), (l.map fun p => (p.2, p.1)).count (w, u) = l.count (u, w) := by
      intro l
      induction l with
      | nil => simp
      | cons p l ih =>
        obtain ⟨a, b⟩ := p
        simp only [List.map_cons, List.count_cons, ih]
        congr 1
        simp [and_comm]
    rw [mult, pushed_replicate _ _ _ hw, Option.getD_some, count_pushes, hc, count_edgeList]
  · rw [mult_of_ge (by simpa using hw)]
    by_contra h
    exact hw (hG u w (edge_iff_mult.2 (by omega)))

theorem transpose_inRange {G T : Graph} (hG : G.InRange) (hT : adjacencyTranspose G = ok T) :
    T.InRange ∧ ∀ u w, Edge T w u ↔ Edge G u w := by
  obtain ⟨hl, hm⟩ := transpose_mult hG hT
  have he : ∀ u w, Edge T w u ↔ Edge G u w := fun u w => by
    rw [edge_iff_mult, edge_iff_mult, hm]
  exact ⟨fun u w h => by rw [hl]; exact ((he w u).1 h).lt_left, he⟩

/-! ### Strongly connected components -/

/-- Each of the two vertices is reachable from the other. -/
def Strong (G : Graph) (u w : Nat) : Prop := Reach G u w ∧ Reach G w u

theorem Strong.refl (G : Graph) (u : Nat) : Strong G u u := ⟨ReflTransGen.refl, ReflTransGen.refl⟩
theorem Strong.symm {G : Graph} {u w : Nat} (h : Strong G u w) : Strong G w u := ⟨h.2, h.1⟩
theorem Strong.trans {G : Graph} {u w x : Nat} (h : Strong G u w) (h' : Strong G w x) :
    Strong G u x := ⟨ReflTransGen.trans h.1 h'.1, ReflTransGen.trans h'.2 h.2⟩

/-- State of the second pass after the vertices `A` have been popped. -/
structure SccInv (G : Graph) (A : List Nat) (s : List Bool × List (List Nat)) : Prop where
  length : s.1.length = G.length
  vis : ∀ w, Vis s.1 w ↔ ∃ a ∈ A, Strong G a w
  nodup : s.2.flatten.Nodup
  mem : ∀ w, w ∈ s.2.flatten ↔ Vis s.1 w
  comp : ∀ c ∈ s.2, c ≠ [] ∧ ∀ u ∈ c, ∀ w, w ∈ c ↔ Strong G u w

theorem reach_transpose {G T : Graph} (he : ∀ u w, Edge T w u ↔ Edge G u w) {S : Nat → Prop}
    {v w : Nat} (hv : ¬ S v) (h : ReachAvoid T S v w) :
    ReflTransGen (fun a b => Edge G a b ∧ ¬ S a) w v := by
  induction h with
  | refl => exact ReflTransGen.refl
  | @tail b c _ hbc ih => exact ReflTransGen.head ⟨(he c b).1 hbc.1, hbc.2⟩ ih

theorem transpose_reach {G T : Graph} (he : ∀ u w, Edge T w u ↔ Edge G u w) {S : Nat → Prop}
    (hS : ∀ a b, Strong G a b → S a → S b) {v w : Nat} (hv : ¬ S v) (hw : Reach G w v)
    (hvw : Reach G v w) : ReachAvoid T S v w := by
  induction hw using ReflTransGen.head_induction_on with
  | refl => exact ReflTransGen.refl
  | @head a b hab hbv ih =>
    have hvb : Reach G v b := ReflTransGen.tail hvw hab
    refine ReflTransGen.tail (ih hvb) ⟨(he a b).2 hab, fun ha => hv (hS a v ⟨?_, hvw⟩ ha)⟩
    exact ReflTransGen.head hab hbv

theorem sccStep_spec {G T : Graph} (hlen : T.length = G.length) (hTr : T.InRange)
    (he : ∀ u w, Edge T w u ↔ Edge G u w) {fuel : Nat} (hf : G.length ≤ fuel)
    {P A B : List Nat} {v : Nat} (hP : P = A ++ v :: B) (hFin : Finish G P)
    (hmem : ∀ w, w ∈ P ↔ w < G.length) {s : List Bool × List (List Nat)} (h : SccInv G A s) :
    ∃ s', sccStep T fuel s v = ok s' ∧ SccInv G (A ++ [v]) s' := by
  have hv : v < G.length := (hmem v).1 (by rw [hP]; simp)
  unfold sccStep
  by_cases hvis : Vis s.1 v
  · refine ⟨s, by rw [vget_vis hvis]; rfl, h.length, fun w => ?_, h.nodup, h.mem, h.comp⟩
    rw [h.vis]
    constructor
    · rintro ⟨a, ha, hs⟩; exact ⟨a, by simp [ha], hs⟩
    · rintro ⟨a, ha, hs⟩
      rcases List.mem_append.1 ha with ha | ha
      · exact ⟨a, ha, hs⟩
      · simp only [List.mem_singleton] at ha
        subst ha
        obtain ⟨b, hb, hs'⟩ := (h.vis a).1 hvis
        exact ⟨b, hb, hs'.trans hs⟩
  · obtain ⟨vis', L, hd, hS⟩ := dfs_spec hTr fuel ⟨s.1, []⟩ v (by simp [h.length, hlen])
      (by omega) hvis (by
        have := List.count_le_length (a := false) (l := s.1)
        have := h.length
        simp only; omega)
    have hL : ∀ w, w ∈ L ↔ Strong G v w := by
      intro w
      rw [hS.mem]
      constructor
      · intro hw
        have hw1 := reach_transpose he hvis hw
        have hw2 : PathIn G (v :: B) w v := by
          refine ReflTransGen.mono (fun a b hab => ⟨hab.1, ?_⟩) _ _ hw1
          have ha : a ∈ P := (hmem a).2 hab.1.lt_left
          rw [hP, List.mem_append] at ha
          refine ha.resolve_left fun ha => hab.2 ((h.vis a).2 ⟨a, ha, Strong.refl G a⟩)
        exact ⟨hFin A v B hP w hw2, ReflTransGen.mono (fun _ _ h => h.1) _ _ hw1⟩
      · intro hw
        refine transpose_reach he ?_ hvis hw.2 hw.1
        intro a b hab ha
        obtain ⟨c, hc, hs⟩ := (h.vis a).1 ha
        exact (h.vis b).2 ⟨c, hc, hs.trans hab⟩
    refine ⟨(vis', s.2 ++ [L]), ?_, ?_, ?_, ?_, ?_, ?_⟩
    · rw [vget_not_vis (by rw [h.length]; exact hv) hvis]
      simp only [ok_bind, Bool.false_eq_true, if_false, hd]
      simp
    · simpa [hlen] using hS.length
    · intro w
      simp only [hS.vis, h.vis, hL, List.mem_append, List.mem_singleton]
      constructor
      · rintro (⟨a, ha, hs⟩ | hs)
        · exact ⟨a, Or.inl ha, hs⟩
        · exact ⟨v, Or.inr rfl, hs⟩
      · rintro ⟨a, ha | rfl, hs⟩
        · exact Or.inl ⟨a, ha, hs⟩
        · exact Or.inr hs
    · simp only [List.flatten_append, List.flatten_cons, List.flatten_nil, List.append_nil]
      refine List.nodup_append.2 ⟨h.nodup, hS.nodup, ?_⟩
      rintro a ha b hb rfl
      exact hS.fresh a hb ((h.mem a).1 ha)
    · intro w
      simp only [List.flatten_append, List.flatten_cons, List.flatten_nil, List.append_nil,
        List.mem_append, h.mem, hS.vis]
    · intro c hc
      rcases List.mem_append.1 hc with hc | hc
      · exact h.comp c hc
      · simp only [List.mem_singleton] at hc
        subst hc
        refine ⟨List.ne_nil_of_mem ((hL v).2 (Strong.refl G v)), fun u hu w => ?_⟩
        rw [hL]
        have hu := (hL u).1 hu
        exact ⟨fun h => hu.symm.trans h, fun h => hu.trans h⟩

theorem sccLoop_spec {G T : Graph} (hlen : T.length = G.length) (hTr : T.InRange)
    (he : ∀ u w, Edge T w u ↔ Edge G u w) {fuel : Nat} (hf : G.length ≤ fuel)
    {P : List Nat} (hFin : Finish G P) (hmem : ∀ w, w ∈ P ↔ w < G.length) :
    ∀ (B A : List Nat) (s : List Bool × List (List Nat)), P = A ++ B → SccInv G A s →
      ∃ s', foldRes (sccStep T fuel) s B = ok s' ∧ SccInv G P s' := by
  intro B
  induction B with
  | nil => intro A s hP h; exact ⟨s, rfl, by simpa [hP] using h⟩
  | cons v B ih =>
    intro A s hP h
    obtain ⟨s1, h1, hI⟩ := sccStep_spec hlen hTr he hf hP hFin hmem h
    obtain ⟨s2, h2, hI2⟩ := ih (A ++ [v]) s1 (by simp [hP]) hI
    exact ⟨s2, by rw [foldRes_cons, h1]; exact h2, hI2⟩

theorem scc_spec {G : Graph} (hG : G.InRange) {fuel : Nat} (hf : G.length ≤ fuel) :
    ∃ comps, stronglyConnectedComponents G fuel = ok comps ∧ comps.flatten.Nodup ∧
      (∀ w, w ∈ comps.flatten ↔ w < G.length) ∧
      ∀ c ∈ comps, c ≠ [] ∧ ∀ u ∈ c, ∀ w, w ∈ c ↔ Strong G u w := by
  have hcount : (List.replicate G.length false).count false ≤ fuel := by simpa using hf
  obtain ⟨vis', P, hfill, hFin, hS⟩ := fill_list fuel (fill_spec hG fuel) (List.range G.length)
    ⟨List.replicate G.length false, []⟩ (by simp) (by simp) hcount
  have hmem : ∀ w, w ∈ P ↔ w < G.length := by
    intro w
    rw [hS.mem]
    constructor
    · rintro ⟨x, hx, _, h⟩
      exact Reach.lt hG (List.mem_range.1 hx) h.reach
    · intro hw
      exact ⟨w, List.mem_range.2 hw, vis_replicate _ _, ReflTransGen.refl⟩
  obtain ⟨T, hT⟩ : ∃ T, adjacencyTranspose G = ok T := ⟨_, transpose_eq hG⟩
  obtain ⟨hlen, _⟩ := transpose_mult hG hT
  obtain ⟨hTr, he⟩ := transpose_inRange hG hT
  obtain ⟨s, hs, hI⟩ := sccLoop_spec hlen hTr he hf hFin hmem P []
    (List.replicate G.length false, []) rfl
    ⟨by simp, fun w => by simp [vis_replicate], by simp, by simp [vis_replicate], by simp⟩
  refine ⟨s.2, ?_, hI.nodup, fun w => ?_, hI.comp⟩
  · unfold stronglyConnectedComponents
    rw [hfill, ok_bind, hT, ok_bind]
    simp only [List.append_nil]
    rw [hs]; rfl
  · rw [hI.mem, hI.vis]
    constructor
    · rintro ⟨a, ha, hs⟩; exact Reach.lt hG ((hmem a).1 ha) hs.1
    · intro hw; exact ⟨w, (hmem w).2 hw, Strong.refl G w⟩

/-! ### Breadth-first search -/

theorem bfsVisit_list (n : Nat) (row : List Nat) : ∀ s : BfsState, s.marked.length = n →
    (∀ w ∈ row, w < n) →
    ∃ marked' N, foldRes bfsVisit s row = ok ⟨marked', s.queue ++ N, s.order⟩ ∧
      Searched n s.marked marked' N (fun w => w ∈ row ∧ ¬ Vis s.marked w) := by
  induction row with
  | nil => intro s hs _; exact ⟨s.marked, [], by simp, Searched.refl hs (by simp)⟩
  | cons x row ih =>
    intro s hs hr
    by_cases hx : Vis s.marked x
    · obtain ⟨m, N, h, hS⟩ := ih s hs (fun w hw => hr w (by simp [hw]))
      refine ⟨m, N, ?_, hS.nodup, fun w => ?_, hS.length, hS.fresh, hS.vis⟩
      · rw [foldRes_cons, bfsVisit, vget_vis hx]; simpa using h
      · rw [hS.mem, List.mem_cons]
        constructor
        · tauto
        · rintro ⟨rfl | h, h'⟩
          · exact absurd hx h'
          · exact ⟨h, h'⟩
    · have hxn : x < n := hr x (by simp)
      have hS1 := searched_first hs hxn hx
      obtain ⟨m, N, h, hS⟩ := ih ⟨s.marked.set x true, s.queue ++ [x], s.order⟩ (by simpa using hs)
        (fun w hw => hr w (by simp [hw]))
      refine ⟨m, [x] ++ N, ?_, hS1.trans hS fun w => ?_⟩
      · rw [foldRes_cons, bfsVisit, vget_not_vis (by omega) hx]
        simp only [ok_bind, Bool.false_eq_true, if_false]
        rw [vset_of_lt _ (by omega)]
        simp only [ok_bind]
        rw [h]; simp
      · simp only [vis_set (show x < s.marked.length by omega), List.mem_cons]
        by_cases h : w = x
        · subst h; simp [hx]
        · simp [h]

/-- Loop invariant of breadth-first search from `u`, with the distances `d` found so far. -/
structure BfsInv (G : Graph) (u : Nat) (d : Nat → Nat) (s : BfsState) : Prop where
  length : s.marked.length = G.length
  nodup : (s.order ++ s.queue).Nodup
  vis : ∀ w, Vis s.marked w ↔ w ∈ s.order ++ s.queue
  lt : ∀ w ∈ s.order ++ s.queue, w < G.length
  walk : ∀ w ∈ s.order ++ s.queue, Walk G u (d w) w
  sorted : (s.order ++ s.queue).Pairwise (fun a b => d a ≤ d b)
  closed : ∀ x ∈ s.order, ∀ y, Edge G x y → y ∈ s.order ++ s.queue ∧ d y ≤ d x + 1
  parent : ∀ q ∈ s.order ++ s.queue, d q = 0 ∨ ∃ p ∈ s.order, d q ≤ d p + 1
  start : u ∈ s.order ++ s.queue ∧ d u = 0

theorem bfs_step {G : Graph} (hG : G.InRange) {u : Nat} {d : Nat → Nat} {marked : List Bool}
    {v : Nat} {q order : List Nat} (h : BfsInv G u d ⟨marked, v :: q, order⟩) :
    ∃ row d' s', vget G v = ok row ∧
      foldRes bfsVisit ⟨marked, q, order ++ [v]⟩ row = ok s' ∧ BfsInv G u d' s' ∧
      s'.marked.count false + s'.queue.length + 1 = marked.count false + q.length + 1 := by
  have hv : v < G.length := h.lt v (by simp)
  have hrow : ∀ w, w ∈ G[v] ↔ Edge G v w := fun w => by simp [Edge, hv]
  obtain ⟨m, N, hf, hS⟩ := bfsVisit_list G.length G[v] ⟨marked, q, order ++ [v]⟩ h.length
    (fun w hw => hG v w ((hrow w).1 hw))
  have hnew : ∀ w, w ∈ N → w ∉ order ++ v :: q := fun w hw hw' =>
    hS.fresh w hw ((h.vis w).2 hw')
  have hlist : order ++ [v] ++ (q ++ N) = (order ++ v :: q) ++ N := by simp
  have hle : ∀ w ∈ order ++ v :: q, d w ≤ d v + 1 := by
    intro w hw
    rcases h.parent w hw with h0 | ⟨p, hp, hle⟩
    · omega
    · have : d p ≤ d v := by
        have := h.sorted
        exact (List.pairwise_append.1 this).2.2 p hp v (by simp)
      omega
  let d' : Nat → Nat := fun w => if w ∈ N then d v + 1 else d w
  have hd' : ∀ w, w ∈ order ++ v :: q → d' w = d w := fun w hw => by
    simp only [d']; rw [if_neg fun h => hnew w h hw]
  have hdN : ∀ w, w ∈ N → d' w = d v + 1 := fun w hw => by simp only [d']; rw [if_pos hw]
  have hdv : d' v = d v := hd' v (by simp)
  refine ⟨G[v], d', ⟨m, q ++ N, order ++ [v]⟩, vget_of_lt hv, hf, ?_, ?_⟩
  · constructor
    · exact hS.length
    · simp only [hlist]
      refine List.nodup_append.2 ⟨h.nodup, hS.nodup, ?_⟩
      rintro a ha b hb rfl
      exact hnew a hb ha
    · intro w
      simp only [hlist]
      rw [hS.vis, List.mem_append]
      exact or_congr (h.vis w) Iff.rfl
    · intro w hw
      simp only [hlist] at hw
      rcases List.mem_append.1 hw with hw | hw
      · exact h.lt w hw
      · exact hG v w ((hrow w).1 ((hS.mem w).1 hw).1)
    · intro w hw
      simp only [hlist] at hw
      rcases List.mem_append.1 hw with hw | hw
      · rw [hd' w hw]; exact h.walk w hw
      · rw [hdN w hw]
        exact Walk.snoc (h.walk v (by simp)) ((hrow w).1 ((hS.mem w).1 hw).1)
    · simp only [hlist]
      refine List.pairwise_append.2 ⟨?_, ?_, ?_⟩
      · refine List.Pairwise.imp_of_mem ?_ h.sorted
        intro a b ha hb hab
        rw [hd' a ha, hd' b hb]; exact hab
      · refine List.Pairwise.imp_of_mem (R := fun _ _ => True) ?_ (List.pairwise_of_forall (fun _ _ => trivial))
        intro a b ha hb _
        rw [hdN a ha, hdN b hb]; exact Nat.le_refl _
      · intro a ha b hb
        rw [hd' a ha, hdN b hb]; exact hle a ha
    · intro x hx y hxy
      simp only [hlist]
      rcases List.mem_append.1 hx with hx | hx
      · obtain ⟨hy, hyd⟩ := h.closed x hx y hxy
        rw [hd' y hy, hd' x (by simp [hx])]
        exact ⟨List.mem_append_left _ hy, hyd⟩
      · simp only [List.mem_singleton] at hx
        subst hx
        rw [hdv]
        by_cases hy : y ∈ order ++ x :: q
        · rw [hd' y hy]; exact ⟨List.mem_append_left _ hy, hle y hy⟩
        · have : y ∈ N := (hS.mem y).2 ⟨(hrow y).2 hxy, fun h' => hy ((h.vis y).1 h')⟩
          rw [hdN y this]
          exact ⟨List.mem_append_right _ this, Nat.le_refl _⟩
    · intro w hw
      simp only [hlist] at hw
      rcases List.mem_append.1 hw with hw | hw
      · rw [hd' w hw]
        rcases h.parent w hw with h0 | ⟨p, hp, hp'⟩
        · exact Or.inl h0
        · exact Or.inr ⟨p, by simp [hp], by rw [hd' p (by simp [hp])]; exact hp'⟩
      · exact Or.inr ⟨v, by simp, by rw [hdN w hw, hdv]; exact Nat.le_refl _⟩
    · simp only [hlist]
      exact ⟨List.mem_append_left _ h.start.1, by rw [hd' u h.start.1]; exact h.start.2⟩
  · simp only [List.length_append]
    have key : ∀ (N : List Nat) (a b : List Bool), a.length = G.length → b.length = G.length →
        N.Nodup → (∀ w ∈ N, ¬ Vis a w) → (∀ w ∈ N, w < G.length) →
        (∀ w, Vis b w ↔ Vis a w ∨ w ∈ N) → b.count false + N.length = a.count false := by
      intro N
      induction N with
      | nil =>
        intro a b ha hb _ _ _ hv
        have h1 := count_le_of_vis (ha.trans hb.symm) fun w hw => (hv w).2 (Or.inl hw)
        have h2 := count_le_of_vis (hb.trans ha.symm) fun w hw => by simpa using (hv w).1 hw
        simp; omega
      | cons x N ih =>
        intro a b ha hb hnd hfr hlt hv
        have hxa : x < a.length := by rw [ha]; exact hlt x (by simp)
        have hx := count_set hxa (hfr x (by simp))
        have := ih (a.set x true) b (by simpa using ha) hb (List.nodup_cons.1 hnd).2
          (fun w hw => by
            rw [vis_set hxa]
            rintro (h | rfl)
            · exact hfr w (by simp [hw]) h
            · exact (List.nodup_cons.1 hnd).1 hw)
          (fun w hw => hlt w (by simp [hw]))
          (fun w => by rw [hv, vis_set hxa, List.mem_cons]; tauto)
        simp only [List.length_cons]; omega
    have := key N marked m h.length hS.length hS.nodup hS.fresh
      (fun w hw => hG v w ((hrow w).1 ((hS.mem w).1 hw).1)) hS.vis
    omega

theorem bfsLoop_spec {G : Graph} (hG : G.InRange) (u : Nat) : ∀ (fuel : Nat) (d : Nat → Nat)
    (s : BfsState), BfsInv G u d s → s.marked.count false + s.queue.length < fuel →
    ∃ (d' : Nat → Nat) (s' : BfsState), bfsLoop G fuel s = ok s' ∧ BfsInv G u d' s' ∧
      s'.queue = [] := by
  intro fuel
  induction fuel with
  | zero => intro d s _ h; omega
  | succ fuel ih =>
    intro d s h hf
    obtain ⟨marked, queue, order⟩ := s
    cases queue with
    | nil => exact ⟨d, _, rfl, h, rfl⟩
    | cons v q =>
      obtain ⟨row, d', s', h1, h2, h3, h4⟩ := bfs_step hG h
      simp only [List.length_cons] at hf
      obtain ⟨d'', s'', h5, h6, h7⟩ := ih d' s' h3 (by omega)
      refine ⟨d'', s'', ?_, h6, h7⟩
      rw [bfsLoop]
      simp only [h1, ok_bind]
      rw [h2, ok_bind, h5]

theorem walk_reach {G : Graph} {u w : Nat} : Reach G u w ↔ ∃ k, Walk G u k w := by
  constructor
  · intro h
    induction h with
    | refl => exact ⟨0, Walk.nil⟩
    | tail _ h ih => obtain ⟨k, hk⟩ := ih; exact ⟨k + 1, Walk.snoc hk h⟩
  · rintro ⟨k, h⟩
    induction h with
    | nil => exact ReflTransGen.refl
    | snoc _ h ih => exact ReflTransGen.tail ih h

theorem bfs_spec {G : Graph} (hG : G.InRange) {u : Nat} (hu : u < G.length) {fuel : Nat}
    (hf : G.length < fuel) :
    ∃ (L : List Nat) (d : Nat → Nat), breadthFirstSearch G fuel u = ok L ∧ L.Nodup ∧
      (∀ w, w ∈ L ↔ Reach G u w) ∧ (∀ w ∈ L, IsDist G u w (d w)) ∧
      L.Pairwise (fun a b => d a ≤ d b) := by
  have hr := vis_replicate G.length
  have hI : BfsInv G u (fun _ => 0) ⟨(List.replicate G.length false).set u true, [u], []⟩ := by
    refine ⟨by simp, by simp, fun w => ?_, by simpa using hu, ?_, by simp, by simp, by simp,
      by simp⟩
    · rw [vis_set (by simpa using hu)]; simp [hr]
    · intro w hw
      simp only [List.nil_append, List.mem_singleton] at hw
      subst hw; exact Walk.nil
  have hc := count_set (l := List.replicate G.length false) (v := u) (by simpa using hu) (hr u)
  obtain ⟨d, s, h1, h2, h3⟩ := bfsLoop_spec hG u fuel _ _ hI (by
    simp only [List.length_singleton]
    rw [hc]; simpa using hf)
  have hm : ∀ k w, Walk G u k w → w ∈ s.order ∧ d w ≤ k := by
    intro k w h
    induction h with
    | nil =>
      have := h2.start
      rw [h3, List.append_nil] at this
      exact ⟨this.1, by omega⟩
    | @snoc k w x _ hwx ih =>
      have := h2.closed w ih.1 x hwx
      rw [h3, List.append_nil] at this
      exact ⟨this.1, by omega⟩
  have h4 := h2.walk
  have h5 := h2.nodup
  have h6 := h2.sorted
  rw [h3, List.append_nil] at h4 h5 h6
  refine ⟨s.order, d, ?_, h5, fun w => ?_, fun w hw => ⟨h4 w hw, fun j hj => (hm j w hj).2⟩, h6⟩
  · unfold breadthFirstSearch
    rw [vset_of_lt _ (by simpa using hu), ok_bind, h1]; rfl
  · rw [walk_reach]
    exact ⟨fun h => ⟨_, h4 w h⟩, fun ⟨k, hk⟩ => (hm k w hk).1⟩

end Verif
