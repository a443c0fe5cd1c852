import Verif.GraphSpec
import Mathlib.Tactic.Basic
import Mathlib.Tactic.Cases
import Mathlib.Tactic.Tauto

/-
Helper lemmas on searches.
-/
namespace Verif

open Res Relation

/-! ### Visited flags -/

/-- Vertex `w` is marked. -/
def Vis (l : List Bool) (w : Nat) : Prop := l[w]? = some true

theorem vget_vis {l : List Bool} {w : Nat} (h : Vis l w) : vget l w = ok true := by
  simp [vget, show l[w]? = some true from h]

theorem vget_not_vis {l : List Bool} {w : Nat} (hw : w < l.length) (h : ¬ Vis l w) :
    vget l w = ok false := by
  rw [vget_of_lt hw]
  unfold Vis at h
  rw [List.getElem?_eq_getElem hw] at h
  cases hb : l[w] <;> simp_all

theorem vis_set {l : List Bool} {v : Nat} (hv : v < l.length) (w : Nat) :
    Vis (l.set v true) w ↔ Vis l w ∨ w = v := by
  unfold Vis
  rw [List.getElem?_set]
  by_cases h : v = w
  · subst h; simp [hv]
  · simp [h, Ne.symm h]

theorem vis_replicate (n w : Nat) : ¬ Vis (List.replicate n false) w := by
  unfold Vis
  rw [List.getElem?_replicate]
  split <;> simp

theorem count_le_of_vis {l l' : List Bool} (hl : l.length = l'.length)
    (h : ∀ w, Vis l w → Vis l' w) : l'.count false ≤ l.count false := by
  induction l generalizing l' with
  | nil => cases l' <;> simp_all
  | cons a l ih =>
    cases l' with
    | nil => simp at hl
    | cons b l' =>
      have := ih (by simpa using hl) (fun w hw => by have := h (w + 1); simpa [Vis] using this (by simpa [Vis] using hw))
      have h0 := h 0
      cases a <;> cases b <;> simp_all [Vis] <;> omega

theorem count_set {l : List Bool} {v : Nat} (hv : v < l.length) (h : ¬ Vis l v) :
    (l.set v true).count false + 1 = l.count false := by
  induction l generalizing v with
  | nil => simp at hv
  | cons a l ih =>
    cases v with
    | zero => cases a <;> simp_all [Vis]
    | succ v =>
      have := ih (v := v) (by simpa using hv) (by simpa [Vis] using h)
      cases a <;> simp [List.count_cons] <;> omega

/-! ### Reachability outside a set -/

theorem ReachAvoid.not_mem {G : Graph} {S : Nat → Prop} {v w : Nat} (hv : ¬ S v)
    (h : ReachAvoid G S v w) : ¬ S w := by
  rcases ReflTransGen.cases_tail h with h | ⟨_, _, h⟩
  · rw [h]; exact hv
  · exact h.2

theorem ReachAvoid.mono {G : Graph} {S S' : Nat → Prop} (hS : ∀ w, S w → S' w) {v w : Nat}
    (h : ReachAvoid G S' v w) : ReachAvoid G S v w :=
  ReflTransGen.mono (fun _ _ h => ⟨h.1, fun h' => h.2 (hS _ h')⟩) _ _ h

theorem ReachAvoid.reach {G : Graph} {S : Nat → Prop} {v w : Nat} (h : ReachAvoid G S v w) :
    Reach G v w := ReflTransGen.mono (fun _ _ h => h.1) _ _ h

theorem reachAvoid_false {G : Graph} {S : Nat → Prop} (hS : ∀ w, ¬ S w) {v w : Nat} :
    ReachAvoid G S v w ↔ Reach G v w :=
  ⟨ReachAvoid.reach, fun h => ReflTransGen.mono (fun _ b h => ⟨h, hS b⟩) _ _ h⟩

theorem reachAvoid_congr {G : Graph} {S S' : Nat → Prop} (hS : ∀ w, S w ↔ S' w) {v w : Nat} :
    ReachAvoid G S v w ↔ ReachAvoid G S' v w :=
  ⟨ReachAvoid.mono fun w => (hS w).2, ReachAvoid.mono fun w => (hS w).1⟩

theorem Reach.lt {G : Graph} (hG : G.InRange) {v w : Nat} (hv : v < G.length) (h : Reach G v w) :
    w < G.length := by
  induction h with
  | refl => exact hv
  | tail _ h => exact hG _ _ h

/-- Reachability from `v` is `v` itself or reachability from one of its unvisited successors
outside `S` and `v`. -/
theorem reachAvoid_step {G : Graph} {S : Nat → Prop} {v : Nat} {row : List Nat}
    (hrow : G[v]? = some row) {w : Nat} :
    ReachAvoid G S v w ↔ w = v ∨
      ∃ x ∈ row, ¬ (S x ∨ x = v) ∧ ReachAvoid G (fun y => S y ∨ y = v) x w := by
  have he : ∀ x, x ∈ row ↔ Edge G v x := fun x => by simp [Edge, hrow]
  constructor
  · intro h
    induction h with
    | refl => exact Or.inl rfl
    | @tail b c _ hbc ih =>
      by_cases hc : c = v
      · exact Or.inl hc
      right
      rcases ih with rfl | ⟨x, hx, hxS, hxb⟩
      · exact ⟨c, (he c).2 hbc.1, by tauto, ReflTransGen.refl⟩
      · exact ⟨x, hx, hxS, ReflTransGen.tail hxb ⟨hbc.1, by tauto⟩⟩
  · rintro (rfl | ⟨x, hx, hxS, hxw⟩)
    · exact ReflTransGen.refl
    · exact ReflTransGen.head ⟨(he x).1 hx, by tauto⟩ (ReachAvoid.mono (fun _ h => Or.inl h) hxw)

/-- A search from `y` that is not reachable from `x` is not disturbed by first searching from
`x`. -/
theorem reachAvoid_after {G : Graph} {S : Nat → Prop} {x y w : Nat} (h : ReachAvoid G S y w)
    (hw : ¬ ReachAvoid G S x w) : ReachAvoid G (fun z => S z ∨ ReachAvoid G S x z) y w := by
  induction h with
  | refl => exact ReflTransGen.refl
  | @tail b c _ hbc ih =>
    have hb : ¬ ReachAvoid G S x b := fun hb => hw (ReflTransGen.tail hb hbc)
    exact ReflTransGen.tail (ih hb) ⟨hbc.1, by tauto⟩

theorem reachAvoid_cons {G : Graph} {S : Nat → Prop} {x : Nat} (hx : ¬ S x) {xs : List Nat}
    {w : Nat} :
    (ReachAvoid G S x w ∨ ∃ y ∈ xs, ¬ (S y ∨ ReachAvoid G S x y) ∧
        ReachAvoid G (fun z => S z ∨ ReachAvoid G S x z) y w) ↔
      ∃ y ∈ x :: xs, ¬ S y ∧ ReachAvoid G S y w := by
  constructor
  · rintro (h | ⟨y, hy, hyS, h⟩)
    · exact ⟨x, by simp, hx, h⟩
    · exact ⟨y, by simp [hy], by tauto, ReachAvoid.mono (fun _ h => Or.inl h) h⟩
  · rintro ⟨y, hy, hyS, h⟩
    by_cases hw : ReachAvoid G S x w
    · exact Or.inl hw
    right
    rcases List.mem_cons.1 hy with rfl | hy
    · exact absurd h hw
    · refine ⟨y, hy, ?_, reachAvoid_after h hw⟩
      rintro (h' | h')
      · exact hyS h'
      · exact hw (ReflTransGen.trans h' h)

/-! ### Depth-first search -/

/-- What a search started with marks `vis` does: it marks and lists the vertices satisfying `R`. -/
structure Searched (n : Nat) (vis vis' : List Bool) (L : List Nat) (R : Nat → Prop) : Prop where
  nodup : L.Nodup
  mem : ∀ w, w ∈ L ↔ R w
  length : vis'.length = n
  fresh : ∀ w ∈ L, ¬ Vis vis w
  vis : ∀ w, Vis vis' w ↔ Vis vis w ∨ w ∈ L


theorem Searched.count_le {n : Nat} {vis vis' : List Bool} {L : List Nat} {R : Nat → Prop}
    (h : Searched n vis vis' L R) (hn : vis.length = n) :
    vis'.count false ≤ vis.count false :=
  count_le_of_vis (by rw [hn, h.length]) fun w hw => (h.vis w).2 (Or.inl hw)

theorem Searched.refl {n : Nat} {vis : List Bool} (hn : vis.length = n) {R : Nat → Prop}
    (hR : ∀ w, ¬ R w) : Searched n vis vis [] R :=
  ⟨by simp, by simpa using hR, hn, by simp, by simp⟩

theorem Searched.trans {n : Nat} {vis vis' vis'' : List Bool} {L L' : List Nat}
    {R R' R'' : Nat → Prop} (h : Searched n vis vis' L R) (h' : Searched n vis' vis'' L' R')
    (hR : ∀ w, R w ∨ R' w ↔ R'' w) : Searched n vis vis'' (L ++ L') R'' := by
  refine ⟨?_, ?_, h'.length, ?_, ?_⟩
  · refine List.nodup_append.2 ⟨h.nodup, h'.nodup, ?_⟩
    rintro a ha b hb rfl
    exact h'.fresh _ hb ((h.vis _).2 (Or.inr ha))
  · intro w; rw [List.mem_append, h.mem, h'.mem, hR]
  · intro w hw
    rcases List.mem_append.1 hw with hw | hw
    · exact h.fresh w hw
    · exact fun hv => h'.fresh w hw ((h.vis w).2 (Or.inl hv))
  · intro w; rw [h'.vis, h.vis, List.mem_append]; tauto

theorem Searched.perm {n : Nat} {vis vis' : List Bool} {L L' : List Nat} {R : Nat → Prop}
    (h : Searched n vis vis' L R) (hp : L.Perm L') : Searched n vis vis' L' R :=
  ⟨hp.nodup_iff.1 h.nodup, fun w => by rw [← hp.mem_iff, h.mem], h.length,
    fun w hw => h.fresh w (hp.mem_iff.2 hw), fun w => by rw [h.vis, hp.mem_iff]⟩

/-- The vertices marked by searches from the vertices `ws`, in turn, with marks `vis`. -/
def FromList (G : Graph) (vis : List Bool) (ws : List Nat) (w : Nat) : Prop :=
  ∃ x ∈ ws, ¬ Vis vis x ∧ ReachAvoid G (Vis vis) x w

theorem fromList_cons_vis {G : Graph} {vis : List Bool} {x : Nat} {ws : List Nat}
    (hx : Vis vis x) (w : Nat) : FromList G vis (x :: ws) w ↔ FromList G vis ws w := by
  constructor
  · rintro ⟨y, hy, hyS, h⟩
    rcases List.mem_cons.1 hy with rfl | hy
    · exact absurd hx hyS
    · exact ⟨y, hy, hyS, h⟩
  · rintro ⟨y, hy, hyS, h⟩
    exact ⟨y, by simp [hy], hyS, h⟩

theorem fromList_cons {G : Graph} {vis vis' : List Bool} {n x : Nat} {L ws : List Nat}
    (h : Searched n vis vis' L (ReachAvoid G (Vis vis) x)) (hx : ¬ Vis vis x) (w : Nat) :
    ReachAvoid G (Vis vis) x w ∨ FromList G vis' ws w ↔ FromList G vis (x :: ws) w := by
  have hv : ∀ w, Vis vis' w ↔ (Vis vis w ∨ ReachAvoid G (Vis vis) x w) := fun w => by
    rw [h.vis, h.mem]
  unfold FromList
  rw [← reachAvoid_cons hx]
  simp only [hv, reachAvoid_congr hv]

theorem searched_first {n : Nat} {vis : List Bool} {v : Nat} (hn : vis.length = n) (hv : v < n)
    (hnv : ¬ Vis vis v) : Searched n vis (vis.set v true) [v] (fun w => w = v) := by
  refine ⟨by simp, by simp, by simpa using hn, by simpa using hnv, ?_⟩
  intro w; rw [vis_set (by omega)]; simp

theorem fromList_row {G : Graph} {vis : List Bool} {v : Nat} {row : List Nat}
    (hv : v < vis.length) (hrow : G[v]? = some row) (w : Nat) :
    w = v ∨ FromList G (vis.set v true) row w ↔ ReachAvoid G (Vis vis) v w := by
  have hs := vis_set hv
  rw [reachAvoid_step hrow]
  unfold FromList
  simp only [hs, reachAvoid_congr hs]

theorem dfs_list {G : Graph} (fuel : Nat)
    (ih : ∀ (s : SearchState) (v : Nat), s.visited.length = G.length → v < G.length →
      ¬ Vis s.visited v → s.visited.count false ≤ fuel →
      ∃ vis' L, depthFirstSearch G fuel s v = ok ⟨vis', s.order ++ L⟩ ∧
        Searched G.length s.visited vis' L (ReachAvoid G (Vis s.visited) v))
    (ws : List Nat) : ∀ (s : SearchState), s.visited.length = G.length →
      (∀ w ∈ ws, w < G.length) → s.visited.count false ≤ fuel →
      ∃ vis' L, foldRes (fun s w => do
          let b ← vget s.visited w
          if b then ok s else depthFirstSearch G fuel s w) s ws = ok ⟨vis', s.order ++ L⟩ ∧
        Searched G.length s.visited vis' L (FromList G s.visited ws) := by
  induction ws with
  | nil =>
    intro s hs _ _
    exact ⟨s.visited, [], by simp, Searched.refl hs (by simp [FromList])⟩
  | cons x ws ihws =>
    intro s hs hws hf
    by_cases hx : Vis s.visited x
    · obtain ⟨vis', L, he, hS⟩ := ihws s hs (fun w hw => hws w (by simp [hw])) hf
      refine ⟨vis', L, ?_, ?_⟩
      · rw [foldRes_cons, vget_vis hx]; simpa using he
      · exact ⟨hS.nodup, fun w => by rw [hS.mem, fromList_cons_vis hx], hS.length, hS.fresh, hS.vis⟩
    · obtain ⟨v1, L1, he1, hS1⟩ := ih s x hs (hws x (by simp)) hx hf
      obtain ⟨v2, L2, he2, hS2⟩ := ihws ⟨v1, s.order ++ L1⟩ hS1.length
        (fun w hw => hws w (by simp [hw])) (Nat.le_trans (hS1.count_le hs) hf)
      refine ⟨v2, L1 ++ L2, ?_, hS1.trans hS2 (fromList_cons hS1 hx)⟩
      rw [foldRes_cons, vget_not_vis (by rw [hs]; exact hws x (by simp)) hx]
      simp only [ok_bind, Bool.false_eq_true, if_false, he1]
      rw [he2]; simp

theorem dfs_spec {G : Graph} (hG : G.InRange) : ∀ (fuel : Nat) (s : SearchState) (v : Nat),
    s.visited.length = G.length → v < G.length → ¬ Vis s.visited v →
    s.visited.count false ≤ fuel →
      ∃ vis' L, depthFirstSearch G fuel s v = ok ⟨vis', s.order ++ L⟩ ∧
        Searched G.length s.visited vis' L (ReachAvoid G (Vis s.visited) v) := by
  intro fuel
  induction fuel with
  | zero =>
    intro s v hs hv hnv hf
    have := count_set (by omega) hnv
    omega
  | succ fuel ih =>
    intro s v hs hv hnv hf
    have hc := count_set (show v < s.visited.length by omega) hnv
    obtain ⟨vis', L, he, hS⟩ := dfs_list fuel ih G[v] ⟨s.visited.set v true, s.order ++ [v]⟩
      (by simpa using hs) (fun w hw => hG v w ⟨G[v], by simp [hv], hw⟩) (by simp only; omega)
    refine ⟨vis', [v] ++ L, ?_, (searched_first hs hv hnv).trans hS
      (fromList_row (by omega) (by simp [hv]))⟩
    rw [depthFirstSearch, vset_of_lt _ (by omega), vget_of_lt hv]
    simp only [ok_bind]
    rw [he]; simp

/-! ### Finishing order -/

/-- Paths to `v` all of whose other vertices are in `T`. -/
def PathIn (G : Graph) (T : List Nat) : Nat → Nat → Prop :=
  ReflTransGen (fun a b => Edge G a b ∧ a ∈ T)

/-- Property of finishing orders `P` (latest first): a vertex that reaches `v` without using
vertices finished later than `v` is reachable from `v`. -/
def Finish (G : Graph) (P : List Nat) : Prop :=
  ∀ A v B, P = A ++ v :: B → ∀ w, PathIn G (v :: B) w v → Reach G v w

theorem finish_nil (G : Graph) : Finish G [] := by
  intro A v B h; simp at h

theorem finish_cons {G : Graph} {P : List Nat} {v : Nat} (h : Finish G P)
    (hv : ∀ w ∈ P, Reach G v w) : Finish G (v :: P) := by
  intro A u B hP w hw
  cases A with
  | nil =>
    simp only [List.nil_append, List.cons.injEq] at hP
    obtain ⟨rfl, rfl⟩ := hP
    rcases ReflTransGen.cases_head hw with h' | ⟨_, h', _⟩
    · rw [h']; exact ReflTransGen.refl
    · rcases List.mem_cons.1 h'.2 with h' | h'
      · rw [h']; exact ReflTransGen.refl
      · exact hv w h'
  | cons a A =>
    simp only [List.cons_append, List.cons.injEq] at hP
    exact h A u B hP.2 w hw

theorem finish_append {G : Graph} {P1 P2 : List Nat} {n : Nat} {vis v1 v2 : List Bool} {x : Nat}
    {R : Nat → Prop} (h1 : Finish G P1) (h2 : Finish G P2)
    (hS1 : Searched n vis v1 P1 (ReachAvoid G (Vis vis) x)) (hS2 : Searched n v1 v2 P2 R) :
    Finish G (P2 ++ P1) := by
  intro A v B hP w hw
  rcases List.append_eq_append_iff.1 hP with ⟨A', rfl, hP1⟩ | ⟨B2, rfl, hB⟩
  · exact h1 A' v B hP1 w hw
  · cases B2 with
    | nil =>
      simp only [List.nil_append] at hB
      exact h1 [] v B (by simpa using hB.symm) w hw
    | cons b B2 =>
      simp only [List.cons_append, List.cons.injEq] at hB
      obtain ⟨rfl, rfl⟩ := hB
      refine h2 A v B2 rfl w ?_
      suffices w ∈ v :: B2 ∧ PathIn G (v :: B2) w v from this.2
      induction hw using ReflTransGen.head_induction_on with
      | refl => exact ⟨by simp, ReflTransGen.refl⟩
      | @head a b hab _ ih =>
        have ha : a ∈ v :: B2 := by
          have := hab.2
          rw [← List.cons_append, List.mem_append] at this
          refine this.resolve_right fun ha => ?_
          have hb2 : b ∈ A ++ v :: B2 := List.mem_append_right _ ih.1
          have hbv : ¬ Vis v1 b := hS2.fresh b hb2
          have : ReachAvoid G (Vis vis) x b :=
            ReflTransGen.tail ((hS1.mem a).1 ha)
              ⟨hab.1, fun h => hbv ((hS1.vis b).2 (Or.inl h))⟩
          exact hbv ((hS1.vis b).2 (Or.inr ((hS1.mem b).2 this)))
        exact ⟨ha, ReflTransGen.head ⟨hab.1, ha⟩ ih.2⟩

theorem fill_list {G : Graph} (fuel : Nat)
    (ih : ∀ (s : FillState) (v : Nat), s.visited.length = G.length → v < G.length →
      ¬ Vis s.visited v → s.visited.count false ≤ fuel →
      ∃ vis' P, fillOrder G fuel s v = ok ⟨vis', P ++ s.stack⟩ ∧ Finish G P ∧
        Searched G.length s.visited vis' P (ReachAvoid G (Vis s.visited) v))
    (ws : List Nat) : ∀ (s : FillState), s.visited.length = G.length →
      (∀ w ∈ ws, w < G.length) → s.visited.count false ≤ fuel →
      ∃ vis' P, foldRes (fun s w => do
          let b ← vget s.visited w
          if b then ok s else fillOrder G fuel s w) s ws = ok ⟨vis', P ++ s.stack⟩ ∧ Finish G P ∧
        Searched G.length s.visited vis' P (FromList G s.visited ws) := by
  induction ws with
  | nil =>
    intro s hs _ _
    exact ⟨s.visited, [], by simp, finish_nil G, Searched.refl hs (by simp [FromList])⟩
  | cons x ws ihws =>
    intro s hs hws hf
    by_cases hx : Vis s.visited x
    · obtain ⟨vis', L, he, hF, hS⟩ := ihws s hs (fun w hw => hws w (by simp [hw])) hf
      refine ⟨vis', L, ?_, hF, ?_⟩
      · rw [foldRes_cons, vget_vis hx]; simpa using he
      · exact ⟨hS.nodup, fun w => by rw [hS.mem, fromList_cons_vis hx], hS.length, hS.fresh, hS.vis⟩
    · obtain ⟨v1, L1, he1, hF1, hS1⟩ := ih s x hs (hws x (by simp)) hx hf
      obtain ⟨v2, L2, he2, hF2, hS2⟩ := ihws ⟨v1, L1 ++ s.stack⟩ hS1.length
        (fun w hw => hws w (by simp [hw])) (Nat.le_trans (hS1.count_le hs) hf)
      refine ⟨v2, L2 ++ L1, ?_, finish_append hF1 hF2 hS1 hS2,
        (hS1.trans hS2 (fromList_cons hS1 hx)).perm List.perm_append_comm⟩
      rw [foldRes_cons, vget_not_vis (by rw [hs]; exact hws x (by simp)) hx]
      simp only [ok_bind, Bool.false_eq_true, if_false, he1]
      rw [he2]; simp

theorem fill_spec {G : Graph} (hG : G.InRange) : ∀ (fuel : Nat) (s : FillState) (v : Nat),
    s.visited.length = G.length → v < G.length → ¬ Vis s.visited v →
    s.visited.count false ≤ fuel →
      ∃ vis' P, fillOrder G fuel s v = ok ⟨vis', P ++ s.stack⟩ ∧ Finish G P ∧
        Searched G.length s.visited vis' P (ReachAvoid G (Vis s.visited) v) := by
  intro fuel
  induction fuel with
  | zero =>
    intro s v hs hv hnv hf
    have := count_set (by omega) hnv
    omega
  | succ fuel ih =>
    intro s v hs hv hnv hf
    have hc := count_set (show v < s.visited.length by omega) hnv
    obtain ⟨vis', P, he, hF, hS⟩ := fill_list fuel ih G[v] ⟨s.visited.set v true, s.stack⟩
      (by simpa using hs) (fun w hw => hG v w ⟨G[v], by simp [hv], hw⟩) (by simp only; omega)
    have hT := (searched_first hs hv hnv).trans hS (fromList_row (by omega) (by simp [hv]))
    refine ⟨vis', v :: P, ?_, finish_cons hF fun w hw => ?_, hT⟩
    · rw [fillOrder, vset_of_lt _ (by omega), vget_of_lt hv]
      simp only [ok_bind]
      rw [he]; simp
    · exact ((hT.mem w).1 (by simp [hw])).reach

end Verif
