import Verif.VtkSpec
import Verif.MetisLemmas
import Mathlib.Tactic.Linarith

/-!
# Lemmas on the edges and faces of a mesh of tetrahedra
-/

namespace Verif
open Res

/-! ### Maps -/

theorem lookup_some {κ ν : Type} [BEq κ] [LawfulBEq κ] {l : List (κ × ν)} {k : κ} {v : ν} (h : l.lookup k = some v) :
    ∃ i : Nat, l[i]? = some (k, v) := by
  induction l with
  | nil => simp at h
  | cons x l ih =>
    rw [List.lookup_cons] at h
    by_cases hx : (k == x.1) = true
    · rw [hx] at h
      simp only [Option.some.injEq] at h
      exact ⟨0, by simp [← h, eq_of_beq hx]⟩
    · rw [Bool.not_eq_true] at hx
      rw [hx] at h
      obtain ⟨i, hi⟩ := ih h
      exact ⟨i + 1, by simpa using hi⟩

theorem lookup_none {κ ν : Type} [BEq κ] [LawfulBEq κ] {l : List (κ × ν)} {k : κ} (h : l.lookup k = none) (x : κ × ν)
    (hx : x ∈ l) : x.1 ≠ k := by
  induction l with
  | nil => simp at hx
  | cons y l ih =>
    rw [List.lookup_cons] at h
    by_cases hy : (k == y.1) = true
    · rw [hy] at h
      simp at h
    · rw [Bool.not_eq_true] at hy
      rw [hy] at h
      rcases List.mem_cons.1 hx with rfl | hx
      · exact fun e => by rw [e] at hy; simp at hy
      · exact ih h hx

/-! ### Edges -/

/-- The edges have their positions as numbers, are different and have the smaller number first. -/
structure EOk (E : List ((Nat × Nat) × Nat)) : Prop where
  number : ∀ (i : Nat) x, E[i]? = some x → x.2 = i
  nodup : (E.map Prod.fst).Nodup
  lt : ∀ x ∈ E, x.1.1 < x.1.2

/-- The edge `e` joins `a` and `b`. -/
def IsE (E : List ((Nat × Nat) × Nat)) (e a b : Nat) : Prop := E[e]? = some ((min a b, max a b), e)

theorem IsE.symm {E : List ((Nat × Nat) × Nat)} {e a b : Nat} (h : IsE E e a b) : IsE E e b a := by
  unfold IsE at *
  rw [min_comm, max_comm]
  exact h

theorem IsE.mono {E E' : List ((Nat × Nat) × Nat)} (hp : E <+: E') {e a b : Nat} (h : IsE E e a b) : IsE E' e a b := by
  obtain ⟨T, rfl⟩ := hp
  unfold IsE at *
  rw [List.getElem?_append_left (List.getElem?_eq_some_iff.1 h).1]
  exact h

theorem IsE.lt {E : List ((Nat × Nat) × Nat)} {e a b : Nat} (h : IsE E e a b) : e < E.length :=
  (List.getElem?_eq_some_iff.1 h).1

theorem minmax_eq {a b c d : Nat} (h : (min a b, max a b) = (min c d, max c d)) : (a = c ∧ b = d) ∨ (a = d ∧ b = c) := by
  rw [Prod.mk.injEq] at h
  omega

theorem IsE.ends {E : List ((Nat × Nat) × Nat)} {e a b c d : Nat} (h : IsE E e a b) (h' : IsE E e c d) :
    (a = c ∧ b = d) ∨ (a = d ∧ b = c) := by
  unfold IsE at *
  rw [h] at h'
  exact minmax_eq (Prod.mk.inj (Option.some.inj h')).1

theorem nodup_index {α : Type} {l : List α} (h : l.Nodup) {i j : Nat} {a : α} (hi : l[i]? = some a)
    (hj : l[j]? = some a) : i = j := by
  obtain ⟨hi', e⟩ := List.getElem?_eq_some_iff.1 hi
  obtain ⟨hj', e'⟩ := List.getElem?_eq_some_iff.1 hj
  exact (List.Nodup.getElem_inj_iff h).1 (e.trans e'.symm)

theorem IsE.unique {E : List ((Nat × Nat) × Nat)} (hE : EOk E) {e e' a b : Nat} (h : IsE E e a b) (h' : IsE E e' a b) :
    e = e' := by
  unfold IsE at *
  refine nodup_index hE.nodup (a := (min a b, max a b)) ?_ ?_
  · rw [List.getElem?_map, h]; rfl
  · rw [List.getElem?_map, h']; rfl

theorem insertEdge_spec {E : List ((Nat × Nat) × Nat)} (h : EOk E) {a b : Nat} (hab : a ≠ b) :
    EOk (vtkInsertEdge a b E).2 ∧ IsE (vtkInsertEdge a b E).2 (vtkInsertEdge a b E).1 a b ∧
      E <+: (vtkInsertEdge a b E).2 ∧
      ∀ k, k ∈ (vtkInsertEdge a b E).2.map Prod.fst ↔ k ∈ E.map Prod.fst ∨ k = (min a b, max a b) := by
  unfold vtkInsertEdge
  simp only
  cases hl : E.lookup (min a b, max a b) with
  | some i =>
    obtain ⟨j, hj⟩ := lookup_some hl
    obtain rfl : i = j := h.number j _ hj
    refine ⟨h, hj, List.prefix_rfl, fun k => ⟨Or.inl, ?_⟩⟩
    rintro (hk | rfl)
    · exact hk
    · exact List.mem_map.2 ⟨_, List.mem_of_getElem? hj, rfl⟩
  | none =>
    refine ⟨⟨?_, ?_, ?_⟩, ?_, List.prefix_append _ _, ?_⟩
    · intro i x hx
      by_cases hi : i < E.length
      · rw [List.getElem?_append_left hi] at hx
        exact h.number i x hx
      · have hi' := (List.getElem?_eq_some_iff.1 hx).1
        simp only [List.length_append, List.length_cons, List.length_nil] at hi'
        obtain rfl : i = E.length := by omega
        simp at hx
        rw [← hx]
    · rw [List.map_append, List.nodup_append]
      refine ⟨h.nodup, by simp, ?_⟩
      intro x hx y hy
      obtain ⟨z, hz, rfl⟩ := List.mem_map.1 hx
      simp only [List.map_cons, List.map_nil, List.mem_cons, List.not_mem_nil, or_false] at hy
      subst hy
      exact lookup_none hl z hz
    · intro x hx
      rcases List.mem_append.1 hx with hx | hx
      · exact h.lt x hx
      · simp only [List.mem_cons, List.not_mem_nil, or_false] at hx
        subst hx
        simp only
        omega
    · unfold IsE
      simp
    · intro k
      simp

/-! ### Faces -/

/-- The vertices of a face. -/
def vset3 (x : (Nat × Nat) × VtkFace) : Finset Nat := x.2.vertices.toFinset

/-- The face has its position as number, three edges that join its three vertices, and the mark that tells whether it
came once. -/
structure VtkFaceOk (E : List ((Nat × Nat) × Nat)) (occ : List (Finset Nat)) (i : Nat) (x : (Nat × Nat) × VtkFace) : Prop where
  index : x.2.index = i
  shape : ∃ a b c e0 e1 e2, a ≠ b ∧ b ≠ c ∧ c ≠ a ∧ x.2.vertices = [a, b, c] ∧ x.2.edges = [e0, e1, e2] ∧
    IsE E e0 a b ∧ IsE E e1 b c ∧ IsE E e2 c a ∧ x.1 = (e0, c)
  marker : x.2.marker = if occ.count (vset3 x) = 1 then 1 else 0

/-- The faces are those that came, each once. -/
structure FOk (E : List ((Nat × Nat) × Nat)) (F : List ((Nat × Nat) × VtkFace)) (occ : List (Finset Nat)) : Prop where
  face : ∀ (i : Nat) x, F[i]? = some x → VtkFaceOk E occ i x
  nodup : (F.map vset3).Nodup
  mem : ∀ S, S ∈ F.map vset3 ↔ S ∈ occ

theorem VtkFaceOk.mono {E E' : List ((Nat × Nat) × Nat)} (hp : E <+: E') {occ : List (Finset Nat)} {i : Nat}
    {x : (Nat × Nat) × VtkFace} (h : VtkFaceOk E occ i x) : VtkFaceOk E' occ i x := by
  obtain ⟨h1, ⟨a, b, c, e0, e1, e2, d1, d2, d3, hv, he, i0, i1, i2, hk⟩, h3⟩ := h
  exact ⟨h1, ⟨a, b, c, e0, e1, e2, d1, d2, d3, hv, he, i0.mono hp, i1.mono hp, i2.mono hp, hk⟩, h3⟩

theorem FOk.mono {E E' : List ((Nat × Nat) × Nat)} (hp : E <+: E') {F : List ((Nat × Nat) × VtkFace)}
    {occ : List (Finset Nat)} (h : FOk E F occ) : FOk E' F occ :=
  ⟨fun i x hx => (h.face i x hx).mono hp, h.nodup, h.mem⟩

/-- The face `f` has the vertices `S`. -/
def HasF (F : List ((Nat × Nat) × VtkFace)) (f : Nat) (S : Finset Nat) : Prop := ∃ x, F[f]? = some x ∧ vset3 x = S

/-- Faces keep their numbers, vertices and edges. -/
def FGrow (F F' : List ((Nat × Nat) × VtkFace)) : Prop := ∀ (i : Nat) x, F[i]? = some x → ∃ y, F'[i]? = some y ∧ vset3 y = vset3 x

theorem FGrow.trans {F F' F'' : List ((Nat × Nat) × VtkFace)} (h : FGrow F F') (h' : FGrow F' F'') : FGrow F F'' := by
  intro i x hx
  obtain ⟨y, hy, e⟩ := h i x hx
  obtain ⟨z, hz, e'⟩ := h' i y hy
  exact ⟨z, hz, e'.trans e⟩

theorem HasF.grow {F F' : List ((Nat × Nat) × VtkFace)} (h : FGrow F F') {f : Nat} {S : Finset Nat} (hf : HasF F f S) :
    HasF F' f S := by
  obtain ⟨x, hx, e⟩ := hf
  obtain ⟨y, hy, e'⟩ := h f x hx
  exact ⟨y, hy, e'.trans e⟩

theorem count_other {occ : List (Finset Nat)} {S T : Finset Nat} (h : S ≠ T) : (occ ++ [T]).count S = occ.count S := by
  rw [List.count_append, List.count_singleton]
  have : (T == S) = false := by simpa using fun e => h e.symm
  rw [this]
  simp

section face
variable {E : List ((Nat × Nat) × Nat)} {F : List ((Nat × Nat) × VtkFace)} {occ : List (Finset Nat)}

/-- A face with one of the keys of the triangle is the triangle. -/
theorem key_set (hE : EOk E) (hF : FOk E F occ) {u v w e : Nat} (he : IsE E e u v) {x : (Nat × Nat) × VtkFace}
    (hx : x ∈ F) (hk : x.1 = (e, w)) : vset3 x = {u, v, w} := by
  obtain ⟨i, hi, rfl⟩ := List.getElem_of_mem hx
  obtain ⟨a, b, c, e0, e1, e2, d1, d2, d3, hv, hes, i0, i1, i2, hk'⟩ :=
    (hF.face i _ (List.getElem?_eq_getElem hi)).shape
  rw [hk'] at hk
  obtain ⟨rfl, rfl⟩ := Prod.mk.inj hk
  unfold vset3
  rw [hv]
  rcases i0.ends he with ⟨rfl, rfl⟩ | ⟨rfl, rfl⟩ <;>
  · ext z
    simp only [List.toFinset_cons, List.toFinset_nil, Finset.mem_insert, Finset.notMem_empty, Finset.mem_singleton]
    tauto

/-- The triangle, if there, has one of its keys. -/
theorem set_key (hE : EOk E) (hF : FOk E F occ) {u v w e0 e1 e2 : Nat} (huv : u ≠ v) (hvw : v ≠ w) (hwu : w ≠ u)
    (h0 : IsE E e0 u v) (h1 : IsE E e1 v w) (h2 : IsE E e2 w u) {x : (Nat × Nat) × VtkFace} (hx : x ∈ F)
    (hs : vset3 x = {u, v, w}) : x.1 = (e0, w) ∨ x.1 = (e1, u) ∨ x.1 = (e2, v) := by
  obtain ⟨i, hi, rfl⟩ := List.getElem_of_mem hx
  obtain ⟨a, b, c, f0, f1, f2, d1, d2, d3, hv, hes, i0, i1, i2, hk⟩ :=
    (hF.face i _ (List.getElem?_eq_getElem hi)).shape
  unfold vset3 at hs
  rw [hv] at hs
  have hm : ∀ z, (z = a ∨ z = b ∨ z = c) ↔ (z = u ∨ z = v ∨ z = w) := by
    intro z
    have := Finset.ext_iff.1 hs z
    simpa using this
  rw [hk]
  have ha := (hm a).1 (Or.inl rfl)
  have hb := (hm b).1 (Or.inr (Or.inl rfl))
  have hc := (hm c).1 (Or.inr (Or.inr rfl))
  rcases hc with rfl | rfl | rfl
  · right; left
    have : IsE E f0 v w := by
      rcases ha with rfl | rfl | rfl <;> rcases hb with rfl | rfl | rfl <;>
        first | exact absurd rfl d1 | exact absurd rfl d2 | exact absurd rfl d3 | exact i0 | exact i0.symm
    rw [this.unique hE h1]
  · right; right
    have : IsE E f0 w u := by
      rcases ha with rfl | rfl | rfl <;> rcases hb with rfl | rfl | rfl <;>
        first | exact absurd rfl d1 | exact absurd rfl d2 | exact absurd rfl d3 | exact i0 | exact i0.symm
    rw [this.unique hE h2]
  · left
    have : IsE E f0 u v := by
      rcases ha with rfl | rfl | rfl <;> rcases hb with rfl | rfl | rfl <;>
        first | exact absurd rfl d1 | exact absurd rfl d2 | exact absurd rfl d3 | exact i0 | exact i0.symm
    rw [this.unique hE h0]

theorem findFace_spec (hE : EOk E) (hF : FOk E F occ) {u v w e0 e1 e2 : Nat} (huv : u ≠ v) (hvw : v ≠ w) (hwu : w ≠ u)
    (h0 : IsE E e0 u v) (h1 : IsE E e1 v w) (h2 : IsE E e2 w u) :
    (∃ k i, vtkFindFace [u, v, w] [e0, e1, e2] F [0, 1, 2] = ok (some (k, i)) ∧ HasF F i {u, v, w} ∧
      ∀ x ∈ F, x.1 = k ↔ vset3 x = {u, v, w}) ∨
    (vtkFindFace [u, v, w] [e0, e1, e2] F [0, 1, 2] = ok none ∧ ∀ x ∈ F, vset3 x ≠ {u, v, w}) := by
  have hit : ∀ {k f}, F.lookup k = some f → (∀ x ∈ F, x.1 = k → vset3 x = {u, v, w}) →
      HasF F f.index {u, v, w} ∧ ∀ x ∈ F, x.1 = k ↔ vset3 x = {u, v, w} := by
    intro k f hl hset
    obtain ⟨i, hi⟩ := lookup_some hl
    have hidx : f.index = i := (hF.face i _ hi).index
    have hm := List.mem_of_getElem? hi
    refine ⟨⟨_, hidx ▸ hi, hset _ hm rfl⟩, fun x hx => ⟨hset x hx, fun hs => ?_⟩⟩
    obtain ⟨j, hj, rfl⟩ := List.getElem_of_mem hx
    have : j = i := nodup_index hF.nodup (a := {u, v, w})
      (by rw [List.getElem?_map, List.getElem?_eq_getElem hj]; simp [hs])
      (by rw [List.getElem?_map, hi]; simp [hset _ hm rfl])
    subst this
    rw [List.getElem?_eq_getElem hj] at hi
    rw [Option.some.inj hi]
  have s0 : ∀ x ∈ F, x.1 = (e0, w) → vset3 x = {u, v, w} := fun x hx hk => key_set hE hF h0 hx hk
  have s1 : ∀ x ∈ F, x.1 = (e1, u) → vset3 x = {u, v, w} := fun x hx hk => by
    rw [key_set hE hF h1 hx hk]
    ext z
    simp only [Finset.mem_insert, Finset.mem_singleton]
    tauto
  have s2 : ∀ x ∈ F, x.1 = (e2, v) → vset3 x = {u, v, w} := fun x hx hk => by
    rw [key_set hE hF h2 hx hk]
    ext z
    simp only [Finset.mem_insert, Finset.mem_singleton]
    tauto
  have hstep : vtkFindFace [u, v, w] [e0, e1, e2] F [0, 1, 2] =
      match F.lookup (e0, w) with
      | some f => ok (some ((e0, w), f.index))
      | none => match F.lookup (e1, u) with
        | some f => ok (some ((e1, u), f.index))
        | none => match F.lookup (e2, v) with
          | some f => ok (some ((e2, v), f.index))
          | none => ok none := by
    simp only [vtkFindFace]
    rfl
  rw [hstep]
  cases l0 : F.lookup (e0, w) with
  | some f =>
    obtain ⟨a, b⟩ := hit l0 s0
    exact Or.inl ⟨_, _, rfl, a, b⟩
  | none =>
    cases l1 : F.lookup (e1, u) with
    | some f =>
      obtain ⟨a, b⟩ := hit l1 s1
      exact Or.inl ⟨_, _, rfl, a, b⟩
    | none =>
      cases l2 : F.lookup (e2, v) with
      | some f =>
        obtain ⟨a, b⟩ := hit l2 s2
        exact Or.inl ⟨_, _, rfl, a, b⟩
      | none =>
        refine Or.inr ⟨rfl, fun x hx hs => ?_⟩
        rcases set_key hE hF huv hvw hwu h0 h1 h2 hx hs with k | k | k
        · exact lookup_none l0 x hx k
        · exact lookup_none l1 x hx k
        · exact lookup_none l2 x hx k

theorem insertFace_spec (hE : EOk E) (hF : FOk E F occ) {u v w e0 e1 e2 : Nat} (huv : u ≠ v) (hvw : v ≠ w) (hwu : w ≠ u)
    (h0 : IsE E e0 u v) (h1 : IsE E e1 v w) (h2 : IsE E e2 w u) :
    ∃ i F', vtkInsertFace [u, v, w] [e0, e1, e2] F = ok (i, F') ∧ FOk E F' (occ ++ [{u, v, w}]) ∧
      HasF F' i {u, v, w} ∧ FGrow F F' := by
  rcases findFace_spec hE hF huv hvw hwu h0 h1 h2 with ⟨k, i, hf, hhas, hk⟩ | ⟨hf, hno⟩
  · have hget : ∀ j : Nat, (vtkUnmark k F)[j]? =
        F[j]?.map fun f : (Nat × Nat) × VtkFace => if f.1 = k then (f.1, { f.2 with marker := 0 }) else f := by
      intro j
      unfold vtkUnmark
      rw [List.getElem?_map]
    have hfs : ∀ f : (Nat × Nat) × VtkFace,
        vset3 (if f.1 = k then (f.1, { f.2 with marker := 0 }) else f) = vset3 f := by
      intro f; split <;> rfl
    have hgrow : FGrow F (vtkUnmark k F) := by
      intro j x hx
      exact ⟨_, by rw [hget, hx]; rfl, hfs x⟩
    refine ⟨i, vtkUnmark k F, ?_, ⟨?_, ?_, ?_⟩, hhas.grow hgrow, hgrow⟩
    · unfold vtkInsertFace
      rw [hf]
      rfl
    · intro j y hy
      rw [hget, Option.map_eq_some_iff] at hy
      obtain ⟨x, hx, rfl⟩ := hy
      obtain ⟨a1, a2, a3⟩ := hF.face j x hx
      have hm := List.mem_of_getElem? hx
      by_cases hxk : x.1 = k
      · have hs := (hk x hm).1 hxk
        rw [if_pos hxk]
        refine ⟨a1, a2, ?_⟩
        have hin : ({u, v, w} : Finset Nat) ∈ occ := (hF.mem _).1 (List.mem_map.2 ⟨x, hm, hs⟩)
        have hc : 0 < occ.count ({u, v, w} : Finset Nat) := List.count_pos_iff.2 hin
        show 0 = if (occ ++ [{u, v, w}]).count (vset3 x) = 1 then 1 else 0
        rw [hs, List.count_append, List.count_singleton_self, if_neg (by omega)]
      · rw [if_neg hxk]
        refine ⟨a1, a2, ?_⟩
        have hs : vset3 x ≠ {u, v, w} := fun h => hxk ((hk x hm).2 h)
        rw [a3, count_other hs]
    · unfold vtkUnmark
      rw [List.map_map]
      have : vset3 ∘ (fun f : (Nat × Nat) × VtkFace => if f.1 = k then (f.1, { f.2 with marker := 0 }) else f) = vset3 :=
        funext hfs
      rw [this]
      exact hF.nodup
    · intro S
      unfold vtkUnmark
      rw [List.map_map]
      have : vset3 ∘ (fun f : (Nat × Nat) × VtkFace => if f.1 = k then (f.1, { f.2 with marker := 0 }) else f) = vset3 :=
        funext hfs
      rw [this, hF.mem, List.mem_append]
      refine ⟨Or.inl, ?_⟩
      rintro (h | h)
      · exact h
      · obtain rfl : S = {u, v, w} := by simpa using h
        obtain ⟨x, hx, hs⟩ := hhas
        exact (hF.mem _).1 (List.mem_map.2 ⟨x, List.mem_of_getElem? hx, hs⟩)
  · have hset : vset3 ((e0, w), ⟨[u, v, w], [e0, e1, e2], F.length, 1⟩) = {u, v, w} := by
      unfold vset3
      simp
    have hnotin : ({u, v, w} : Finset Nat) ∉ occ := by
      intro h
      obtain ⟨x, hx, hs⟩ := List.mem_map.1 ((hF.mem _).2 h)
      exact hno x hx hs
    refine ⟨F.length, F ++ [((e0, w), ⟨[u, v, w], [e0, e1, e2], F.length, 1⟩)], ?_, ⟨?_, ?_, ?_⟩, ?_, ?_⟩
    · unfold vtkInsertFace
      rw [hf]
      rfl
    · intro j x hx
      by_cases hj : j < F.length
      · rw [List.getElem?_append_left hj] at hx
        obtain ⟨a1, a2, a3⟩ := hF.face j x hx
        have hs := hno x (List.mem_of_getElem? hx)
        refine ⟨a1, a2, ?_⟩
        rw [a3, count_other hs]
      · have hj' := (List.getElem?_eq_some_iff.1 hx).1
        simp only [List.length_append, List.length_cons, List.length_nil] at hj'
        obtain rfl : j = F.length := by omega
        rw [List.getElem?_append_right le_rfl, Nat.sub_self] at hx
        obtain rfl := Option.some.inj hx
        refine ⟨rfl, ⟨u, v, w, e0, e1, e2, huv, hvw, hwu, rfl, rfl, h0, h1, h2, rfl⟩, ?_⟩
        rw [hset, List.count_append, List.count_singleton_self, List.count_eq_zero_of_not_mem hnotin]
        rfl
    · rw [List.map_append, List.nodup_append]
      refine ⟨hF.nodup, by simp, ?_⟩
      intro x hx y hy
      obtain ⟨z, hz, rfl⟩ := List.mem_map.1 hx
      simp only [List.map_cons, List.map_nil, List.mem_cons, List.not_mem_nil, or_false] at hy
      rw [hy, hset]
      exact hno z hz
    · intro S
      rw [List.map_append, List.mem_append, List.mem_append, hF.mem]
      simp [hset]
    · exact ⟨_, by rw [List.getElem?_append_right le_rfl, Nat.sub_self]; rfl, hset⟩
    · intro j x hx
      exact ⟨x, by rw [List.getElem?_append_left (List.getElem?_eq_some_iff.1 hx).1]; exact hx, rfl⟩

end face

/-! ### Tetrahedra -/

/-- The pairs of vertices of a tetrahedron, in the order of the program. -/
def tetPairs : List Nat → List (Nat × Nat)
  | [a, b, c, d] => [(a, b), (b, c), (c, a), (a, d), (b, d), (c, d)]
  | _ => []

/-- The triangles of a tetrahedron, in the order of the program. -/
def tetSets : List Nat → List (Finset Nat)
  | [a, b, c, d] => [{a, b, c}, {a, b, d}, {b, c, d}, {c, d, a}]
  | _ => []

/-- The edges and the faces of a cell are those of its tetrahedron. -/
structure CellOk (E : List ((Nat × Nat) × Nat)) (F : List ((Nat × Nat) × VtkFace)) (t : List Nat) (c : VtkCell) : Prop where
  vertices : c.vertices = t
  edges : List.Forall₂ (fun e (p : Nat × Nat) => IsE E e p.1 p.2) c.edges (tetPairs t)
  faces : List.Forall₂ (fun f S => HasF F f S) c.faces (tetSets t)

theorem CellOk.mono {E E' : List ((Nat × Nat) × Nat)} {F F' : List ((Nat × Nat) × VtkFace)} (hE : E <+: E')
    (hF : FGrow F F') {t : List Nat} {c : VtkCell} (h : CellOk E F t c) : CellOk E' F' t c :=
  ⟨h.vertices, h.edges.imp fun _ _ i => i.mono hE, h.faces.imp fun _ _ i => i.grow hF⟩

/-- After the tetrahedra `tets`. -/
structure VOk (s : VtkState) (tets : List (List Nat)) : Prop where
  edges : EOk s.edges
  keys : ∀ k, k ∈ s.edges.map Prod.fst ↔ ∃ t ∈ tets, ∃ p ∈ tetPairs t, k = (min p.1 p.2, max p.1 p.2)
  faces : FOk s.edges s.faces (tets.flatMap tetSets)
  cells : List.Forall₂ (CellOk s.edges s.faces) tets s.cells

theorem four_of {t : List Nat} (h : t.length = 4) : ∃ a b c d, t = [a, b, c, d] := by
  match t, h with
  | [a, b, c, d], _ => exact ⟨a, b, c, d, rfl⟩

theorem tetPairs_append (tets : List (List Nat)) (a b c d : Nat) (k : Nat × Nat) :
    (((((((∃ t ∈ tets, ∃ p ∈ tetPairs t, k = (min p.1 p.2, max p.1 p.2)) ∨ k = (min a b, max a b)) ∨
      k = (min b c, max b c)) ∨ k = (min c a, max c a)) ∨ k = (min a d, max a d)) ∨ k = (min b d, max b d)) ∨
      k = (min c d, max c d)) ↔
      ∃ t ∈ tets ++ [[a, b, c, d]], ∃ p ∈ tetPairs t, k = (min p.1 p.2, max p.1 p.2) := by
  have h : (∃ t ∈ tets ++ [[a, b, c, d]], ∃ p ∈ tetPairs t, k = (min p.1 p.2, max p.1 p.2)) ↔
      (∃ t ∈ tets, ∃ p ∈ tetPairs t, k = (min p.1 p.2, max p.1 p.2)) ∨
      ∃ p ∈ tetPairs [a, b, c, d], k = (min p.1 p.2, max p.1 p.2) := by
    constructor
    · rintro ⟨t, ht, hh⟩
      rcases List.mem_append.1 ht with ht | ht
      · exact Or.inl ⟨t, ht, hh⟩
      · rw [List.mem_singleton] at ht
        subst ht
        exact Or.inr hh
    · rintro (⟨t, ht, hh⟩ | hh)
      · exact ⟨t, List.mem_append_left _ ht, hh⟩
      · exact ⟨_, List.mem_append_right _ (List.mem_singleton_self _), hh⟩
  rw [h]
  simp only [tetPairs, List.mem_cons, List.not_mem_nil, or_false, exists_eq_or_imp, exists_eq_left, or_assoc]

theorem vtkCell_spec {s : VtkState} {tets : List (List Nat)} (hs : VOk s tets) {t : List Nat} (h4 : t.length = 4)
    (hn : t.Nodup) : ∃ s', vtkCell s (t, true) = ok s' ∧ VOk s' (tets ++ [t]) := by
  obtain ⟨a, b, c, d, rfl⟩ := four_of h4
  simp only [List.nodup_cons, List.mem_cons, List.not_mem_nil, or_false, not_or, not_false_eq_true, and_true,
    List.nodup_nil] at hn
  obtain ⟨⟨hab, hac, had⟩, ⟨hbc, hbd⟩, hcd⟩ := hn
  obtain ⟨k0, i0, p0, m0⟩ := insertEdge_spec hs.edges hab
  set E0 := vtkInsertEdge a b s.edges with hE0
  obtain ⟨k1, i1, p1, m1⟩ := insertEdge_spec k0 hbc
  set E1 := vtkInsertEdge b c E0.2 with hE1
  obtain ⟨k2, i2, p2, m2⟩ := insertEdge_spec k1 (Ne.symm hac)
  set E2 := vtkInsertEdge c a E1.2 with hE2
  obtain ⟨k3, i3, p3, m3⟩ := insertEdge_spec k2 had
  set E3 := vtkInsertEdge a d E2.2 with hE3
  obtain ⟨k4, i4, p4, m4⟩ := insertEdge_spec k3 hbd
  set E4 := vtkInsertEdge b d E3.2 with hE4
  obtain ⟨k5, i5, p5, m5⟩ := insertEdge_spec k4 hcd
  set E5 := vtkInsertEdge c d E4.2 with hE5
  have q4 := p5
  have q3 := p4.trans q4
  have q2 := p3.trans q3
  have q1 := p2.trans q2
  have q0 := p1.trans q1
  have q := p0.trans q0
  have j0 := i0.mono q0
  have j1 := i1.mono q1
  have j2 := i2.mono q2
  have j3 := i3.mono q3
  have j4 := i4.mono q4
  have j5 := i5
  obtain ⟨f0, F0, r0, o0, a0, g0⟩ := insertFace_spec k5 (hs.faces.mono q) hab hbc (Ne.symm hac) j0 j1 j2
  obtain ⟨f1, F1, r1, o1, a1, g1⟩ := insertFace_spec k5 o0 hab hbd (Ne.symm had) j0 j4 j3.symm
  obtain ⟨f2, F2, r2, o2, a2, g2⟩ := insertFace_spec k5 o1 hbc hcd (Ne.symm hbd) j1 j5 j4.symm
  obtain ⟨f3, F3, r3, o3, a3, g3⟩ := insertFace_spec k5 o2 hcd (Ne.symm had) hac j5 j3.symm j2.symm
  have hrun : vtkCell s ([a, b, c, d], true) = ok ⟨E5.2, F3, s.cells ++
      [⟨[a, b, c, d], [E0.1, E1.1, E2.1, E3.1, E4.1, E5.1], [f0, f1, f2, f3]⟩]⟩ := by
    have hrfl : vtkCell s ([a, b, c, d], true) =
        (vtkInsertFace [a, b, c] [E0.1, E1.1, E2.1] s.faces >>= fun p0 =>
          vtkInsertFace [a, b, d] [E0.1, E4.1, E3.1] p0.2 >>= fun p1 =>
          vtkInsertFace [b, c, d] [E1.1, E5.1, E4.1] p1.2 >>= fun p2 =>
          vtkInsertFace [c, d, a] [E5.1, E3.1, E2.1] p2.2 >>= fun p3 =>
          ok ⟨E5.2, p3.2, s.cells ++
            [⟨[a, b, c, d], [E0.1, E1.1, E2.1, E3.1, E4.1, E5.1], [p0.1, p1.1, p2.1, p3.1]⟩]⟩) := rfl
    rw [hrfl, r0, ok_bind, r1, ok_bind, r2, ok_bind, r3, ok_bind]
  refine ⟨_, hrun, k5, ?_, ?_, ?_⟩
  · intro k
    rw [m5, m4, m3, m2, m1, m0, hs.keys]
    exact tetPairs_append tets a b c d k
  · have : (tets ++ [[a, b, c, d]]).flatMap tetSets =
        (((tets.flatMap tetSets ++ [{a, b, c}]) ++ [{a, b, d}]) ++ [{b, c, d}]) ++ [{c, d, a}] := by
      simp [List.flatMap_append, tetSets]
    rw [this]
    exact o3
  · have hg := ((g0.trans g1).trans g2).trans g3
    refine List.rel_append (hs.cells.imp fun _ _ h => h.mono q hg) ?_
    refine List.Forall₂.cons ⟨rfl, ?_, ?_⟩ List.Forall₂.nil
    · exact .cons j0 (.cons j1 (.cons j2 (.cons j3 (.cons j4 (.cons j5 .nil)))))
    · exact .cons (a0.grow ((g1.trans g2).trans g3)) (.cons (a1.grow (g2.trans g3)) (.cons (a2.grow g3) (.cons a3 .nil)))

theorem vtkCells_spec (cells : List (List Nat × Bool)) (hc : ∀ c ∈ cells, c.2 = true ∧ c.1.length = 4 ∧ c.1.Nodup)
    (s : VtkState) (tets : List (List Nat)) (hs : VOk s tets) :
    ∃ s', foldRes vtkCell s cells = ok s' ∧ VOk s' (tets ++ cells.map Prod.fst) := by
  induction cells generalizing s tets with
  | nil => exact ⟨s, rfl, by simpa using hs⟩
  | cons x cells ih =>
    obtain ⟨h1, h2, h3⟩ := hc x (by simp)
    obtain ⟨t, u⟩ := x
    simp only at h1
    subst h1
    obtain ⟨s1, e1, o1⟩ := vtkCell_spec hs h2 h3
    obtain ⟨s2, e2, o2⟩ := ih (fun c hc' => hc c (List.mem_cons_of_mem _ hc')) s1 _ o1
    refine ⟨s2, ?_, by simpa using o2⟩
    rw [foldRes_cons, e1]
    exact e2

theorem VOk.init : VOk ⟨[], [], []⟩ [] :=
  ⟨⟨by simp, by simp, by simp⟩, by simp, ⟨by simp, by simp, by simp⟩, .nil⟩

/-! ### Tables -/

theorem table_spec {α β : Type} (idx : α → Nat) (val : α → β) (xs : List α) (pre rest : List β)
    (hl : rest.length = xs.length) (hi : ∀ (i : Nat) x, xs[i]? = some x → idx x = pre.length + i) :
    foldRes (fun l x => vset l (idx x) (val x)) (pre ++ rest) xs = ok (pre ++ xs.map val) := by
  induction xs generalizing pre rest with
  | nil =>
    obtain rfl : rest = [] := List.length_eq_zero_iff.1 hl
    rfl
  | cons x xs ih =>
    match rest, hl with
    | y :: rest, hl =>
      have h0 : idx x = pre.length := by simpa using hi 0 x rfl
      have hv : vset (pre ++ y :: rest) (idx x) (val x) = ok ((pre ++ [val x]) ++ rest) := by
        rw [h0, vset_of_lt _ (by simp)]
        simp
      rw [foldRes_cons, hv, ok_bind, ih (pre ++ [val x]) rest (by simpa using hl)]
      · simp
      · intro i z hz
        have := hi (i + 1) z (by simpa using hz)
        simp only [List.length_append, List.length_cons, List.length_nil]
        omega

/-- Setting some entries. -/
theorem setAll_spec {m : List Nat} {k : Nat} (xs : List Nat) (h : ∀ x ∈ xs, x < m.length) :
    ∃ m', foldRes (fun m x => vset m x k) m xs = ok m' ∧ m'.length = m.length ∧
      ∀ (v : Nat), v < m.length → m'[v]? = if v ∈ xs then some k else m[v]? := by
  induction xs generalizing m with
  | nil => exact ⟨m, rfl, rfl, fun v _ => by simp⟩
  | cons x xs ih =>
    have hx := h x (by simp)
    obtain ⟨m', e, l, g⟩ := ih (m := m.set x k) (fun y hy => by simpa using h y (List.mem_cons_of_mem _ hy))
    refine ⟨m', ?_, by simpa using l, ?_⟩
    · rw [foldRes_cons, vset_of_lt _ hx]
      exact e
    · intro v hv
      rw [g v (by simpa using hv)]
      by_cases h1 : v ∈ xs
      · rw [if_pos h1, if_pos (List.mem_cons_of_mem _ h1)]
      · rw [if_neg h1, List.getElem?_set]
        by_cases h2 : x = v
        · subst h2
          simp [hx]
        · rw [if_neg h2, if_neg]
          simp only [List.mem_cons, not_or]
          exact ⟨fun e => h2 e.symm, h1⟩

theorem markBorder_spec {f : VtkFace} {m : List Nat × List Nat} (hv : ∀ v ∈ f.vertices, v < m.1.length)
    (he : ∀ e ∈ f.edges, e < m.2.length) :
    ∃ m', vtkMarkBorder f m = ok m' ∧ m'.1.length = m.1.length ∧ m'.2.length = m.2.length ∧
      (∀ (v : Nat), v < m.1.length → m'.1[v]? = if 0 < f.marker ∧ v ∈ f.vertices then some f.marker else m.1[v]?) ∧
      ∀ (e : Nat), e < m.2.length → m'.2[e]? = if 0 < f.marker ∧ e ∈ f.edges then some f.marker else m.2[e]? := by
  unfold vtkMarkBorder
  by_cases h : 0 < f.marker
  · obtain ⟨a, ea, la, ga⟩ := setAll_spec (k := f.marker) f.vertices hv
    obtain ⟨b, eb, lb, gb⟩ := setAll_spec (k := f.marker) f.edges he
    refine ⟨(a, b), ?_, la, lb, ?_, ?_⟩
    · rw [if_pos h, ea, ok_bind, eb, ok_bind]
    · simpa [h] using ga
    · simpa [h] using gb
  · exact ⟨m, by rw [if_neg h], rfl, rfl, by simp [h], by simp [h]⟩

/-- The marks of a list of marked faces. -/
theorem marks_spec (xs : List ((Nat × Nat) × VtkFace)) (n0 n1 : Nat)
    (hx : ∀ x ∈ xs, (∀ v ∈ x.2.vertices, v < n0) ∧ (∀ e ∈ x.2.edges, e < n1) ∧ (x.2.marker = 0 ∨ x.2.marker = 1))
    (m : List Nat × List Nat) (l0 : m.1.length = n0) (l1 : m.2.length = n1) :
    ∃ m', foldRes (fun m (x : (Nat × Nat) × VtkFace) => vtkMarkBorder x.2 m) m xs = ok m' ∧
      m'.1.length = n0 ∧ m'.2.length = n1 ∧
      (∀ (v : Nat), v < n0 → ((∃ x ∈ xs, x.2.marker = 1 ∧ v ∈ x.2.vertices) → m'.1[v]? = some 1) ∧
        ((¬ ∃ x ∈ xs, x.2.marker = 1 ∧ v ∈ x.2.vertices) → m'.1[v]? = m.1[v]?)) ∧
      ∀ (e : Nat), e < n1 → ((∃ x ∈ xs, x.2.marker = 1 ∧ e ∈ x.2.edges) → m'.2[e]? = some 1) ∧
        ((¬ ∃ x ∈ xs, x.2.marker = 1 ∧ e ∈ x.2.edges) → m'.2[e]? = m.2[e]?) := by
  induction xs generalizing m with
  | nil => exact ⟨m, rfl, l0, l1, by simp, by simp⟩
  | cons x xs ih =>
    obtain ⟨hv, he, hm⟩ := hx x (by simp)
    obtain ⟨m1, e1, a0, a1, g0, g1⟩ := markBorder_spec (f := x.2) (m := m) (by rwa [l0]) (by rwa [l1])
    obtain ⟨m2, e2, b0, b1, k0, k1⟩ := ih (fun y hy => hx y (List.mem_cons_of_mem _ hy)) m1 (a0.trans l0) (a1.trans l1)
    have hpos : 0 < x.2.marker ↔ x.2.marker = 1 := by omega
    refine ⟨m2, ?_, b0, b1, ?_, ?_⟩
    · rw [foldRes_cons, e1]
      exact e2
    · intro v hv'
      have g := g0 v (by omega)
      obtain ⟨ka, kb⟩ := k0 v hv'
      by_cases hr : ∃ y ∈ xs, y.2.marker = 1 ∧ v ∈ y.2.vertices
      · have hin : ∃ y ∈ x :: xs, y.2.marker = 1 ∧ v ∈ y.2.vertices := by
          obtain ⟨y, hy, hh⟩ := hr
          exact ⟨y, List.mem_cons_of_mem _ hy, hh⟩
        exact ⟨fun _ => ka hr, fun h => absurd hin h⟩
      · rw [kb hr, g]
        by_cases hh : x.2.marker = 1 ∧ v ∈ x.2.vertices
        · rw [if_pos ⟨hpos.2 hh.1, hh.2⟩, hh.1]
          exact ⟨fun _ => rfl, fun h => absurd ⟨x, by simp, hh⟩ h⟩
        · rw [if_neg (fun h => hh ⟨hpos.1 h.1, h.2⟩)]
          refine ⟨?_, fun _ => rfl⟩
          rintro ⟨y, hy, h⟩
          rcases List.mem_cons.1 hy with rfl | hy
          · exact absurd h hh
          · exact absurd ⟨y, hy, h⟩ hr
    · intro v hv'
      have g := g1 v (by omega)
      obtain ⟨ka, kb⟩ := k1 v hv'
      by_cases hr : ∃ y ∈ xs, y.2.marker = 1 ∧ v ∈ y.2.edges
      · have hin : ∃ y ∈ x :: xs, y.2.marker = 1 ∧ v ∈ y.2.edges := by
          obtain ⟨y, hy, hh⟩ := hr
          exact ⟨y, List.mem_cons_of_mem _ hy, hh⟩
        exact ⟨fun _ => ka hr, fun h => absurd hin h⟩
      · rw [kb hr, g]
        by_cases hh : x.2.marker = 1 ∧ v ∈ x.2.edges
        · rw [if_pos ⟨hpos.2 hh.1, hh.2⟩, hh.1]
          exact ⟨fun _ => rfl, fun h => absurd ⟨x, by simp, hh⟩ h⟩
        · rw [if_neg (fun h => hh ⟨hpos.1 h.1, h.2⟩)]
          refine ⟨?_, fun _ => rfl⟩
          rintro ⟨y, hy, h⟩
          rcases List.mem_cons.1 hy with rfl | hy
          · exact absurd h hh
          · exact absurd ⟨y, hy, h⟩ hr

/-- The three tables of the faces. -/
theorem fold3 {σ α β γ : Type} (f : β → α → Res β) (g : γ → α → Res γ) (h : σ → α → Res σ) (xs : List α) (b : β) (c : γ)
    (s : σ) {b' : β} {c' : γ} {s' : σ} (hb : foldRes f b xs = ok b') (hc : foldRes g c xs = ok c')
    (hs : foldRes h s xs = ok s') :
    foldRes (fun (r : β × γ × σ) x => f r.1 x >>= fun b => g r.2.1 x >>= fun c => h r.2.2 x >>= fun s => ok (b, c, s))
      (b, c, s) xs = ok (b', c', s') := by
  induction xs generalizing b c s with
  | nil =>
    cases hb; cases hc; cases hs
    rfl
  | cons x xs ih =>
    rw [foldRes_cons, bind_eq_ok] at hb hc hs
    obtain ⟨b1, hb1, hb2⟩ := hb
    obtain ⟨c1, hc1, hc2⟩ := hc
    obtain ⟨s1, hs1, hs2⟩ := hs
    rw [foldRes_cons]
    simp only [hb1, hc1, hs1, ok_bind]
    exact ih b1 c1 s1 hb2 hc2 hs2

/-! ### Triangles of a tetrahedron -/

theorem tetSets_card {t : List Nat} (h4 : t.length = 4) (hn : t.Nodup) {S : Finset Nat} (hS : S ∈ tetSets t) :
    S.card = 3 ∧ S ⊆ t.toFinset := by
  obtain ⟨a, b, c, d, rfl⟩ := four_of h4
  simp only [List.nodup_cons, List.mem_cons, List.not_mem_nil, or_false, not_or, not_false_eq_true, and_true,
    List.nodup_nil] at hn
  obtain ⟨⟨hab, hac, had⟩, ⟨hbc, hbd⟩, hcd⟩ := hn
  simp only [tetSets, List.mem_cons, List.not_mem_nil, or_false] at hS
  rcases hS with rfl | rfl | rfl | rfl
  all_goals
    refine ⟨Finset.card_eq_three.2 ⟨_, _, _, ?_, ?_, ?_, rfl⟩, ?_⟩
    · tauto
    · first | assumption | exact Ne.symm ‹_›
    · first | assumption | exact Ne.symm ‹_›
    · intro z
      simp only [List.toFinset_cons, List.toFinset_nil, Finset.mem_insert, Finset.notMem_empty, Finset.mem_singleton]
      tauto

theorem tetSets_complete {t : List Nat} (h4 : t.length = 4) (hn : t.Nodup) {S : Finset Nat} (hS : S ⊆ t.toFinset)
    (h3 : S.card = 3) : S ∈ tetSets t := by
  have hc : t.toFinset.card = 4 := by rw [List.toFinset_card_of_nodup hn, h4]
  obtain ⟨x, hx⟩ := Finset.card_eq_one.1 (show (t.toFinset \ S).card = 1 by rw [Finset.card_sdiff_of_subset hS, hc, h3])
  have hSe : S = t.toFinset.erase x := by
    rw [Finset.erase_eq, ← hx, Finset.sdiff_sdiff_eq_self hS]
  have hxt : x ∈ t.toFinset := (Finset.mem_sdiff.1 (hx ▸ Finset.mem_singleton_self x)).1
  obtain ⟨a, b, c, d, rfl⟩ := four_of h4
  simp only [List.nodup_cons, List.mem_cons, List.not_mem_nil, or_false, not_or, not_false_eq_true, and_true,
    List.nodup_nil] at hn
  obtain ⟨⟨hab, hac, had⟩, ⟨hbc, hbd⟩, hcd⟩ := hn
  have hmem : ∀ z, z ∈ S ↔ z ≠ x ∧ (z = a ∨ z = b ∨ z = c ∨ z = d) := by
    intro z
    rw [hSe]
    simp
  simp only [List.mem_toFinset, List.mem_cons, List.not_mem_nil, or_false] at hxt
  simp only [tetSets, List.mem_cons, List.not_mem_nil, or_false]
  rcases hxt with rfl | rfl | rfl | rfl
  · right; right; left
    ext z
    rw [hmem]
    simp only [Finset.mem_insert, Finset.mem_singleton]
    constructor
    · tauto
    · rintro (rfl | rfl | rfl) <;> simp [Ne.symm hab, Ne.symm hac, Ne.symm had]
  · right; right; right
    ext z
    rw [hmem]
    simp only [Finset.mem_insert, Finset.mem_singleton]
    constructor
    · tauto
    · rintro (rfl | rfl | rfl) <;> simp [hab, Ne.symm hbc, Ne.symm hbd]
  · right; left
    ext z
    rw [hmem]
    simp only [Finset.mem_insert, Finset.mem_singleton]
    constructor
    · tauto
    · rintro (rfl | rfl | rfl) <;> simp [hac, hbc, Ne.symm hcd]
  · left
    ext z
    rw [hmem]
    simp only [Finset.mem_insert, Finset.mem_singleton]
    constructor
    · tauto
    · rintro (rfl | rfl | rfl) <;> simp [had, hbd, hcd]

theorem tetSets_nodup {t : List Nat} (h4 : t.length = 4) (hn : t.Nodup) : (tetSets t).Nodup := by
  obtain ⟨a, b, c, d, rfl⟩ := four_of h4
  simp only [List.nodup_cons, List.mem_cons, List.not_mem_nil, or_false, not_or, not_false_eq_true, and_true,
    List.nodup_nil] at hn
  obtain ⟨⟨hab, hac, had⟩, ⟨hbc, hbd⟩, hcd⟩ := hn
  have key : ∀ {S T : Finset Nat} (z : Nat), z ∈ S → z ∉ T → S ≠ T := fun z h h' e => h' (e ▸ h)
  have n1 : ({a, b, c} : Finset Nat) ≠ {a, b, d} := key c (by simp) (by simp [hcd, Ne.symm hac, Ne.symm hbc])
  have n2 : ({a, b, c} : Finset Nat) ≠ {b, c, d} := key a (by simp) (by simp [hab, hac, had])
  have n3 : ({a, b, c} : Finset Nat) ≠ {c, d, a} := key b (by simp) (by simp [Ne.symm hab, hbc, hbd])
  have n4 : ({a, b, d} : Finset Nat) ≠ {b, c, d} := key a (by simp) (by simp [hab, hac, had])
  have n5 : ({a, b, d} : Finset Nat) ≠ {c, d, a} := key b (by simp) (by simp [Ne.symm hab, hbc, hbd])
  have n6 : ({b, c, d} : Finset Nat) ≠ {c, d, a} := key b (by simp) (by simp [Ne.symm hab, hbc, hbd])
  simp only [tetSets, List.nodup_cons, List.mem_cons, List.not_mem_nil, or_false, not_or, not_false_eq_true, and_true,
    List.nodup_nil]
  exact ⟨⟨n1, n2, n3⟩, ⟨n4, n5⟩, n6⟩

theorem count_tetSets {tets : List (List Nat)} (ht : ∀ t ∈ tets, t.length = 4 ∧ t.Nodup) {S : Finset Nat}
    (h3 : S.card = 3) : (tets.flatMap tetSets).count S = tets.countP fun t => S ⊆ t.toFinset := by
  induction tets with
  | nil => simp
  | cons t tets ih =>
    obtain ⟨h4, hn⟩ := ht t (by simp)
    rw [List.flatMap_cons, List.count_append, ih (fun t h => ht t (List.mem_cons_of_mem _ h)), List.countP_cons]
    by_cases h : S ⊆ t.toFinset
    · rw [List.count_eq_one_of_mem (tetSets_nodup h4 hn) (tetSets_complete h4 hn h h3)]
      simp [h, Nat.add_comm]
    · rw [List.count_eq_zero_of_not_mem (fun hm => h (tetSets_card h4 hn hm).2)]
      simp [h]

end Verif
