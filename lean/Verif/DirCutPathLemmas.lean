import Verif.DirCutLemmas

/-
The boundary of a polygon with halved sides is a closed path around the polygon.
-/
namespace Verif

open Res

variable {K : Type} [Field K] [LinearOrder K] [IsStrictOrderedRing K]

/-- All steps of a path that goes on to `e` satisfy `Q`. -/
def Steps (Q : Nat × Nat → Nat → Prop) : List (Nat × Nat) → Nat → Prop
  | [], _ => True
  | [a], e => Q a e
  | a :: b :: l, e => Q a b.1 ∧ Steps Q (b :: l) e

theorem steps_append {Q : Nat × Nat → Nat → Prop} {b : Nat × Nat} {B : List (Nat × Nat)} {e : Nat} :
    ∀ {A : List (Nat × Nat)}, Steps Q A b.1 → Steps Q (b :: B) e → Steps Q (A ++ b :: B) e
  | [], _, hB => hB
  | [a], hA, hB => ⟨hA, hB⟩
  | a :: a' :: A, hA, hB => ⟨hA.1, steps_append (A := a' :: A) hA.2 hB⟩

theorem steps_zip {Q : Nat × Nat → Nat → Prop} {y : Nat × Nat} :
    ∀ {x : Nat × Nat} {T : List (Nat × Nat)}, Steps Q (x :: T) y.1 → ∀ a b, (a, b) ∈ (x :: T).zip (T ++ [y]) → Q a b.1
  | x, [], h, a, b, hab => by
      simp at hab
      rw [hab.1, hab.2]
      exact h
  | x, z :: T, h, a, b, hab => by
      rw [List.cons_append, List.zip_cons_cons, List.mem_cons] at hab
      rcases hab with hab | hab
      · cases hab
        exact h.1
      · exact steps_zip h.2 a b hab

theorem block_head (vs es : List Nat) (cut : Nat → Option SidePoint) (i : Nat) :
    ∃ x T, block vs es cut i = (vs.getD i 0, x) :: T := by
  unfold block
  cases cut i with
  | none => exact ⟨_, _, rfl⟩
  | some s => exact ⟨_, _, rfl⟩

theorem steps_blocks {Q : Nat × Nat → Nat → Prop} {vs es : List Nat} {cut : Nat → Option SidePoint} {e : Nat} :
    ∀ (len k : Nat), (∀ i, k ≤ i → i + 1 < k + len → Steps Q (block vs es cut i) (vs.getD (i + 1) 0)) →
      (∀ i, k ≤ i → i + 1 = k + len → Steps Q (block vs es cut i) e) →
      Steps Q ((List.range' k len).flatMap (block vs es cut)) e
  | 0, k, _, _ => trivial
  | 1, k, _, h2 => by
      simp only [List.range'_one, List.flatMap_cons, List.flatMap_nil, List.append_nil]
      exact h2 k le_rfl rfl
  | len + 2, k, h1, h2 => by
      have ih := steps_blocks (len + 1) (k + 1) (fun i hi hl => h1 i (by omega) (by omega))
        (fun i hi hl => h2 i (by omega) (by omega))
      rw [List.range'_succ, List.flatMap_cons]
      obtain ⟨x, T, hx⟩ := block_head vs es cut (k + 1)
      rw [List.range'_succ, List.flatMap_cons, hx, List.cons_append] at ih ⊢
      exact steps_append (h1 k le_rfl (by omega)) ih

/-- A boundary is a closed path if each side is a step. -/
theorem boundary_steps {Q : Nat × Nat → Nat → Prop} {vs es : List Nat} {cut : Nat → Option SidePoint}
    (hl : es.length = vs.length)
    (h : ∀ i, i < vs.length → Steps Q (block vs es cut i) (vs.getD ((i + 1) % vs.length) 0)) :
    ∀ a b, (a, b) ∈ (boundary vs es cut).zip ((boundary vs es cut).rotate 1) → Q a b.1 := by
  rw [boundary_eq rfl hl]
  have hs : Steps Q ((List.range vs.length).flatMap (block vs es cut)) (vs.getD 0 0) := by
    rw [List.range_eq_range']
    apply steps_blocks
    · intro i _ hi
      have := h i (by omega)
      rwa [Nat.mod_eq_of_lt (by omega)] at this
    · intro i _ hi
      have := h i (by omega)
      rwa [show (i + 1) = vs.length by omega, Nat.mod_self] at this
  by_cases hn : vs.length = 0
  · rw [hn]; simp
  · obtain ⟨n, hn⟩ : ∃ n, vs.length = n + 1 := ⟨vs.length - 1, by omega⟩
    rw [hn, List.range_succ_eq_map, List.flatMap_cons] at hs ⊢
    obtain ⟨x, T, hx⟩ := block_head vs es cut 0
    rw [hx, List.cons_append] at hs ⊢
    rw [List.rotate_cons_succ, List.rotate_zero]
    exact steps_zip (y := (vs.getD 0 0, x)) hs

theorem getD_of_getElem? {l : List Nat} {i a : Nat} (h : l[i]? = some a) : l.getD i 0 = a := by
  simp [List.getD_eq_getElem?_getD, h]

/-- The boundary with the halved sides runs around the polygon. -/
theorem halved_encloses {m mid : Mesh K} {c : Nat} {vs es S : List Nat} {dirs : List Bool} (hb : BoundedBy m c vs es)
    (hR : RunsAlong m c vs es dirs) (hS : HalvedSides m mid es S) :
    Encloses mid c (boundary vs es (sidePoints (m.num .d0) (m.num .d1) dirs S)) := by
  have hc : c < m.num .d2 := lt_of_row hb.vertices
  have key := boundary_steps (vs := vs) (es := es) (cut := sidePoints (m.num .d0) (m.num .d1) dirs S)
    (Q := fun a b => ∃ (dir : Bool) (r l : Nat), mid.extremes a.2 = ok (if dir then (a.1, b) else (b, a.1)) ∧
      mid.row .nb12 a.2 = ok [r, l] ∧ (if dir then l else r) = c) hb.count ?_
  · exact fun a b hab => key a b hab
  intro i hi
  have ea := List.getElem?_eq_getElem hi
  have eb := List.getElem?_eq_getElem (l := vs) (Nat.mod_lt (i + 1) (by omega : 0 < vs.length))
  have ee := List.getElem?_eq_getElem (l := es) (i := i) (by rw [hb.count]; exact hi)
  have ed := List.getElem?_eq_getElem (l := dirs) (i := i) (by rw [hR.1]; exact hi)
  rw [getD_of_getElem? eb]
  generalize vs[i] = a at ea
  generalize vs[(i + 1) % vs.length]'_ = b at eb
  generalize es[i]'_ = e at ee
  generalize dirs[i]'_ = d at ed
  obtain ⟨hext, r, l, hrow, hside⟩ := hR.2 i a b e d ea eb ee ed
  have hel := lt_of_extremes hext
  unfold block sidePoints
  by_cases hiS : i ∈ S
  · obtain ⟨e', hee', hh⟩ := hS.halved (S.idxOf i) i (by rw [List.getElem?_idxOf hiS])
    rw [ee] at hee'
    cases hee'
    obtain ⟨a', b', p, q, x1, -, -, -, x2, x3⟩ := hh.ends
    have r0 := hh.polygons 0 _ (by omega) hrow
    have r1 := hh.polygons 1 _ (by omega) hrow
    rw [hext] at x1
    simp only [hiS, if_true, ed, Option.map_some, getD_of_getElem? ea]
    cases d with
    | true =>
      cases x1
      simp only [if_true] at hside
      subst hside
      simp only [sidePoint, if_true, Steps]
      refine ⟨⟨true, _, _, x2, r0, ?_⟩, ⟨true, _, _, x3, r1, ?_⟩⟩ <;> simp [hc]
    | false =>
      cases x1
      simp only [Bool.false_eq_true, if_false] at hside
      subst hside
      simp only [sidePoint, Bool.false_eq_true, if_false, Steps]
      refine ⟨⟨false, _, _, x3, r1, ?_⟩, ⟨false, _, _, x2, r0, ?_⟩⟩ <;> simp [hc]
  · simp only [hiS, if_false, getD_of_getElem? ea, getD_of_getElem? ee, Steps]
    exact ⟨d, r, l, (hS.extremes e hel).trans hext, (hS.polygons e hel).trans hrow, hside⟩

theorem mem_block {vs es S : List Nat} {dirs : List Bool} {n0 n1 i x : Nat} (hl : es.length = vs.length) (hd : dirs.length = vs.length)
    (hi : i < vs.length) (hx : x ∈ (block vs es (sidePoints n0 n1 dirs S) i).map Prod.snd) :
    (i ∉ S ∧ es[i]? = some x) ∨ (i ∈ S ∧ (x = n1 + 2 * S.idxOf i ∨ x = n1 + 2 * S.idxOf i + 1)) := by
  have ee := List.getElem?_eq_getElem (l := es) (i := i) (by omega)
  have ed := List.getElem?_eq_getElem (l := dirs) (i := i) (by omega)
  unfold block sidePoints at hx
  by_cases hiS : i ∈ S
  · right
    simp only [hiS, if_true, ed, Option.map_some, sidePoint] at hx
    refine ⟨hiS, ?_⟩
    cases hdi : dirs[i]'(by omega) <;> rw [hdi] at hx <;> simp at hx <;> omega
  · left
    simp only [hiS, if_false, getD_of_getElem? ee, List.map_cons, List.map_nil, List.mem_singleton] at hx
    exact ⟨hiS, by rw [hx, ee]⟩

/-- No edge appears twice in the boundary with the halved sides. -/
theorem boundary_once {m : Mesh K} {c : Nat} {vs es S : List Nat} {dirs : List Bool} (hb : BoundedBy m c vs es)
    (hd : dirs.length = vs.length) (hn : es.Nodup) (n0 : Nat) :
    ((boundary vs es (sidePoints n0 (m.num .d1) dirs S)).map Prod.snd).Nodup := by
  rw [boundary_eq rfl hb.count, List.map_flatMap, List.nodup_flatMap]
  constructor
  · intro i hi
    have hi := List.mem_range.1 hi
    have ed := List.getElem?_eq_getElem (l := dirs) (i := i) (by omega)
    unfold block sidePoints
    by_cases hiS : i ∈ S
    · simp only [hiS, if_true, ed, Option.map_some, sidePoint]
      cases dirs[i]'(by omega) <;> simp
    · simp [hiS]
  · apply List.Pairwise.imp_of_mem _ (List.nodup_range (n := vs.length))
    intro i j hi hj hij x hx hy
    have hi := List.mem_range.1 hi
    have hj := List.mem_range.1 hj
    have lt : ∀ i, es[i]? = some x → x < m.num .d1 := fun i h => hb.edge_lt x (List.mem_of_getElem? h)
    rcases mem_block hb.count hd hi hx with ⟨-, h1⟩ | ⟨s1, h1⟩ <;>
      rcases mem_block hb.count hd hj hy with ⟨-, h2⟩ | ⟨s2, h2⟩
    · exact hij ((List.getElem?_inj (by rw [hb.count]; exact hi) hn).1 (h1.trans h2.symm))
    · have := lt i h1
      omega
    · have := lt j h2
      omega
    · exact hij ((List.idxOf_inj s1).1 (by omega))

/-- The new vertices are on their sides. -/
theorem halved_onSides {m mid : Mesh K} {c : Nat} {vs es S : List Nat} {dirs : List Bool} (hb : BoundedBy m c vs es)
    (hR : RunsAlong m c vs es dirs) (hS : HalvedSides m mid es S) (pt : Nat → V3 K)
    (hp : ∀ v p, mid.point v = ok p → pt v = p) : OnSides pt vs (sidePoints (m.num .d0) (m.num .d1) dirs S) := by
  intro i s hs
  unfold sidePoints at hs
  split at hs
  · rename_i hiS
    obtain ⟨d, ed, rfl⟩ := Option.map_eq_some_iff.1 hs
    have hi : i < vs.length := by rw [← hR.1]; exact (List.getElem?_eq_some_iff.1 ed).1
    have ea := List.getElem?_eq_getElem hi
    have eb := List.getElem?_eq_getElem (l := vs) (Nat.mod_lt (i + 1) (by omega : 0 < vs.length))
    obtain ⟨e, ee, hh⟩ := hS.halved (S.idxOf i) i (by rw [List.getElem?_idxOf hiS])
    obtain ⟨a', b', p, q, x1, x4, x5, x6, -, -⟩ := hh.ends
    have hext := (hR.2 i _ _ e d ea eb ee ed).1
    rw [x1] at hext
    have hw : (sidePoint (m.num .d0) (m.num .d1) (S.idxOf i) d).w = m.num .d0 + S.idxOf i := by
      cases d <;> rfl
    have hab : (a' = vs[i] ∧ b' = vs[(i + 1) % vs.length]'(Nat.mod_lt (i + 1) (by omega : 0 < vs.length))) ∨
        (a' = vs[(i + 1) % vs.length]'(Nat.mod_lt (i + 1) (by omega : 0 < vs.length)) ∧ b' = vs[i]) := by
      cases d
      · simp at hext; exact Or.inr hext
      · simp at hext; exact Or.inl hext
    have hlt : ∀ v ∈ vs, ∀ x, m.point v = ok x → pt v = x := fun v hv x hx =>
      hp v x (by rw [point_congr (hS.coordinates v (hb.vertex_lt v hv)), hx])
    refine ⟨_, _, 1 / 2, ea, eb, ?_⟩
    rw [hw, hp _ _ x6]
    rcases hab with ⟨h1, h2⟩ | ⟨h1, h2⟩
    · rw [← h1, ← h2, hlt a' (h1 ▸ List.getElem_mem _) p x4, hlt b' (h2 ▸ List.getElem_mem _) q x5]
      constructor <;> simp only [middle] <;> ring
    · rw [← h1, ← h2, hlt a' (h1 ▸ List.getElem_mem _) p x4, hlt b' (h2 ▸ List.getElem_mem _) q x5]
      constructor <;> simp only [middle] <;> ring
  · cases hs

theorem lt_of_point {m : Mesh K} {v : Nat} {p : V3 K} (h : m.point v = ok p) : v < m.num .d0 := by
  unfold Mesh.point Mesh.coordinates at h
  by_cases hv : v < m.num .d0
  · exact hv
  · rw [assert_false hv] at h; cases h

end Verif
