import Verif.RectLemmas
import Verif.RectSpec

/-
Index arithmetic of the structured meshes.
-/
namespace Verif

open Res

namespace MeshData

variable {K : Type} [Field K] {D : MeshData K} {o bt ht : V3 K} {bs hs : List K} {n k : Nat}

theorem row_edge2_iff {c : Nat} {es : List Nat} :
    D.mesh.row .edge2 c = ok es ↔ ∃ p, D.P[c]? = some p ∧ p.edges = es := by
  constructor
  · intro h
    by_cases hc : c < D.P.length
    · refine ⟨D.P[c], by simp [hc], ?_⟩
      rw [row_edge2 (v := D.P[c]) (by simp [hc])] at h
      simpa using h
    · unfold Mesh.row at h
      rw [assert_false (show ¬ c < D.mesh.num Lst.edge2.owner from hc)] at h
      cases h
  · rintro ⟨p, h1, h2⟩
    rw [row_edge2 h1, h2]

theorem extremes_iff {e a c : Nat} :
    D.mesh.extremes e = ok (a, c) ↔ ∃ p, D.E[e]? = some p ∧ p.origin = a ∧ p.finish = c := by
  constructor
  · intro h
    by_cases hc : e < D.E.length
    · refine ⟨D.E[e], by simp [hc], ?_⟩
      rw [extremes_E (v := D.E[e]) (by simp [hc])] at h
      simpa using h
    · unfold Mesh.extremes at h
      rw [assert_false (show ¬ e < D.mesh.num .d1 from hc)] at h
      cases h
  · rintro ⟨p, h1, h2, h3⟩
    rw [extremes_E h1, h2, h3]

theorem gridPointMarker_spec {b h : Nat} (hn : 0 < n) (hk : 0 < k) (hb : b ≤ n) (hh : h ≤ k) :
    PointMarker (n + 1) (k + 1) b h (Mesh.gridPointMarker n k b h) := by
  unfold PointMarker Mesh.gridPointMarker
  have key : ∀ a c : Nat, ((a == c) = true ∧ a = c) ∨ ((a == c) = false ∧ a ≠ c) := by
    intro a c
    by_cases h : a = c
    · exact Or.inl ⟨by simp [h], h⟩
    · exact Or.inr ⟨by simp [h], h⟩
  rcases key b 0 with ⟨a1, b1⟩ | ⟨a1, b1⟩ <;> rcases key b n with ⟨a2, b2⟩ | ⟨a2, b2⟩ <;>
    rcases key h 0 with ⟨a3, b3⟩ | ⟨a3, b3⟩ <;> rcases key h k with ⟨a4, b4⟩ | ⟨a4, b4⟩ <;>
    simp only [bne, a1, a2, a3, a4, Bool.and_true, Bool.and_false,
           Bool.true_and, Bool.false_and, Bool.not_true, Bool.not_false, Bool.toNat_true,
           Bool.toNat_false] <;>
    first
    | omega
    | refine ⟨?_, ?_, ?_, ?_, ?_, ?_, ?_, ?_, ?_⟩ <;> constructor <;> intro hx <;> first | omega | trivial

theorem edgeCells_one {e c1 : Nat} (h1 : c1 < D.P.length)
    (h : ∀ c p, D.P[c]? = some p → (e ∈ p.edges ↔ c = c1)) : EdgeCells D.mesh e [c1] := by
  refine ⟨by simp, fun c => ?_⟩
  simp only [row_edge2_iff, List.mem_singleton]
  constructor
  · rintro rfl
    exact ⟨_, ⟨D.P[c], by simp [h1], rfl⟩, (h c D.P[c] (by simp [h1])).2 rfl⟩
  · rintro ⟨es, ⟨p, hp, rfl⟩, he⟩
    exact (h c p hp).1 he

theorem edgeCells_two {e c1 c2 : Nat} (h1 : c1 < D.P.length) (h2 : c2 < D.P.length) (hne : c1 ≠ c2)
    (h : ∀ c p, D.P[c]? = some p → (e ∈ p.edges ↔ c = c1 ∨ c = c2)) :
    EdgeCells D.mesh e [c1, c2] := by
  refine ⟨by simp [hne], fun c => ?_⟩
  simp only [row_edge2_iff, List.mem_cons, List.not_mem_nil, or_false]
  constructor
  · rintro (rfl | rfl)
    · exact ⟨_, ⟨D.P[c], by simp [h1], rfl⟩, (h c D.P[c] (by simp [h1])).2 (Or.inl rfl)⟩
    · exact ⟨_, ⟨D.P[c], by simp [h2], rfl⟩, (h c D.P[c] (by simp [h2])).2 (Or.inr rfl)⟩
  · rintro ⟨es, ⟨p, hp, rfl⟩, he⟩
    exact (h c p hp).1 he

/-! ### Column and row of a point -/

theorem grid_mod {m b h : Nat} (hb : b < m) : (b + h * m) % m = b := by
  rw [Nat.add_mul_mod_self_right, Nat.mod_eq_of_lt hb]

theorem grid_div {m b h : Nat} (hb : b < m) : (b + h * m) / m = h := by
  rw [Nat.add_mul_div_right _ _ (by omega), Nat.div_eq_of_lt hb, Nat.zero_add]

theorem beq_cases (a c : Nat) : ((a == c) = true ∧ a = c) ∨ ((a == c) = false ∧ a ≠ c) := by
  by_cases h : a = c
  · exact Or.inl ⟨by simp [h], h⟩
  · exact Or.inr ⟨by simp [h], h⟩

theorem edgeMarker_hor {b h : Nat} (hn : 0 < n) (hk : 0 < k) (hb : b < n) (hh : h ≤ k) :
    EdgeMarker (n + 1) (k + 1) (horCell n k (h, b)).origin (horCell n k (h, b)).finish
      (horCell n k (h, b)).mark := by
  have e : b + h * (n + 1) + 1 = (b + 1) + h * (n + 1) := by ring
  simp only [EdgeMarker, horCell]
  rw [e, grid_mod (by omega), grid_mod (by omega), grid_div (by omega), grid_div (by omega)]
  rcases beq_cases h 0 with ⟨a1, b1⟩ | ⟨a1, b1⟩ <;> rcases beq_cases h k with ⟨a2, b2⟩ | ⟨a2, b2⟩ <;>
    simp [a1, a2] <;> omega

theorem edgeMarker_ver {b h : Nat} (hn : 0 < n) (hk : 0 < k) (hb : b ≤ n) (hh : h < k) :
    EdgeMarker (n + 1) (k + 1) (verCell n (h, b)).origin (verCell n (h, b)).finish
      (verCell n (h, b)).mark := by
  have e : b + h * (n + 1) + (n + 1) = b + (h + 1) * (n + 1) := by ring
  simp only [EdgeMarker, verCell]
  rw [e, grid_mod (by omega), grid_mod (by omega), grid_div (by omega), grid_div (by omega)]
  rcases beq_cases b 0 with ⟨a1, b1⟩ | ⟨a1, b1⟩ <;> rcases beq_cases b n with ⟨a2, b2⟩ | ⟨a2, b2⟩ <;>
    simp [a1, a2] <;> omega

theorem edgeMarker_obl {b h : Nat} (hn : 0 < n) (hk : 0 < k) (hb : b < n) (hh : h < k) :
    EdgeMarker (n + 1) (k + 1) (oblCell n (h, b)).origin (oblCell n (h, b)).finish
      (oblCell n (h, b)).mark := by
  have e : b + h * (n + 1) + (n + 1) + 1 = (b + 1) + (h + 1) * (n + 1) := by ring
  simp only [EdgeMarker, oblCell]
  rw [e, grid_mod (by omega), grid_mod (by omega), grid_div (by omega), grid_div (by omega)]
  simp
  omega

/-! ### The grid of rectangles -/

theorem rect_point {b h : Nat} (hb : b ≤ n) (hh : h ≤ k) :
    (rectData o bt ht bs hs n k).V[b + h * (n + 1)]? = some (pointCell o bt ht bs hs (h, b)) := by
  simp only [rectData, List.getElem?_map]
  rw [getElem?_gridPairs (by omega) (by omega)]
  rfl

theorem rect_hor {b h : Nat} (hb : b < n) (hh : h ≤ k) :
    (rectData o bt ht bs hs n k).E[b + h * n]? = some (horCell n k (h, b)) := by
  have := grid_lt hb (Nat.lt_succ_of_le hh)
  simp only [rectData]
  rw [List.getElem?_append_left (by simpa [length_gridPairs] using this), List.getElem?_map,
    getElem?_gridPairs hb (by omega)]
  rfl

theorem rect_ver {b h : Nat} (hb : b ≤ n) (hh : h < k) :
    (rectData o bt ht bs hs n k).E[(k + 1) * n + (b + h * (n + 1))]? = some (verCell n (h, b)) := by
  simp only [rectData]
  rw [List.getElem?_append_right (by simp [length_gridPairs]), List.length_map, length_gridPairs,
    Nat.add_sub_cancel_left, List.getElem?_map, getElem?_gridPairs (by omega) hh]
  rfl

theorem rect_edge_cases {e : Nat} (he : e < (rectData o bt ht bs hs n k).E.length) :
    (∃ b h, b < n ∧ h ≤ k ∧ e = b + h * n) ∨
    (∃ b h, b ≤ n ∧ h < k ∧ e = (k + 1) * n + (b + h * (n + 1))) := by
  simp only [rectData, List.length_append, List.length_map, length_gridPairs] at he
  by_cases h : e < (k + 1) * n
  · obtain ⟨b, h, h1, h2, h3⟩ := grid_split h
    exact Or.inl ⟨b, h, h1, by omega, h3⟩
  · obtain ⟨b, h', h1, h2, h3⟩ := grid_split (i := e - (k + 1) * n) (n := k) (m := n + 1) (by omega)
    exact Or.inr ⟨b, h', by omega, h2, by omega⟩

theorem rect_cell {b h : Nat} (hb : b < n) (hh : h < k) :
    (rectData o bt ht bs hs n k).P[b + h * n]? = some (rectCell n k (h, b)) := by
  simp only [rectData, List.getElem?_map]
  rw [getElem?_gridPairs hb hh]
  rfl

theorem rect_cell_cases {c : Nat} {p : PCell} (hc : (rectData o bt ht bs hs n k).P[c]? = some p) :
    ∃ b h, b < n ∧ h < k ∧ c = b + h * n ∧ p = rectCell n k (h, b) := by
  have hlt := (List.getElem?_eq_some_iff.1 hc).1
  simp only [rectData, List.length_map, length_gridPairs] at hlt
  obtain ⟨b, h, h1, h2, rfl⟩ := grid_split hlt
  rw [rect_cell h1 h2] at hc
  exact ⟨b, h, h1, h2, rfl, by simpa using hc.symm⟩

theorem rect_hor_mem {b h b' h' : Nat} (hb : b < n) (hh : h ≤ k) (hb' : b' < n) (hh' : h' < k) :
    b + h * n ∈ (rectCell n k (h', b')).edges ↔ (b' = b ∧ h' = h) ∨ (b' = b ∧ h' + 1 = h) := by
  have e1 := grid_lt (n := k + 1) hb (Nat.lt_succ_of_le hh)
  have e2 : b' + h' * n + n = b' + (h' + 1) * n := by ring
  simp only [rectCell, List.mem_cons, List.not_mem_nil, or_false]
  rw [e2]
  constructor
  · rintro (h1 | h1 | h1 | h1)
    · have := grid_inj hb hb' h1; omega
    · omega
    · have := grid_inj hb hb' h1; omega
    · omega
  · rintro (⟨rfl, rfl⟩ | ⟨rfl, rfl⟩)
    · exact Or.inl rfl
    · exact Or.inr (Or.inr (Or.inl rfl))

theorem rect_ver_mem {b h b' h' : Nat} (hb : b ≤ n) (hb' : b' < n) (hh' : h' < k) :
    (k + 1) * n + (b + h * (n + 1)) ∈ (rectCell n k (h', b')).edges ↔
      (b' = b ∧ h' = h) ∨ (b' + 1 = b ∧ h' = h) := by
  have e1 := grid_lt (n := k + 1) (m := n) (b := b') (h := h' + 1) hb' (by omega)
  have e0 := grid_lt (n := k + 1) (m := n) (b := b') (h := h') hb' (by omega)
  have e2 : b' + h' * n + n = b' + (h' + 1) * n := by ring
  simp only [rectCell, List.mem_cons, List.not_mem_nil, or_false]
  rw [e2]
  constructor
  · rintro (h1 | h1 | h1 | h1)
    · omega
    · have := grid_inj (m := n + 1) (b := b) (b' := b' + 1) (h := h) (h' := h') (by omega) (by omega)
        (by omega)
      omega
    · omega
    · have := grid_inj (m := n + 1) (b := b) (b' := b') (h := h) (h' := h') (by omega) (by omega)
        (by omega)
      omega
  · rintro (⟨rfl, rfl⟩ | ⟨rfl, rfl⟩)
    · exact Or.inr (Or.inr (Or.inr (by ring)))
    · exact Or.inr (Or.inl (by ring))

theorem rect_numP : (rectData o bt ht bs hs n k).P.length = k * n := by
  simp [rectData, length_gridPairs]

theorem rect_hor_cells {b h : Nat} (hk : 0 < k) (hb : b < n) (hh : h ≤ k) :
    ∃ cells, EdgeCells (rectData o bt ht bs hs n k).mesh (b + h * n) cells ∧
      cells.length = if (horCell n k (h, b)).mark = 0 then 2 else 1 := by
  simp only [horCell]
  rcases Nat.eq_zero_or_pos h with h0 | h0
  · subst h0
    refine ⟨[b + 0 * n], edgeCells_one (by rw [rect_numP]; exact grid_lt hb hk) ?_, ?_⟩
    · intro c p hc
      obtain ⟨b', h', h1, h2, rfl, rfl⟩ := rect_cell_cases hc
      rw [rect_hor_mem hb hh h1 h2]
      constructor
      · rintro (⟨rfl, rfl⟩ | ⟨_, h⟩)
        · rfl
        · omega
      · intro h
        exact Or.inl (grid_inj h1 hb h)
    · simp
  · obtain ⟨g, rfl⟩ : ∃ g, h = g + 1 := ⟨h - 1, by omega⟩
    rcases Nat.lt_or_eq_of_le hh with h1 | h1
    · refine ⟨[b + (g + 1) * n, b + g * n], edgeCells_two (by rw [rect_numP]; exact grid_lt hb h1)
        (by rw [rect_numP]; exact grid_lt hb (by omega)) ?_ ?_, ?_⟩
      · intro h
        have := (grid_inj hb hb h).2
        omega
      · intro c p hc
        obtain ⟨b', h', h1, h2, rfl, rfl⟩ := rect_cell_cases hc
        rw [rect_hor_mem hb hh h1 h2]
        constructor
        · rintro (⟨rfl, rfl⟩ | ⟨rfl, h⟩)
          · exact Or.inl rfl
          · obtain rfl : h' = g := by omega
            exact Or.inr rfl
        · rintro (h | h)
          · exact Or.inl (grid_inj h1 hb h)
          · have := grid_inj h1 hb h
            exact Or.inr (by omega)
      · simp [show ¬ (g + 1 = k) by omega]
    · subst h1
      refine ⟨[b + g * n], edgeCells_one (by rw [rect_numP]; exact grid_lt hb (by omega)) ?_, ?_⟩
      · intro c p hc
        obtain ⟨b', h', h1, h2, rfl, rfl⟩ := rect_cell_cases hc
        rw [rect_hor_mem hb hh h1 h2]
        constructor
        · rintro (⟨rfl, rfl⟩ | ⟨rfl, h⟩)
          · omega
          · obtain rfl : h' = g := by omega
            rfl
        · intro h
          have := grid_inj h1 hb h
          exact Or.inr (by omega)
      · simp

theorem rect_ver_cells {b h : Nat} (hn : 0 < n) (hb : b ≤ n) (hh : h < k) :
    ∃ cells, EdgeCells (rectData o bt ht bs hs n k).mesh ((k + 1) * n + (b + h * (n + 1))) cells ∧
      cells.length = if (verCell n (h, b)).mark = 0 then 2 else 1 := by
  simp only [verCell]
  rcases Nat.eq_zero_or_pos b with h0 | h0
  · subst h0
    refine ⟨[0 + h * n], edgeCells_one (by rw [rect_numP]; exact grid_lt hn hh) ?_, ?_⟩
    · intro c p hc
      obtain ⟨b', h', h1, h2, rfl, rfl⟩ := rect_cell_cases hc
      rw [rect_ver_mem hb h1 h2]
      constructor
      · rintro (⟨rfl, rfl⟩ | ⟨h, _⟩)
        · rfl
        · omega
      · intro h
        exact Or.inl (grid_inj h1 hn h)
    · simp
  · obtain ⟨g, rfl⟩ : ∃ g, b = g + 1 := ⟨b - 1, by omega⟩
    rcases Nat.lt_or_eq_of_le hb with h1 | h1
    · refine ⟨[(g + 1) + h * n, g + h * n], edgeCells_two (by rw [rect_numP]; exact grid_lt h1 hh)
        (by rw [rect_numP]; exact grid_lt (by omega) hh) (by omega) ?_, ?_⟩
      · intro c p hc
        obtain ⟨b', h', h1, h2, rfl, rfl⟩ := rect_cell_cases hc
        rw [rect_ver_mem hb h1 h2]
        constructor
        · rintro (⟨rfl, rfl⟩ | ⟨h, rfl⟩)
          · exact Or.inl rfl
          · obtain rfl : b' = g := by omega
            exact Or.inr rfl
        · rintro (h | h)
          · exact Or.inl (grid_inj h1 (by omega) h)
          · have := grid_inj h1 (by omega) h
            exact Or.inr (by omega)
      · simp [show ¬ (g + 1 = n) by omega]
    · subst h1
      refine ⟨[g + h * (g + 1)], edgeCells_one (by rw [rect_numP]; exact grid_lt (by omega) hh) ?_, ?_⟩
      · intro c p hc
        obtain ⟨b', h', h1, h2, rfl, rfl⟩ := rect_cell_cases hc
        rw [rect_ver_mem hb h1 h2]
        constructor
        · rintro (⟨rfl, rfl⟩ | ⟨h, rfl⟩)
          · omega
          · obtain rfl : b' = g := by omega
            rfl
        · intro h
          have := grid_inj h1 (by omega) h
          exact Or.inr (by omega)
      · simp

theorem rect_grid (hb : bs.length = n + 1) (hh : hs.length = k + 1) (hn : 0 < n) (hk : 0 < k) :
    GridMesh o bt ht bs hs 4 (rectData o bt ht bs hs n k).mesh where
  wf := mesh_wf _
  dim := rfl
  numPoints := by
    show (List.map _ _).length = _
    rw [List.length_map, length_gridPairs, hb, hh, Nat.mul_comm]
  numSolids := rfl
  points := by
    intro b h x y hx hy
    have h1 := (List.getElem?_eq_some_iff.1 hx).1
    have h2 := (List.getElem?_eq_some_iff.1 hy).1
    have hp := rect_point (o := o) (bt := bt) (ht := ht) (bs := bs) (hs := hs) (n := n) (k := k)
      (b := b) (h := h) (by omega) (by omega)
    rw [hb, coordinates_V hp, active_V hp]
    simp [pointCell, V3.add, V3.smul, hx, hy]
  pointMarkers := by
    intro b h1 h h2
    have hp := rect_point (o := o) (bt := bt) (ht := ht) (bs := bs) (hs := hs) (n := n) (k := k)
      (b := b) (h := h) (by omega) (by omega)
    rw [hb, hh]
    refine ⟨_, marker_V hp, ?_⟩
    simp only [pointCell, hb, hh, Nat.add_sub_cancel]
    exact gridPointMarker_spec hn hk (by omega) (by omega)
  edges := by
    intro e he
    have hnum : (rectData o bt ht bs hs n k).mesh.num .d0 = (k + 1) * (n + 1) := by
      show (List.map _ _).length = _
      rw [List.length_map, length_gridPairs]
    rw [hb, hh, hnum]
    rcases rect_edge_cases he with ⟨b, h, h1, h2, rfl⟩ | ⟨b, h, h1, h2, rfl⟩
    · have hp := rect_hor (o := o) (bt := bt) (ht := ht) (bs := bs) (hs := hs) h1 h2
      refine ⟨active_E hp, ?_⟩
      obtain ⟨cells, c1, c2⟩ := rect_hor_cells (o := o) (bt := bt) (ht := ht) (bs := bs) (hs := hs) hk h1 h2
      have e1 := grid_lt (m := n + 1) (n := k + 1) (b := b + 1) (h := h) (by omega) (by omega)
      refine ⟨_, _, _, cells, extremes_E hp, ?_, ?_, ?_, marker_E hp, edgeMarker_hor hn hk h1 h2, c1, c2⟩
      · simp only [horCell]; omega
      · simp only [horCell]; omega
      · simp only [horCell]; omega
    · have hp := rect_ver (o := o) (bt := bt) (ht := ht) (bs := bs) (hs := hs) h1 h2
      refine ⟨active_E hp, ?_⟩
      obtain ⟨cells, c1, c2⟩ := rect_ver_cells (o := o) (bt := bt) (ht := ht) (bs := bs) (hs := hs) hn h1 h2
      have e1 := grid_lt (m := n + 1) (n := k + 1) (b := b) (h := h + 1) (by omega) (by omega)
      have e2 : b + (h + 1) * (n + 1) = b + h * (n + 1) + (n + 1) := by ring
      refine ⟨_, _, _, cells, extremes_E hp, ?_, ?_, ?_, marker_E hp, edgeMarker_ver hn hk h1 h2, c1, c2⟩
      · simp only [verCell]; omega
      · simp only [verCell]; omega
      · simp only [verCell]; omega
  simple := by
    intro e e' a c h1 h2
    obtain ⟨p, hp, rfl, rfl⟩ := extremes_iff.1 h1
    replace h2 : ∃ p', (rectData o bt ht bs hs n k).E[e']? = some p' ∧
        ((p'.origin = p.origin ∧ p'.finish = p.finish) ∨ (p'.origin = p.finish ∧ p'.finish = p.origin)) := by
      rcases h2 with h2 | h2
      · obtain ⟨p', q1, q2, q3⟩ := extremes_iff.1 h2
        exact ⟨p', q1, Or.inl ⟨q2, q3⟩⟩
      · obtain ⟨p', q1, q2, q3⟩ := extremes_iff.1 h2
        exact ⟨p', q1, Or.inr ⟨q2, q3⟩⟩
    obtain ⟨p', hp', hpp⟩ := h2
    clear h1
    rcases rect_edge_cases (List.getElem?_eq_some_iff.1 hp).1 with ⟨b, h, h1, h2, rfl⟩ | ⟨b, h, h1, h2, rfl⟩ <;>
    rcases rect_edge_cases (List.getElem?_eq_some_iff.1 hp').1 with ⟨b', h', h1', h2', rfl⟩ | ⟨b', h', h1', h2', rfl⟩
    · rw [rect_hor h1 h2] at hp; rw [rect_hor h1' h2'] at hp'
      cases hp; cases hp'
      simp only [horCell] at hpp
      have := grid_inj (m := n + 1) (b := b) (b' := b') (h := h) (h' := h') (by omega) (by omega) (by omega)
      rw [this.1, this.2]
    · rw [rect_hor h1 h2] at hp; rw [rect_ver h1' h2'] at hp'
      cases hp; cases hp'
      simp only [horCell, verCell] at hpp
      omega
    · rw [rect_ver h1 h2] at hp; rw [rect_hor h1' h2'] at hp'
      cases hp; cases hp'
      simp only [horCell, verCell] at hpp
      omega
    · rw [rect_ver h1 h2] at hp; rw [rect_ver h1' h2'] at hp'
      cases hp; cases hp'
      simp only [verCell] at hpp
      have := grid_inj (m := n + 1) (b := b) (b' := b') (h := h) (h' := h') (by omega) (by omega) (by omega)
      rw [this.1, this.2]
  cells := by
    refine ⟨?_, ?_⟩
    · intro c hc _
      obtain ⟨b, h, h1, h2, rfl⟩ := grid_split (i := c) (n := k) (m := n) (Nat.lt_of_lt_of_eq hc (rect_numP (o := o) (bt := bt) (ht := ht) (bs := bs) (hs := hs)))
      have hp := rect_cell (o := o) (bt := bt) (ht := ht) (bs := bs) (hs := hs) h1 h2
      refine ⟨_, _, row_vert2 hp, row_edge2 hp, by simp [rectCell], ?_, rfl, ?_⟩
      · simp [rectCell]; omega
      · intro j x a c hx ha hc
        simp only [rectCell] at hx ha hc
        have q1 := extremes_E (rect_hor (o := o) (bt := bt) (ht := ht) (bs := bs) (hs := hs)
          (n := n) (k := k) (b := b) (h := h) h1 (by omega))
        have q2 := extremes_E (rect_hor (o := o) (bt := bt) (ht := ht) (bs := bs) (hs := hs)
          (n := n) (k := k) (b := b) (h := h + 1) h1 (by omega))
        have q3 := extremes_E (rect_ver (o := o) (bt := bt) (ht := ht) (bs := bs) (hs := hs)
          (n := n) (k := k) (b := b) (h := h) (by omega) h2)
        have q4 := extremes_E (rect_ver (o := o) (bt := bt) (ht := ht) (bs := bs) (hs := hs)
          (n := n) (k := k) (b := b + 1) (h := h) (by omega) h2)
        simp only [horCell, verCell] at q1 q2 q3 q4
        match j with
        | 0 =>
          simp at hx ha hc; subst hx ha hc
          exact Or.inl q1
        | 1 =>
          simp at hx ha hc; subst hx ha hc
          rw [show b + h * (n + 1) + (k + 1) * n + 1 = (k + 1) * n + (b + 1 + h * (n + 1)) by ring, q4]
          refine Or.inl ?_
          congr 2 <;> ring
        | 2 =>
          simp at hx ha hc; subst hx ha hc
          rw [show b + h * n + n = b + (h + 1) * n by ring, q2]
          refine Or.inr ?_
          congr 2 <;> ring
        | 3 =>
          simp at hx ha hc; subst hx ha hc
          rw [show b + h * (n + 1) + (k + 1) * n = (k + 1) * n + (b + h * (n + 1)) by ring, q3]
          exact Or.inr rfl
        | _ + 4 => simp at hx
    · intro c hc
      obtain ⟨b, h, h1, h2, rfl⟩ := grid_split (i := c) (n := k) (m := n) (Nat.lt_of_lt_of_eq hc (rect_numP (o := o) (bt := bt) (ht := ht) (bs := bs) (hs := hs)))
      have hp := rect_cell (o := o) (bt := bt) (ht := ht) (bs := bs) (hs := hs) h1 h2
      exact ⟨active_P hp, marker_P hp, _, row_vert2 hp, rfl⟩

/-! ### The grid of triangles -/

theorem getElem?_pairs {β : Type} (L : List β) (i : Nat) :
    (L.flatMap fun x => [(x, false), (x, true)])[2 * i]? = L[i]?.map (·, false) ∧
    (L.flatMap fun x => [(x, false), (x, true)])[2 * i + 1]? = L[i]?.map (·, true) := by
  induction L generalizing i with
  | nil => simp
  | cons a L ih =>
    cases i with
    | zero => simp
    | succ i => simpa [List.flatMap_cons, Nat.mul_add] using ih i

theorem tri_point {b h : Nat} (hb : b ≤ n) (hh : h ≤ k) :
    (triData o bt ht bs hs n k).V[b + h * (n + 1)]? = some (pointCell o bt ht bs hs (h, b)) := by
  simp only [triData, List.getElem?_map]
  rw [getElem?_gridPairs (by omega) (by omega)]
  rfl

theorem tri_hor {b h : Nat} (hb : b < n) (hh : h ≤ k) :
    (triData o bt ht bs hs n k).E[b + h * n]? = some (horCell n k (h, b)) := by
  have := grid_lt (n := k + 1) hb (Nat.lt_succ_of_le hh)
  simp only [triData]
  rw [List.getElem?_append_left (by simp [length_gridPairs]; omega),
    List.getElem?_append_left (by simpa [length_gridPairs] using this), List.getElem?_map,
    getElem?_gridPairs hb (by omega)]
  rfl

theorem tri_ver {b h : Nat} (hb : b ≤ n) (hh : h < k) :
    (triData o bt ht bs hs n k).E[(k + 1) * n + (b + h * (n + 1))]? = some (verCell n (h, b)) := by
  have := grid_lt (n := k) (m := n + 1) (b := b) (h := h) (by omega) hh
  simp only [triData]
  rw [List.getElem?_append_left (by simp [length_gridPairs]; omega),
    List.getElem?_append_right (by simp [length_gridPairs]), List.length_map, length_gridPairs,
    Nat.add_sub_cancel_left, List.getElem?_map, getElem?_gridPairs (by omega) hh]
  rfl

theorem tri_obl {b h : Nat} (hb : b < n) (hh : h < k) :
    (triData o bt ht bs hs n k).E[(k + 1) * n + k * (n + 1) + (b + h * n)]? =
      some (oblCell n (h, b)) := by
  simp only [triData]
  rw [List.getElem?_append_right (by simp [length_gridPairs]), List.length_append,
    List.length_map, List.length_map, length_gridPairs, length_gridPairs,
    Nat.add_sub_cancel_left, List.getElem?_map, getElem?_gridPairs (by omega) hh]
  rfl

theorem tri_edge_cases {e : Nat} (he : e < (triData o bt ht bs hs n k).E.length) :
    (∃ b h, b < n ∧ h ≤ k ∧ e = b + h * n) ∨
    (∃ b h, b ≤ n ∧ h < k ∧ e = (k + 1) * n + (b + h * (n + 1))) ∨
    (∃ b h, b < n ∧ h < k ∧ e = (k + 1) * n + k * (n + 1) + (b + h * n)) := by
  simp only [triData, List.length_append, List.length_map, length_gridPairs] at he
  by_cases h : e < (k + 1) * n
  · obtain ⟨b, h, h1, h2, h3⟩ := grid_split h
    exact Or.inl ⟨b, h, h1, by omega, h3⟩
  · by_cases h0 : e < (k + 1) * n + k * (n + 1)
    · obtain ⟨b, h', h1, h2, h3⟩ := grid_split (i := e - (k + 1) * n) (n := k) (m := n + 1) (by omega)
      exact Or.inr (Or.inl ⟨b, h', by omega, h2, by omega⟩)
    · obtain ⟨b, h', h1, h2, h3⟩ := grid_split (i := e - ((k + 1) * n + k * (n + 1))) (n := k) (m := n)
        (by omega)
      exact Or.inr (Or.inr ⟨b, h', by omega, h2, by omega⟩)

/-- Index of a triangle. -/
theorem tri_cell {b h : Nat} (f : Bool) (hb : b < n) (hh : h < k) :
    (triData o bt ht bs hs n k).P[2 * (b + h * n) + f.toNat]? = some (triCell n k ((h, b), f)) := by
  simp only [triData, List.getElem?_map]
  have := getElem?_pairs (gridPairs k n) (b + h * n)
  rw [getElem?_gridPairs hb hh] at this
  cases f
  · simp only [Bool.toNat_false, Nat.add_zero]
    rw [this.1]; rfl
  · simp only [Bool.toNat_true]
    rw [this.2]; rfl

theorem tri_numP : (triData o bt ht bs hs n k).P.length = 2 * (k * n) := by
  have := length_flatMap_const (fun x : Nat × Nat => [(x, false), (x, true)]) 2 (gridPairs k n)
    (by intro b _; rfl)
  simp only [triData, List.length_map]
  rw [this, length_gridPairs]

theorem tri_split {c : Nat} (hc : c < (triData o bt ht bs hs n k).P.length) :
    ∃ b h f, b < n ∧ h < k ∧ c = 2 * (b + h * n) + Bool.toNat f := by
  rw [tri_numP] at hc
  obtain ⟨b, h, h1, h2, h3⟩ := grid_split (i := c / 2) (n := k) (m := n) (by omega)
  refine ⟨b, h, decide (c % 2 = 1), h1, h2, ?_⟩
  rw [← h3]
  by_cases hc : c % 2 = 1
  · simp [hc]; omega
  · simp [hc]; omega

theorem tri_cell_cases {c : Nat} {p : PCell} (hc : (triData o bt ht bs hs n k).P[c]? = some p) :
    ∃ b h f, b < n ∧ h < k ∧ c = 2 * (b + h * n) + Bool.toNat f ∧ p = triCell n k ((h, b), f) := by
  have hlt := (List.getElem?_eq_some_iff.1 hc).1
  obtain ⟨b, h, f, h1, h2, rfl⟩ := tri_split hlt
  rw [tri_cell f h1 h2] at hc
  exact ⟨b, h, f, h1, h2, rfl, by simpa using hc.symm⟩

theorem tri_inj {b h b' h' : Nat} {f f' : Bool} (hb : b < n) (hb' : b' < n)
    (e : 2 * (b + h * n) + f.toNat = 2 * (b' + h' * n) + f'.toNat) : b = b' ∧ h = h' ∧ f = f' := by
  have hf : f = f' := by
    cases f <;> cases f' <;> simp at e <;> first | rfl | omega
  subst hf
  have := grid_inj hb hb' (by omega : b + h * n = b' + h' * n)
  exact ⟨this.1, this.2, rfl⟩

theorem tri_hor_mem {b h b' h' : Nat} {f : Bool} (hb : b < n) (hh : h ≤ k) (hb' : b' < n)
    (hh' : h' < k) : b + h * n ∈ (triCell n k ((h', b'), f)).edges ↔
      (b' = b ∧ h' = h ∧ f = false) ∨ (b' = b ∧ h' + 1 = h ∧ f = true) := by
  have e1 := grid_lt (n := k + 1) hb (Nat.lt_succ_of_le hh)
  have e2 : b' + h' * n + n = b' + (h' + 1) * n := by ring
  cases f
  · simp only [triCell, List.mem_cons, List.not_mem_nil, or_false, Bool.false_eq_true, if_false,
      and_true, and_false]
    constructor
    · rintro (h1 | h1 | h1)
      · have := grid_inj hb hb' h1; omega
      · omega
      · omega
    · rintro ⟨rfl, rfl⟩
      exact Or.inl rfl
  · simp only [triCell, List.mem_cons, List.not_mem_nil, or_false, if_true,
      and_true, and_false, Bool.true_eq_false, false_or]
    rw [e2]
    constructor
    · rintro (h1 | h1 | h1)
      · omega
      · have := grid_inj hb hb' h1; omega
      · omega
    · rintro ⟨rfl, rfl⟩
      exact Or.inr (Or.inl rfl)

theorem tri_ver_mem {b h b' h' : Nat} {f : Bool} (hb : b ≤ n) (hh : h < k) (hb' : b' < n)
    (hh' : h' < k) : (k + 1) * n + (b + h * (n + 1)) ∈ (triCell n k ((h', b'), f)).edges ↔
      (b' = b ∧ h' = h ∧ f = true) ∨ (b' + 1 = b ∧ h' = h ∧ f = false) := by
  have e1 := grid_lt (n := k + 1) (m := n) (b := b') (h := h' + 1) hb' (by omega)
  have e0 := grid_lt (n := k + 1) (m := n) (b := b') (h := h') hb' (by omega)
  have e3 := grid_lt (n := k) (m := n + 1) (b := b) (h := h) (by omega) hh
  have e2 : b' + h' * n + n = b' + (h' + 1) * n := by ring
  cases f
  · simp only [triCell, List.mem_cons, List.not_mem_nil, or_false, Bool.false_eq_true, if_false,
      and_true, and_false, false_or]
    constructor
    · rintro (h1 | h1 | h1)
      · omega
      · have := grid_inj (m := n + 1) (b := b) (b' := b' + 1) (h := h) (h' := h') (by omega) (by omega)
          (by omega)
        omega
      · omega
    · rintro ⟨rfl, rfl⟩
      exact Or.inr (Or.inl (by ring))
  · simp only [triCell, List.mem_cons, List.not_mem_nil, or_false, if_true,
      and_true, and_false, Bool.true_eq_false]
    rw [e2]
    constructor
    · rintro (h1 | h1 | h1)
      · omega
      · omega
      · have := grid_inj (m := n + 1) (b := b) (b' := b') (h := h) (h' := h') (by omega) (by omega)
          (by omega)
        omega
    · rintro ⟨rfl, rfl⟩
      exact Or.inr (Or.inr (by ring))

theorem tri_obl_mem {b h b' h' : Nat} {f : Bool} (hb : b < n) (hb' : b' < n)
    (hh' : h' < k) : (k + 1) * n + k * (n + 1) + (b + h * n) ∈ (triCell n k ((h', b'), f)).edges ↔
      b' = b ∧ h' = h := by
  have e1 := grid_lt (n := k + 1) (m := n) (b := b') (h := h' + 1) hb' (by omega)
  have e0 := grid_lt (n := k + 1) (m := n) (b := b') (h := h') hb' (by omega)
  have e3 := grid_lt (n := k) (m := n + 1) (b := b' + 1) (h := h') (by omega) hh'
  have e2 : b' + h' * n + n = b' + (h' + 1) * n := by ring
  cases f
  · simp only [triCell, List.mem_cons, List.not_mem_nil, or_false, Bool.false_eq_true, if_false]
    constructor
    · rintro (h1 | h1 | h1)
      · omega
      · omega
      · have := grid_inj hb hb' (by omega : b + h * n = b' + h' * n)
        omega
    · rintro ⟨rfl, rfl⟩
      exact Or.inr (Or.inr (by ring))
  · simp only [triCell, List.mem_cons, List.not_mem_nil, or_false, if_true]
    rw [e2]
    constructor
    · rintro (h1 | h1 | h1)
      · have := grid_inj hb hb' (by omega : b + h * n = b' + h' * n)
        omega
      · omega
      · omega
    · rintro ⟨rfl, rfl⟩
      exact Or.inl (by ring)

theorem tri_lt {b h : Nat} (f : Bool) (hb : b < n) (hh : h < k) :
    2 * (b + h * n) + f.toNat < (triData o bt ht bs hs n k).P.length := by
  rw [tri_numP]
  have := grid_lt hb hh
  have : f.toNat ≤ 1 := by cases f <;> simp
  omega

theorem tri_hor_cells {b h : Nat} (hk : 0 < k) (hb : b < n) (hh : h ≤ k) :
    ∃ cells, EdgeCells (triData o bt ht bs hs n k).mesh (b + h * n) cells ∧
      cells.length = if (horCell n k (h, b)).mark = 0 then 2 else 1 := by
  simp only [horCell]
  rcases Nat.eq_zero_or_pos h with h0 | h0
  · subst h0
    refine ⟨[2 * (b + 0 * n) + Bool.toNat false], edgeCells_one (tri_lt _ hb hk) ?_, ?_⟩
    · intro c p hc
      obtain ⟨b', h', f, h1, h2, rfl, rfl⟩ := tri_cell_cases hc
      rw [tri_hor_mem hb hh h1 h2]
      constructor
      · rintro (⟨rfl, rfl, rfl⟩ | ⟨_, h, _⟩)
        · rfl
        · omega
      · intro h
        exact Or.inl (tri_inj h1 hb h)
    · simp
  · obtain ⟨g, rfl⟩ : ∃ g, h = g + 1 := ⟨h - 1, by omega⟩
    rcases Nat.lt_or_eq_of_le hh with h1 | h1
    · refine ⟨[2 * (b + (g + 1) * n) + Bool.toNat false, 2 * (b + g * n) + Bool.toNat true],
        edgeCells_two (tri_lt _ hb h1) (tri_lt _ hb (by omega)) ?_ ?_, ?_⟩
      · intro h
        have := (tri_inj hb hb h).2.2
        cases this
      · intro c p hc
        obtain ⟨b', h', f, h1, h2, rfl, rfl⟩ := tri_cell_cases hc
        rw [tri_hor_mem hb hh h1 h2]
        constructor
        · rintro (⟨rfl, rfl, rfl⟩ | ⟨rfl, h, rfl⟩)
          · exact Or.inl rfl
          · obtain rfl : h' = g := by omega
            exact Or.inr rfl
        · rintro (h | h)
          · exact Or.inl (tri_inj h1 hb h)
          · obtain ⟨r1, r2, r3⟩ := tri_inj h1 hb h
            exact Or.inr ⟨r1, by omega, r3⟩
      · simp [show ¬ (g + 1 = k) by omega]
    · subst h1
      refine ⟨[2 * (b + g * n) + Bool.toNat true], edgeCells_one (tri_lt _ hb (by omega)) ?_, ?_⟩
      · intro c p hc
        obtain ⟨b', h', f, h1, h2, rfl, rfl⟩ := tri_cell_cases hc
        rw [tri_hor_mem hb hh h1 h2]
        constructor
        · rintro (⟨rfl, rfl, _⟩ | ⟨rfl, h, rfl⟩)
          · omega
          · obtain rfl : h' = g := by omega
            rfl
        · intro h
          obtain ⟨r1, r2, r3⟩ := tri_inj h1 hb h
          exact Or.inr ⟨r1, by omega, r3⟩
      · simp

theorem tri_ver_cells {b h : Nat} (hn : 0 < n) (hb : b ≤ n) (hh : h < k) :
    ∃ cells, EdgeCells (triData o bt ht bs hs n k).mesh ((k + 1) * n + (b + h * (n + 1))) cells ∧
      cells.length = if (verCell n (h, b)).mark = 0 then 2 else 1 := by
  simp only [verCell]
  rcases Nat.eq_zero_or_pos b with h0 | h0
  · subst h0
    refine ⟨[2 * (0 + h * n) + Bool.toNat true], edgeCells_one (tri_lt _ hn hh) ?_, ?_⟩
    · intro c p hc
      obtain ⟨b', h', f, h1, h2, rfl, rfl⟩ := tri_cell_cases hc
      rw [tri_ver_mem hb hh h1 h2]
      constructor
      · rintro (⟨rfl, rfl, rfl⟩ | ⟨h, _⟩)
        · rfl
        · omega
      · intro h
        exact Or.inl (tri_inj h1 hn h)
    · simp
  · obtain ⟨g, rfl⟩ : ∃ g, b = g + 1 := ⟨b - 1, by omega⟩
    rcases Nat.lt_or_eq_of_le hb with h1 | h1
    · refine ⟨[2 * ((g + 1) + h * n) + Bool.toNat true, 2 * (g + h * n) + Bool.toNat false],
        edgeCells_two (tri_lt _ h1 hh) (tri_lt _ (by omega) hh) ?_ ?_, ?_⟩
      · intro h
        have := (tri_inj (by omega) (by omega) h).2.2
        cases this
      · intro c p hc
        obtain ⟨b', h', f, h1, h2, rfl, rfl⟩ := tri_cell_cases hc
        rw [tri_ver_mem hb hh h1 h2]
        constructor
        · rintro (⟨rfl, rfl, rfl⟩ | ⟨h, rfl, rfl⟩)
          · exact Or.inl rfl
          · obtain rfl : b' = g := by omega
            exact Or.inr rfl
        · rintro (h | h)
          · exact Or.inl (tri_inj h1 (by omega) h)
          · obtain ⟨r1, r2, r3⟩ := tri_inj h1 (by omega) h
            exact Or.inr ⟨by omega, r2, r3⟩
      · simp [show ¬ (g + 1 = n) by omega]
    · subst h1
      refine ⟨[2 * (g + h * (g + 1)) + Bool.toNat false],
        edgeCells_one (tri_lt _ (by omega) hh) ?_, ?_⟩
      · intro c p hc
        obtain ⟨b', h', f, h1, h2, rfl, rfl⟩ := tri_cell_cases hc
        rw [tri_ver_mem hb hh h1 h2]
        constructor
        · rintro (⟨rfl, rfl, _⟩ | ⟨h, rfl, rfl⟩)
          · omega
          · obtain rfl : b' = g := by omega
            rfl
        · intro h
          obtain ⟨r1, r2, r3⟩ := tri_inj h1 (by omega) h
          exact Or.inr ⟨by omega, r2, r3⟩
      · simp

theorem tri_obl_cells {b h : Nat} (hb : b < n) (hh : h < k) :
    EdgeCells (triData o bt ht bs hs n k).mesh ((k + 1) * n + k * (n + 1) + (b + h * n))
      [2 * (b + h * n) + Bool.toNat false, 2 * (b + h * n) + Bool.toNat true] := by
  refine edgeCells_two (tri_lt _ hb hh) (tri_lt _ hb hh) (by simp) ?_
  intro c p hc
  obtain ⟨b', h', f, h1, h2, rfl, rfl⟩ := tri_cell_cases hc
  rw [tri_obl_mem hb h1 h2]
  constructor
  · rintro ⟨rfl, rfl⟩
    cases f
    · exact Or.inl rfl
    · exact Or.inr rfl
  · rintro (h | h)
    · obtain ⟨r1, r2, r3⟩ := tri_inj h1 hb h
      exact ⟨r1, r2⟩
    · obtain ⟨r1, r2, r3⟩ := tri_inj h1 hb h
      exact ⟨r1, r2⟩

theorem tri_grid (hb : bs.length = n + 1) (hh : hs.length = k + 1) (hn : 0 < n) (hk : 0 < k) :
    GridMesh o bt ht bs hs 3 (triData o bt ht bs hs n k).mesh where
  wf := mesh_wf _
  dim := rfl
  numPoints := by
    show (List.map _ _).length = _
    rw [List.length_map, length_gridPairs, hb, hh, Nat.mul_comm]
  numSolids := rfl
  points := by
    intro b h x y hx hy
    have h1 := (List.getElem?_eq_some_iff.1 hx).1
    have h2 := (List.getElem?_eq_some_iff.1 hy).1
    have hp := tri_point (o := o) (bt := bt) (ht := ht) (bs := bs) (hs := hs) (n := n) (k := k)
      (b := b) (h := h) (by omega) (by omega)
    rw [hb, coordinates_V hp, active_V hp]
    simp [pointCell, V3.add, V3.smul, hx, hy]
  pointMarkers := by
    intro b h1 h h2
    have hp := tri_point (o := o) (bt := bt) (ht := ht) (bs := bs) (hs := hs) (n := n) (k := k)
      (b := b) (h := h) (by omega) (by omega)
    rw [hb, hh]
    refine ⟨_, marker_V hp, ?_⟩
    simp only [pointCell, hb, hh, Nat.add_sub_cancel]
    exact gridPointMarker_spec hn hk (by omega) (by omega)
  edges := by
    intro e he
    have hnum : (triData o bt ht bs hs n k).mesh.num .d0 = (k + 1) * (n + 1) := by
      show (List.map _ _).length = _
      rw [List.length_map, length_gridPairs]
    rw [hb, hh, hnum]
    rcases tri_edge_cases he with ⟨b, h, h1, h2, rfl⟩ | ⟨b, h, h1, h2, rfl⟩ | ⟨b, h, h1, h2, rfl⟩
    · have hp := tri_hor (o := o) (bt := bt) (ht := ht) (bs := bs) (hs := hs) h1 h2
      refine ⟨active_E hp, ?_⟩
      obtain ⟨cells, c1, c2⟩ := tri_hor_cells (o := o) (bt := bt) (ht := ht) (bs := bs) (hs := hs) hk h1 h2
      have e1 := grid_lt (m := n + 1) (n := k + 1) (b := b + 1) (h := h) (by omega) (by omega)
      refine ⟨_, _, _, cells, extremes_E hp, ?_, ?_, ?_, marker_E hp, edgeMarker_hor hn hk h1 h2, c1, c2⟩
      · simp only [horCell]; omega
      · simp only [horCell]; omega
      · simp only [horCell]; omega
    · have hp := tri_ver (o := o) (bt := bt) (ht := ht) (bs := bs) (hs := hs) h1 h2
      refine ⟨active_E hp, ?_⟩
      obtain ⟨cells, c1, c2⟩ := tri_ver_cells (o := o) (bt := bt) (ht := ht) (bs := bs) (hs := hs) hn h1 h2
      have e1 := grid_lt (m := n + 1) (n := k + 1) (b := b) (h := h + 1) (by omega) (by omega)
      have e2 : b + (h + 1) * (n + 1) = b + h * (n + 1) + (n + 1) := by ring
      refine ⟨_, _, _, cells, extremes_E hp, ?_, ?_, ?_, marker_E hp, edgeMarker_ver hn hk h1 h2, c1, c2⟩
      · simp only [verCell]; omega
      · simp only [verCell]; omega
      · simp only [verCell]; omega
    · have hp := tri_obl (o := o) (bt := bt) (ht := ht) (bs := bs) (hs := hs) h1 h2
      refine ⟨active_E hp, ?_⟩
      have e1 := grid_lt (m := n + 1) (n := k + 1) (b := b + 1) (h := h + 1) (by omega) (by omega)
      have e2 : b + 1 + (h + 1) * (n + 1) = b + h * (n + 1) + (n + 1) + 1 := by ring
      refine ⟨_, _, _, _, extremes_E hp, ?_, ?_, ?_, marker_E hp, edgeMarker_obl hn hk h1 h2,
        tri_obl_cells h1 h2, rfl⟩
      · simp only [oblCell]; omega
      · simp only [oblCell]; omega
      · simp only [oblCell]; omega
  simple := by
    intro e e' a c h1 h2
    obtain ⟨p, hp, rfl, rfl⟩ := extremes_iff.1 h1
    replace h2 : ∃ p', (triData o bt ht bs hs n k).E[e']? = some p' ∧
        ((p'.origin = p.origin ∧ p'.finish = p.finish) ∨ (p'.origin = p.finish ∧ p'.finish = p.origin)) := by
      rcases h2 with h2 | h2
      · obtain ⟨p', q1, q2, q3⟩ := extremes_iff.1 h2
        exact ⟨p', q1, Or.inl ⟨q2, q3⟩⟩
      · obtain ⟨p', q1, q2, q3⟩ := extremes_iff.1 h2
        exact ⟨p', q1, Or.inr ⟨q2, q3⟩⟩
    obtain ⟨p', hp', hpp⟩ := h2
    clear h1
    rcases tri_edge_cases (List.getElem?_eq_some_iff.1 hp).1 with
      ⟨b, h, h1, h2, rfl⟩ | ⟨b, h, h1, h2, rfl⟩ | ⟨b, h, h1, h2, rfl⟩ <;>
    rcases tri_edge_cases (List.getElem?_eq_some_iff.1 hp').1 with
      ⟨b', h', h1', h2', rfl⟩ | ⟨b', h', h1', h2', rfl⟩ | ⟨b', h', h1', h2', rfl⟩ <;>
    first
    | rw [tri_hor h1 h2] at hp
    | rw [tri_ver h1 h2] at hp
    | rw [tri_obl h1 h2] at hp
    all_goals
      first
      | rw [tri_hor h1' h2'] at hp'
      | rw [tri_ver h1' h2'] at hp'
      | rw [tri_obl h1' h2'] at hp'
    all_goals
      cases hp; cases hp'
      simp only [horCell, verCell, oblCell] at hpp
      first
      | omega
      | (have := grid_inj (m := n + 1) (b := b) (b' := b') (h := h) (h' := h') (by omega) (by omega) (by omega)
         rw [this.1, this.2])
  cells := by
    refine ⟨?_, ?_⟩
    · intro c hc _
      obtain ⟨b, h, f, h1, h2, rfl⟩ := tri_split (o := o) (bt := bt) (ht := ht) (bs := bs) (hs := hs) hc
      have hp := tri_cell (o := o) (bt := bt) (ht := ht) (bs := bs) (hs := hs) f h1 h2
      refine ⟨_, _, row_vert2 hp, row_edge2 hp, by cases f <;> simp [triCell], ?_, by cases f <;> rfl, ?_⟩
      · cases f <;> simp [triCell] <;> omega
      · intro j x a c hx ha hc
        have q1 := extremes_E (tri_hor (o := o) (bt := bt) (ht := ht) (bs := bs) (hs := hs)
          (n := n) (k := k) (b := b) (h := h) h1 (by omega))
        have q2 := extremes_E (tri_hor (o := o) (bt := bt) (ht := ht) (bs := bs) (hs := hs)
          (n := n) (k := k) (b := b) (h := h + 1) h1 (by omega))
        have q3 := extremes_E (tri_ver (o := o) (bt := bt) (ht := ht) (bs := bs) (hs := hs)
          (n := n) (k := k) (b := b) (h := h) (by omega) h2)
        have q4 := extremes_E (tri_ver (o := o) (bt := bt) (ht := ht) (bs := bs) (hs := hs)
          (n := n) (k := k) (b := b + 1) (h := h) (by omega) h2)
        have q5 := extremes_E (tri_obl (o := o) (bt := bt) (ht := ht) (bs := bs) (hs := hs)
          (n := n) (k := k) (b := b) (h := h) h1 h2)
        simp only [horCell, verCell, oblCell] at q1 q2 q3 q4 q5
        cases f with
        | false =>
          simp only [triCell, Bool.false_eq_true, if_false] at hx ha hc
          match j with
          | 0 =>
            simp at hx ha hc; subst hx ha hc
            exact Or.inl q1
          | 1 =>
            simp at hx ha hc; subst hx ha hc
            rw [show b + h * (n + 1) + (k + 1) * n + 1 = (k + 1) * n + (b + 1 + h * (n + 1)) by ring, q4]
            refine Or.inl ?_
            congr 2 <;> ring
          | 2 =>
            simp at hx ha hc; subst hx ha hc
            rw [show (k + 1) * n + k * (n + 1) + b + h * n = (k + 1) * n + k * (n + 1) + (b + h * n) by ring,
              q5]
            exact Or.inr rfl
          | _ + 3 => simp at hx
        | true =>
          simp only [triCell, if_true] at hx ha hc
          match j with
          | 0 =>
            simp at hx ha hc; subst hx ha hc
            rw [show (k + 1) * n + k * (n + 1) + b + h * n = (k + 1) * n + k * (n + 1) + (b + h * n) by ring,
              q5]
            exact Or.inl rfl
          | 1 =>
            simp at hx ha hc; subst hx ha hc
            rw [show b + h * n + n = b + (h + 1) * n by ring, q2]
            refine Or.inr ?_
            congr 2 <;> ring
          | 2 =>
            simp at hx ha hc; subst hx ha hc
            rw [show b + h * (n + 1) + (k + 1) * n = (k + 1) * n + (b + h * (n + 1)) by ring, q3]
            exact Or.inr rfl
          | _ + 3 => simp at hx
    · intro c hc
      obtain ⟨b, h, f, h1, h2, rfl⟩ := tri_split (o := o) (bt := bt) (ht := ht) (bs := bs) (hs := hs) hc
      have hp := tri_cell (o := o) (bt := bt) (ht := ht) (bs := bs) (hs := hs) f h1 h2
      refine ⟨?_, ?_, _, row_vert2 hp, ?_⟩
      · rw [active_P hp]; cases f <;> rfl
      · rw [marker_P hp]; cases f <;> rfl
      · cases f <;> rfl

end MeshData
end Verif
