import Verif.OffLemmas
import Verif.BisectLemmas
import Verif.DataLemmas
import Mathlib.Tactic.NormNum
import Mathlib.Algebra.Order.Field.Rat

/-
C131: OFF meshes and their text. C132: meshes and OFF meshes.
-/
namespace Verif

open Res

variable {K : Type}

/-- C131, whole property: the text of an OFF mesh has the lines of the format and reading it gives the mesh back; a text that is too
short is refused. Here: what is written is the text of the mesh, with `OFF` in the first line and nothing after the last polygon; any
text of the mesh, also with a different first line or with further lines, is read as the mesh. A text whose second line announces more
vertices, or more polygons, than there are lines stops at an assertion. Missing: a text of one line, and lines with too few words, see
the two violations below. -/
theorem c131_text_partial {o : OffMesh K} (ho : o.Consistent) :
    (∃ lines, offToText o = ok lines ∧ IsOffText o lines ∧ lines.head? = some [.word "OFF"] ∧
      lines.length = 2 + o.num0 + o.num2 ∧ textToOff lines = ok o) ∧
    (∀ lines, IsOffText o lines → textToOff lines = ok o) ∧
    (∀ first n0 n2 n1 (rest : List (List (OffWord K))), rest.length < n0 →
      textToOff (first :: [.nat n0, .nat n2, .nat n1] :: rest) = abort) ∧
    ∀ first n2 n1 (rest : List (List (OffWord K))), rest.length < n2 →
      textToOff (first :: [.nat o.num0, .nat n2, .nat n1] :: (o.points.map pointLine ++ rest)) = abort := by
  have ht : IsOffText o ([.word "OFF"] :: [.nat o.num0, .nat o.num2, .nat o.num1] ::
      (o.points.map pointLine ++ o.faces.map faceLine)) := ⟨_, [], by rw [List.append_nil]⟩
  refine ⟨⟨_, offToText_text ho, ht, rfl, ?_, textToOff_text ho ht⟩, fun lines h => textToOff_text ho h,
    fun first n0 n2 n1 rest h => textToOff_short h, fun first n2 n1 rest h => ?_⟩
  · simp [ho.1, ho.2]
    omega
  · rw [ho.1]
    exact textToOff_short2 h

/-- A triangle and a quadrilateral. -/
def offHouse : OffMesh ℚ :=
  ⟨5, 6, 2, [⟨0, 0, 0⟩, ⟨1, 0, 0⟩, ⟨1, 1, 0⟩, ⟨0, 1, 0⟩, ⟨1/2, 2, 0⟩], [[0, 1, 2, 3], [3, 2, 4]]⟩

example : offHouse.Consistent := ⟨rfl, rfl⟩

example : offToText offHouse = ok [[.word "OFF"], [.nat 5, .nat 2, .nat 6], [.num 0, .num 0, .num 0], [.num 1, .num 0, .num 0],
    [.num 1, .num 1, .num 0], [.num 0, .num 1, .num 0], [.num (1/2), .num 2, .num 0], [.nat 4, .nat 0, .nat 1, .nat 2, .nat 3],
    [.nat 3, .nat 3, .nat 2, .nat 4]] := rfl

/-- C131 fails for the code: `StringsToOFFMesh` asks for at least one line and reads the second one. -/
theorem c131_one_line_violated (l : List (OffWord K)) : textToOff [l] = ub := rfl

/-- C131 fails for the code: a polygon with fewer words than it announces is not refused; a vertex remains without a value. -/
theorem c131_short_line_violated : textToOff [[.word "OFF"], [.nat 0, .nat 1, .nat 0],
    [OffWord.nat 3, .nat 0, (.nat 1 : OffWord ℚ)]] = ub := rfl

/-- C132, whole property: a mesh that is exported and imported again has the same vertices and polygons, with the same states, and its
edges are the sides of the polygons. Here: a mesh whose polygons have no vertex twice in a row can be exported; the numbers of the OFF
mesh are those of the mesh; the import of it into an empty mesh gives a mesh with the vertices and polygons of the first one, edges
that are exactly the sides of the polygons, each one time, and for each side of a polygon the edge that joins its vertices. Missing:
the states, see the violation below. -/
theorem c132_round_trip_partial [Zero K] {m : Mesh K} (h : m.WF) (hg : GoodPolygons m) :
    ∃ o m', m.toOff = ok o ∧ o.Consistent ∧ o.num0 = m.num .d0 ∧ o.num1 = m.num .d1 ∧ o.num2 = m.num .d2 ∧
      (Mesh.empty : Mesh K).ofOff o = ok m' ∧ SameShape m m' := by
  obtain ⟨o, ho, hc, h0, h1, h2, hp, hf⟩ := toOff_spec h
  have hmem : ∀ cell ∈ o.faces, ∃ c, m.row .vert2 c = ok cell := by
    intro cell hcell
    obtain ⟨i, hi⟩ := List.mem_iff_getElem?.1 hcell
    exact ⟨i, hf i cell hi⟩
  have hface : ∀ c r, m.row .vert2 c = ok r → o.faces[c]? = some r := by
    intro c r hr
    have hl := lt_of_row hr
    have hl' : c < o.faces.length := by
      rw [← hc.2, h2]; exact hl
    have := hf c _ (List.getElem?_eq_getElem hl')
    rw [List.getElem?_eq_getElem hl']
    rw [hr] at this
    simpa using this.symm
  obtain ⟨r, hr, r1, r2, r3, r4, r5⟩ := c36_edges o.points.length o.faces
    (by
      intro cell hcell v hv
      obtain ⟨c, hcc⟩ := hmem cell hcell
      have := (hg c cell hcc).1 v hv
      rw [← hc.1, h0]; exact this)
    (by
      intro cell hcell
      obtain ⟨c, hcc⟩ := hmem cell hcell
      exact (hg c cell hcc).2)
  have hcell : ∀ (c : Nat) cell', r.cell2Ds[c]? = some cell' → ∃ cell, o.faces[c]? = some cell ∧
      cell'.map Prod.fst = cell ∧ ∀ x ∈ cell'.map Prod.snd, x < r.cell1Ds.length := by
    intro c cell' hc'
    have hl := (List.getElem?_eq_some_iff.1 hc').1
    have hq := List.getElem?_eq_getElem (show c < o.faces.length by omega)
    obtain ⟨q1, q2⟩ := r5 c _ cell' hq hc'
    have entry : ∀ (v : Nat) (hv : v < cell'.length), ∃ e, cell'[v] = (o.faces[c][v]'(by omega), e) ∧ e < r.cell1Ds.length := by
      intro v hv
      have hn : (v + 1) % o.faces[c].length < o.faces[c].length := Nat.mod_lt _ (by omega)
      obtain ⟨e, e1, e2⟩ := q2 v _ _ (List.getElem?_eq_getElem (by omega)) (List.getElem?_eq_getElem hn)
      exact ⟨e, (List.getElem?_eq_some_iff.1 e1).2, (List.getElem?_eq_some_iff.1 e2).1⟩
    refine ⟨_, hq, ?_, ?_⟩
    · refine List.ext_getElem (by simp [q1]) ?_
      intro v v1 v2
      obtain ⟨e, he, _⟩ := entry v (by simpa using v1)
      simp [he]
    · intro x hx
      obtain ⟨y, hy, rfl⟩ := List.mem_map.1 hx
      obtain ⟨v, hv, rfl⟩ := List.mem_iff_getElem.1 hy
      obtain ⟨e, he, hlt⟩ := entry v hv
      rw [he]; exact hlt
  have hverts : r.cell2Ds.map (·.map Prod.fst) = o.faces := by
    refine List.ext_getElem (by simp [r4]) ?_
    intro c c1 c2
    obtain ⟨cell, g1, g2, _⟩ := hcell c _ (List.getElem?_eq_getElem (by simpa using c1))
    rw [List.getElem?_eq_getElem c2] at g1
    rw [List.getElem_map, g2]
    simpa using g1.symm
  obtain ⟨m', hm', w1, w2, w3, w4, w5, w6, w7, w8, w9⟩ := (c56_fill_2d o.points r.cell1Ds r.cell2Ds).1 (by
    refine ⟨?_, ?_, ?_⟩
    · intro e he
      obtain ⟨cell, hcl, hs⟩ := (r3 e.1 e.2 (r1 e he)).1 he
      obtain ⟨c, hcc⟩ := hmem cell hcl
      have hlt := (hg c cell hcc).1
      rw [← hc.1, h0]
      rcases hs with ⟨v, s1, s2⟩ | ⟨v, s1, s2⟩
      · exact ⟨hlt _ (List.mem_of_getElem? s1), hlt _ (List.mem_of_getElem? s2)⟩
      · exact ⟨hlt _ (List.mem_of_getElem? s2), hlt _ (List.mem_of_getElem? s1)⟩
    · rw [hverts]
      intro cell hcl x hx
      obtain ⟨c, hcc⟩ := hmem cell hcl
      rw [← hc.1, h0]
      exact (hg c cell hcc).1 x hx
    · intro es hes x hx
      obtain ⟨cell', hc', rfl⟩ := List.mem_map.1 hes
      obtain ⟨i, hi⟩ := List.mem_iff_getElem?.1 hc'
      obtain ⟨_, _, _, g⟩ := hcell i cell' hi
      exact g x hx)
  have hext : ∀ e x, m'.extremes e = ok x → r.cell1Ds[e]? = some x := by
    intro e x hx
    by_cases hl : e < r.cell1Ds.length
    · have := w4.2 e _ (List.getElem?_eq_getElem hl)
      rw [hx] at this
      rw [List.getElem?_eq_getElem hl]
      simpa using this.symm
    · exact absurd (lt_of_extremes hx) (by rw [w4.1]; exact hl)
  rw [hverts] at w5
  refine ⟨o, m', ho, hc, h0, h1, h2, by rw [ofOff_eq hc hr r4, hm'], ⟨w1, w2, ⟨?_, ?_⟩, ⟨?_, ?_⟩, w6, ?_, ?_, ?_, w7, w8, w9⟩⟩
  · rw [w3.1, ← hc.1, h0]
  · intro i hi
    have hl : i < o.points.length := by rw [← hc.1, h0]; exact hi
    rw [w3.2 i _ (List.getElem?_eq_getElem hl), hp i _ (List.getElem?_eq_getElem hl)]
  · rw [w5.1, ← hc.2, h2]
  · intro c hcl
    have hl : c < o.faces.length := by rw [← hc.2, h2]; exact hcl
    rw [w5.2.2.1 c _ (List.getElem?_eq_getElem hl), hf c _ (List.getElem?_eq_getElem hl)]
  · intro e he
    rw [w4.1] at he
    refine ⟨r.cell1Ds[e].1, r.cell1Ds[e].2, w4.2 e _ (List.getElem?_eq_getElem he), r1 _ (List.getElem_mem he), ?_⟩
    obtain ⟨cell, hcl, hs⟩ := (r3 _ _ (r1 _ (List.getElem_mem he))).1 (List.getElem_mem he)
    obtain ⟨c, hcc⟩ := hmem cell hcl
    exact ⟨c, cell, hcc, hs⟩
  · intro e e' x he he'
    have a := hext e x he
    have b := hext e' x he'
    exact (List.getElem?_inj (List.getElem?_eq_some_iff.1 a).1 r2).1 (a.trans b.symm)
  · intro c cell hcc
    have hq := hface c cell hcc
    have hl := (List.getElem?_eq_some_iff.1 hq).1
    have hq' := List.getElem?_eq_getElem (show c < r.cell2Ds.length by omega)
    obtain ⟨q1, q2⟩ := r5 c cell _ hq hq'
    refine ⟨(r.cell2Ds[c]'(by omega)).map Prod.snd, w5.2.2.2 c _ (by rw [List.getElem?_map, hq']; rfl), by simp [q1], ?_⟩
    intro v a b ha hb
    obtain ⟨e, e1, e2⟩ := q2 v a b ha hb
    exact ⟨e, by rw [List.getElem?_map, e1]; rfl, w4.2 e _ e2⟩

/-- Two triangles, the first one not active, and an edge that is no side of them. -/
def offSquare : Mesh ℚ :=
  (⟨2, [⟨0, 0, 0, 1, true⟩, ⟨1, 0, 0, 2, true⟩, ⟨1, 1, 0, 3, true⟩, ⟨0, 1, 0, 4, true⟩],
    [⟨0, 1, 0, true, []⟩, ⟨1, 2, 0, true, []⟩, ⟨2, 0, 0, true, []⟩, ⟨2, 3, 0, true, []⟩, ⟨3, 0, 0, true, []⟩, ⟨1, 3, 0, true, []⟩],
    [⟨[0, 1, 2], [0, 1, 2], 0, false⟩, ⟨[0, 2, 3], [2, 3, 4], 6, true⟩], []⟩ : MeshData ℚ).mesh

theorem offSquare_wf : offSquare.WF := MeshData.mesh_wf _

theorem offSquare_good : GoodPolygons offSquare := by
  intro c r hr
  have hc : c < 2 := lt_of_row hr
  have side : ∀ {x y z : Nat}, x ≠ y → y ≠ z → z ≠ x → ∀ a, ¬ Side [x, y, z] a a := by
    rintro x y z h1 h2 h3 a ⟨v, s1, s2⟩
    have hv := (List.getElem?_eq_some_iff.1 s1).1
    simp only [List.length_cons, List.length_nil] at hv
    match v, hv with
    | 0, _ => simp at s1 s2; omega
    | 1, _ => simp at s1 s2; omega
    | 2, _ => simp at s1 s2; omega
  match c, hc with
  | 0, _ =>
    have h0 : offSquare.row .vert2 0 = ok [0, 1, 2] := rfl
    rw [h0] at hr
    obtain rfl : [0, 1, 2] = r := by simpa using hr
    exact ⟨by decide, side (by decide) (by decide) (by decide)⟩
  | 1, _ =>
    have h0 : offSquare.row .vert2 1 = ok [0, 2, 3] := rfl
    rw [h0] at hr
    obtain rfl : [0, 2, 3] = r := by simpa using hr
    exact ⟨by decide, side (by decide) (by decide) (by decide)⟩

/-- C132 fails for the code: the file does not say which cells are active, so a triangle that is not active comes back active. -/
theorem c132_states_violated : offSquare.WF ∧ GoodPolygons offSquare ∧ offSquare.active .d2 0 = ok false ∧
    ∃ o m', offSquare.toOff = ok o ∧ (Mesh.empty : Mesh ℚ).ofOff o = ok m' ∧ m'.num .d2 = 2 ∧ m'.active .d2 0 = ok true := by
  obtain ⟨o, m', ho, _, _, _, _, hm, hs⟩ := c132_round_trip_partial offSquare_wf offSquare_good
  have hn : m'.num .d2 = 2 := hs.polygons.1
  exact ⟨offSquare_wf, offSquare_good, rfl, o, m', ho, hm, hn, hs.active .d2 0 (by omega)⟩

end Verif
