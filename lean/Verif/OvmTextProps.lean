import Verif.OvmTextLemmas
import Verif.OvmProps

/-
C135: OVM meshes and their text.
-/
namespace Verif

open Res

variable {K : Type}

/-- C135, whole property: the text of an OVM mesh has the lines of the format and reading it gives the mesh back; a text with fewer
lines or words than it announces is refused. Here: for a consistent OVM mesh a text of the mesh is written, with `OVM ASCII` in the
first line and nothing after the last polyhedron, and every text of the mesh, also with other words in the lines between the parts or
with further lines, is read as the mesh. A text that announces more vertices than it has lines stops at an assertion. Missing: a text
that ends before a number of cells, and lines with too few words, see the violations below. -/
theorem c135_text_partial {o : OvmMesh K} (ho : o.Consistent) :
    (∃ lines, ovmToText o = ok lines ∧ IsOvmText o lines ∧ lines.length = 9 + o.num0 + o.num1 + o.num2 + o.num3 ∧
      lines.head? = some [.word "OVM", .word "ASCII"] ∧ textToOvm lines = ok o) ∧
    (∀ lines, IsOvmText o lines → textToOvm lines = ok o) ∧
    ∀ l0 l1 n (rest : List (List (OffWord K))), rest.length < n → textToOvm (l0 :: l1 :: [.nat n] :: rest) = abort := by
  obtain ⟨lines, h1, h2, h3, h4⟩ := ovmToText_text ho
  refine ⟨⟨lines, h1, h2, h3, h4, textToOvm_text ho h2⟩, fun lines h => textToOvm_text ho h, ?_⟩
  intro l0 l1 n rest h
  have := ovmPart_short (pre := [l0, l1]) (read := offPointOf) (k := 2) rfl h
  unfold textToOvm
  rw [show l0 :: l1 :: [OffWord.nat n] :: rest = [l0, l1] ++ [.nat n] :: rest from rfl, this]
  rfl

/-- A mesh of polyhedra whose polygons have their vertices at the ends of their edges goes through a file: the text is read as what was
written, and the import of it is the mesh with the given orientations. -/
theorem c135_file [Zero K] {m : Mesh K} (hw : m.WF) {orientation : List (List Bool)} (h : OvmReady m orientation)
    (hs : SidesMeet m) {order : List Nat → List Nat} (ho : ∀ l, (order l).Perm l) :
    ∃ o lines m', m.toOvm orientation = ok o ∧ ovmToText o = ok lines ∧ textToOvm lines = ok o ∧
      (Mesh.empty : Mesh K).ofOvm order o = ok (m', orientation) ∧ OvmSame m m' := by
  obtain ⟨o, m', h1, h2, h3, _, _, _, _, h4⟩ := c134_round_trip_partial hw h ho
  obtain ⟨lines, k1, k2, _⟩ := ovmToText_text (h4 hs)
  exact ⟨o, lines, m', h1, k1, textToOvm_text (h4 hs) k2, h2, h3⟩

theorem ovmTetra_meet : SidesMeet ovmTetra := by
  intro f vs es i v e x hv he hi hj hx
  have hE : e < 6 := lt_of_extremes hx
  have key : ∀ y ∈ ovmTetraRows, ∀ j < 3, y.1.length = 3 ∧ ∃ p ∈ [(0, 0, 1), (1, 2, 1), (2, 0, 2), (3, 0, 3), (4, 1, 3), (5, 2, 3)],
      p.1 = y.2.getD j 9 ∧ (p.2.1 = y.1.getD j 9 ∨ p.2.2 = y.1.getD j 9) := by decide
  have hm := ovmTetra_rows hv he
  have hlen : vs.length = 3 := (key _ hm 0 (by omega)).1
  have hi3 : i < 3 := by
    have := (List.getElem?_eq_some_iff.1 hi).1
    omega
  obtain ⟨_, p, hp, p1, p2⟩ := key _ hm i hi3
  simp only [List.getD_eq_getElem?_getD, hi, hj, Option.getD_some] at p1 p2
  have hext : ∀ p ∈ [(0, 0, 1), (1, 2, 1), (2, 0, 2), (3, 0, 3), (4, 1, 3), (5, 2, 3)], ovmTetra.extremes p.1 = ok p.2 := by
    intro p hp
    simp only [List.mem_cons, List.not_mem_nil, or_false] at hp
    rcases hp with rfl | rfl | rfl | rfl | rfl | rfl <;> rfl
  have := hext p hp
  rw [p1, hx] at this
  rw [ok.inj this]
  exact p2

/-- A tetrahedron goes through a file. -/
example : ∃ o lines m', ovmTetra.toOvm [[true, false, true, true]] = ok o ∧ ovmToText o = ok lines ∧ textToOvm lines = ok o ∧
    (Mesh.empty : Mesh ℚ).ofOvm id o = ok (m', [[true, false, true, true]]) ∧ OvmSame ovmTetra m' :=
  c135_file (MeshData.mesh_wf _) ovmTetra_ready ovmTetra_meet fun _ => List.Perm.refl _

/-- A triangle in the plane: the edges are written in their own direction, the polygon with its half edges. -/
example : ovmToText (⟨3, 3, 1, 0, [⟨0, 0, 0⟩, ⟨1, 0, 0⟩, ⟨0, 1, 0⟩], [(0, 1), (1, 0), (2, 1), (1, 2), (0, 2), (2, 0)],
    [[(0, 0), (1, 3), (2, 5)]], []⟩ : OvmMesh ℚ) = ok [[.word "OVM", .word "ASCII"], [.word "Vertices"], [.nat 3],
    [.num 0, .num 0, .num 0], [.num 1, .num 0, .num 0], [.num 0, .num 1, .num 0], [.word "Edges"], [.nat 3], [.nat 0, .nat 1],
    [.nat 2, .nat 1], [.nat 0, .nat 2], [.word "Faces"], [.nat 1], [.nat 3, .nat 0, .nat 3, .nat 5], [.word "Polyhedra"],
    [.nat 0]] := rfl

/-- C135 fails for the code: `StringsToOVMMesh` asks for two lines and reads the third one. -/
theorem c135_two_lines_violated (l0 l1 : List (OffWord K)) : textToOvm [l0, l1] = ub := rfl

/-- C135 fails for the code: a polygon with fewer words than it announces gets the half edge 0 for each missing word. -/
theorem c135_short_line_violated : textToOvm [[.word "OVM", .word "ASCII"], [.word "Vertices"], [.nat 2], [.num 0, .num 0, .num 0],
    [.num 1, .num 0, .num (0 : ℚ)], [.word "Edges"], [.nat 1], [.nat 0, .nat 1], [.word "Faces"], [.nat 1], [.nat 3, .nat 1],
    [.word "Polyhedra"], [.nat 0]] =
    ok ⟨2, 1, 1, 0, [⟨0, 0, 0⟩, ⟨1, 0, 0⟩], [(0, 1), (1, 0)], [[(1, 1), (0, 0), (0, 0)]], []⟩ := rfl

end Verif
