import Verif.RectModel
import Verif.DataLemmas
import Verif.GraphLemmas2
import Mathlib.Tactic.Ring

/-
The loops of the grid generators write down explicit lists of cells.
-/
namespace Verif

open Res

/-- The pairs `(h, b)` in the order of the nested loops. -/
def gridPairs (n m : Nat) : List (Nat × Nat) :=
  (List.range n).flatMap fun h => (List.range m).map fun b => (h, b)

theorem gridPairs_succ (n m : Nat) :
    gridPairs (n + 1) m = gridPairs n m ++ (List.range m).map fun b => (n, b) := by
  simp [gridPairs, List.range_succ]

theorem length_gridPairs (n m : Nat) : (gridPairs n m).length = n * m := by
  induction n with
  | zero => simp [gridPairs]
  | succ n ih => rw [gridPairs_succ]; simp [ih, Nat.add_mul]

theorem mem_gridPairs {n m : Nat} {x : Nat × Nat} : x ∈ gridPairs n m ↔ x.1 < n ∧ x.2 < m := by
  obtain ⟨h, b⟩ := x
  simp [gridPairs]

theorem getElem?_gridPairs {n m b h : Nat} (hb : b < m) (hh : h < n) :
    (gridPairs n m)[b + h * m]? = some (h, b) := by
  induction n with
  | zero => omega
  | succ n ih =>
    rw [gridPairs_succ]
    by_cases hn : h < n
    · have hlt : b + h * m < n * m := by
        calc b + h * m < m + h * m := by omega
          _ = (h + 1) * m := by ring
          _ ≤ n * m := Nat.mul_le_mul_right _ hn
      rw [List.getElem?_append_left (by rw [length_gridPairs]; exact hlt), ih hn]
    · have : h = n := by omega
      subst this
      rw [List.getElem?_append_right (by rw [length_gridPairs]; omega), length_gridPairs,
        Nat.add_sub_cancel]
      simp [hb]

theorem grid_lt {n m b h : Nat} (hb : b < m) (hh : h < n) : b + h * m < n * m := by
  calc b + h * m < m + h * m := by omega
    _ = (h + 1) * m := by ring
    _ ≤ n * m := Nat.mul_le_mul_right _ hh

theorem grid_inj {m b h b' h' : Nat} (hb : b < m) (hb' : b' < m) (e : b + h * m = b' + h' * m) :
    b = b' ∧ h = h' := by
  have h1 : (b + h * m) % m = b := by rw [Nat.add_mul_mod_self_right, Nat.mod_eq_of_lt hb]
  have h2 : (b' + h' * m) % m = b' := by rw [Nat.add_mul_mod_self_right, Nat.mod_eq_of_lt hb']
  have hbb : b = b' := by rw [← h1, e, h2]
  subst hbb
  have : h * m = h' * m := by omega
  exact ⟨rfl, Nat.eq_of_mul_eq_mul_right (by omega) this⟩

theorem grid_split {n m i : Nat} (h : i < n * m) : ∃ b h, b < m ∧ h < n ∧ i = b + h * m := by
  have hm : 0 < m := by
    rcases Nat.eq_zero_or_pos m with h0 | h0
    · subst h0; simp at h
    · exact h0
  refine ⟨i % m, i / m, Nat.mod_lt _ hm, ?_, ?_⟩
  · exact (Nat.div_lt_iff_lt_mul hm).2 h
  · have := Nat.mod_add_div i m
    rw [Nat.mul_comm] at this
    exact this.symm

namespace Mesh

theorem gridLoop_eq {σ : Type} (n m : Nat) (step : σ → Nat → Nat → Res σ) (s : σ) :
    gridLoop n m step s = foldRes (fun s x => step s x.1 x.2) s (gridPairs n m) := by
  unfold gridLoop gridPairs
  rw [foldRes_flatMap]
  simp only [foldRes_map]

end Mesh

namespace MeshData

variable {K : Type} [Field K] {D : MeshData K}

theorem putPoint_V {i k : Nat} {p : V3 K} {v : VCell K} (hv : D.V[i]? = some v) :
    D.mesh.putPoint i p k =
      ok ({ D with V := D.V.set i ⟨p.x, p.y, p.z, k, true⟩ } : MeshData K).mesh := by
  have hi : i < D.V.length := (List.getElem?_eq_some_iff.1 hv).1
  unfold Mesh.putPoint
  rw [setAct_V hv, ok_bind, insertCoord_V (by simp [hi]; rfl), ok_bind, setMark_V (by simp [hi]; rfl)]
  simp [List.set_set]

theorem putEdge_E {i a b k : Nat} {v : ECell} (hv : D.E[i]? = some v) :
    D.mesh.putEdge i a b k =
      ok ({ D with E := D.E.set i ⟨a, b, k, true, v.polygons⟩ } : MeshData K).mesh := by
  have hi : i < D.E.length := (List.getElem?_eq_some_iff.1 hv).1
  unfold Mesh.putEdge
  rw [insertExt_E hv, ok_bind, setAct_E (by simp [hi]; rfl), ok_bind, setMark_E (by simp [hi]; rfl)]
  simp [List.set_set]

theorem putPolygon_P {i k : Nat} {vs es : List Nat} {v : PCell} (hv : D.P[i]? = some v)
    (h1 : v.verts.length = vs.length) (h2 : v.edges.length = es.length)
    (h3 : ∀ x ∈ vs, x < D.V.length) (h4 : ∀ x ∈ es, x < D.E.length) :
    D.mesh.putPolygon i vs es k =
      ok ({ D with P := D.P.set i ⟨vs, es, k, true⟩ } : MeshData K).mesh := by
  have hi : i < D.P.length := (List.getElem?_eq_some_iff.1 hv).1
  unfold Mesh.putPolygon
  rw [insertFrom_vert2 hv h1 h3, ok_bind,
    insertFrom_edge2 (D := { D with P := D.P.set i { v with verts := vs } })
      (v := { v with verts := vs }) (by simp [hi]) h2 h4, ok_bind,
    setAct_P (by simp [hi]; rfl), ok_bind, setMark_P (by simp [hi]; rfl)]
  simp [List.set_set]

/-- Grid point `(h, b)`. -/
def pointCell (o bt ht : V3 K) (bs hs : List K) (x : Nat × Nat) : VCell K :=
  let p := (o.add (V3.smul (bs.getD x.2 0) bt)).add (V3.smul (hs.getD x.1 0) ht)
  ⟨p.x, p.y, p.z, Mesh.gridPointMarker (bs.length - 1) (hs.length - 1) x.2 x.1, true⟩

/-- Horizontal edge `(h, b)` of the grid with `(n + 1) * (k + 1)` points. -/
def horCell (n k : Nat) (x : Nat × Nat) : ECell :=
  ⟨x.2 + x.1 * (n + 1), x.2 + x.1 * (n + 1) + 1, 5 * (x.1 == 0).toNat + 7 * (x.1 == k).toNat, true, []⟩

/-- Vertical edge `(h, b)`. -/
def verCell (n : Nat) (x : Nat × Nat) : ECell :=
  ⟨x.2 + x.1 * (n + 1), x.2 + x.1 * (n + 1) + (n + 1),
    8 * (x.2 == 0).toNat + 6 * (x.2 == n).toNat, true, []⟩

/-- Oblique edge `(h, b)`. -/
def oblCell (n : Nat) (x : Nat × Nat) : ECell :=
  ⟨x.2 + x.1 * (n + 1), x.2 + x.1 * (n + 1) + (n + 1) + 1, 0, true, []⟩

/-- Rectangle `(h, b)`. -/
def rectCell (n k : Nat) (x : Nat × Nat) : PCell :=
  let p := x.2 + x.1 * (n + 1)
  let hor := x.2 + x.1 * n
  let ver := p + (k + 1) * n
  ⟨[p, p + 1, p + (n + 1) + 1, p + (n + 1)], [hor, ver + 1, hor + n, ver], 0, true⟩

/-- Triangles of the rectangle `(h, b)`. -/
def triCell (n k : Nat) (x : (Nat × Nat) × Bool) : PCell :=
  let p := x.1.2 + x.1.1 * (n + 1)
  let hor := x.1.2 + x.1.1 * n
  let ver := p + (k + 1) * n
  let obl := (k + 1) * n + k * (n + 1) + x.1.2 + x.1.1 * n
  if x.2 then ⟨[p, p + (n + 1) + 1, p + (n + 1)], [obl, hor + n, ver], 0, true⟩
  else ⟨[p, p + 1, p + (n + 1) + 1], [hor, ver + 1, obl], 0, true⟩

theorem usub_one (n : Nat) : usub (n + 1) 1 = n := by simp [usub]

theorem gridPoints_eq {o bt ht : V3 K} {bs hs : List K} {v : VCell K} (hb : bs ≠ []) (hh : hs ≠ []) :
    Mesh.gridPoints o bt ht bs hs
      ({ D with V := List.replicate (bs.length * hs.length) v } : MeshData K).mesh =
    ok (({ D with V := (gridPairs hs.length bs.length).map (pointCell o bt ht bs hs) }
      : MeshData K).mesh, bs.length * hs.length) := by
  unfold Mesh.gridPoints
  rw [Mesh.gridLoop_eq]
  have hb' : usub bs.length 1 = bs.length - 1 := by
    have := List.length_pos_iff.2 hb
    unfold usub; rw [if_pos (by omega)]
  have hh' : usub hs.length 1 = hs.length - 1 := by
    have := List.length_pos_iff.2 hh
    unfold usub; rw [if_pos (by omega)]
  have hl : (gridPairs hs.length bs.length).length = bs.length * hs.length := by
    rw [length_gridPairs, Nat.mul_comm]
  have := foldFill (fun (s : Mesh K × Nat) (x : Nat × Nat) => do
      let a ← vget bs x.2
      let y ← vget hs x.1
      let m ← s.1.putPoint s.2 ((o.add (V3.smul a bt)).add (V3.smul y ht))
        (Mesh.gridPointMarker (usub bs.length 1) (usub hs.length 1) x.2 x.1)
      ok (m, s.2 + 1))
    (fun V => ({ D with V := V } : MeshData K).mesh) (pointCell o bt ht bs hs) (fun _ => True)
    (gridPairs hs.length bs.length) [] (List.replicate (bs.length * hs.length) v) (by simp)
    (by simp [hl]) (by
      intro cells i b x hx hlen hi _
      obtain ⟨h1, h2⟩ := mem_gridPairs.1 hx
      simp only [hb', hh']
      rw [vget_of_lt h2, ok_bind, vget_of_lt h1, ok_bind, putPoint_V hi, ok_bind]
      simp [pointCell, h1, h2])
  simp only [List.nil_append, List.length_nil, hl, List.drop_replicate, Nat.sub_self,
    List.replicate_zero, List.append_nil, Nat.zero_add] at this
  exact this

theorem gridHorizontal_eq {n k j : Nat} {start rest : List ECell} (hr : ∀ e ∈ rest, e.polygons = [])
    (hl : (k + 1) * n ≤ rest.length) (hj : j = start.length) :
    Mesh.gridHorizontal (n + 1) (k + 1) (({ D with E := start ++ rest } : MeshData K).mesh, j) =
    ok (({ D with E := start ++ (gridPairs (k + 1) n).map (horCell n k) ++ rest.drop ((k + 1) * n) }
      : MeshData K).mesh, start.length + (k + 1) * n) := by
  subst hj
  unfold Mesh.gridHorizontal
  rw [Mesh.gridLoop_eq, usub_one, usub_one]
  have := foldFill (fun (s : Mesh K × Nat) (x : Nat × Nat) => do
      let m ← s.1.putEdge s.2 (x.2 + x.1 * (n + 1)) (x.2 + x.1 * (n + 1) + 1)
        (5 * (x.1 == 0).toNat + 7 * (x.1 == k).toNat)
      ok (m, s.2 + 1))
    (fun E => ({ D with E := E } : MeshData K).mesh) (horCell n k) (fun e => e.polygons = [])
    (gridPairs (k + 1) n) start rest hr (by rw [length_gridPairs]; exact hl) (by
      intro cells i b x hx hlen hi hb
      rw [putEdge_E hi, ok_bind, hb]
      rfl)
  rw [length_gridPairs] at this
  exact this

theorem gridVertical_eq {n k j : Nat} {start rest : List ECell} (hr : ∀ e ∈ rest, e.polygons = [])
    (hl : k * (n + 1) ≤ rest.length) (hj : j = start.length) :
    Mesh.gridVertical (n + 1) (k + 1) (({ D with E := start ++ rest } : MeshData K).mesh, j) =
    ok (({ D with E := start ++ (gridPairs k (n + 1)).map (verCell n) ++ rest.drop (k * (n + 1)) }
      : MeshData K).mesh, start.length + k * (n + 1)) := by
  subst hj
  unfold Mesh.gridVertical
  rw [Mesh.gridLoop_eq, usub_one, usub_one]
  have := foldFill (fun (s : Mesh K × Nat) (x : Nat × Nat) => do
      let m ← s.1.putEdge s.2 (x.2 + x.1 * (n + 1)) (x.2 + x.1 * (n + 1) + (n + 1))
        (8 * (x.2 == 0).toNat + 6 * (x.2 == n).toNat)
      ok (m, s.2 + 1))
    (fun E => ({ D with E := E } : MeshData K).mesh) (verCell n) (fun e => e.polygons = [])
    (gridPairs k (n + 1)) start rest hr (by rw [length_gridPairs]; exact hl) (by
      intro cells i b x hx hlen hi hb
      rw [putEdge_E hi, ok_bind, hb]
      rfl)
  rw [length_gridPairs] at this
  exact this

theorem gridOblique_eq {n k j : Nat} {start rest : List ECell} (hr : ∀ e ∈ rest, e.polygons = [])
    (hl : k * n ≤ rest.length) (hj : j = start.length) :
    Mesh.gridOblique (n + 1) (k + 1) (({ D with E := start ++ rest } : MeshData K).mesh, j) =
    ok (({ D with E := start ++ (gridPairs k n).map (oblCell n) ++ rest.drop (k * n) }
      : MeshData K).mesh, start.length + k * n) := by
  subst hj
  unfold Mesh.gridOblique
  rw [Mesh.gridLoop_eq, usub_one, usub_one]
  have := foldFill (fun (s : Mesh K × Nat) (x : Nat × Nat) => do
      let m ← s.1.putEdge s.2 (x.2 + x.1 * (n + 1)) (x.2 + x.1 * (n + 1) + (n + 1) + 1) 0
      ok (m, s.2 + 1))
    (fun E => ({ D with E := E } : MeshData K).mesh) (oblCell n) (fun e => e.polygons = [])
    (gridPairs k n) start rest hr (by rw [length_gridPairs]; exact hl) (by
      intro cells i b x hx hlen hi hb
      rw [putEdge_E hi, ok_bind, hb]
      rfl)
  rw [length_gridPairs] at this
  exact this

theorem initRowsConst_P {N k j : Nat} (hP : D.P = List.replicate N ⟨[], [], 0, false⟩) :
    (D.mesh.initRowsConst .vert2 k).initRowsConst .edge2 j =
      ({ D with P := List.replicate N ⟨List.replicate k UINT_MAX, List.replicate j UINT_MAX, 0, false⟩ }
        : MeshData K).mesh := by
  unfold mesh
  rw [initRowsConst_empty D.toA_ok (l := .vert2) (by
      show ∀ r ∈ D.P.map (·.verts), _
      rw [hP]; simp)]
  rw [setRows_vert2 (by simp [toA, num, Lst.owner])]
  rw [initRowsConst_empty (toA_ok _) (l := .edge2) (by
      show ∀ r ∈ (List.zipWith _ D.P _).map _, _
      rw [hP]; simp [toA, num, Lst.owner, hP])]
  rw [setRows_edge2 (by simp [toA, num, Lst.owner])]
  congr 2
  simp [toA, num, Lst.owner, hP, Lst.fillAll]

theorem gridRectangles_eq {n k : Nat} (hV : D.V.length = (n + 1) * (k + 1))
    (hE : D.E.length = (k + 1) * n + (n + 1) * k)
    (hP : D.P = List.replicate (n * k) ⟨List.replicate 4 UINT_MAX, List.replicate 4 UINT_MAX, 0, false⟩) :
    Mesh.gridRectangles (n + 1) (k + 1) D.mesh =
    ok (({ D with P := (gridPairs k n).map (rectCell n k) } : MeshData K).mesh, n * k) := by
  unfold Mesh.gridRectangles
  rw [Mesh.gridLoop_eq, usub_one, usub_one]
  have hl : (gridPairs k n).length = n * k := by rw [length_gridPairs, Nat.mul_comm]
  have := foldFill (fun (s : Mesh K × Nat) (x : Nat × Nat) => do
      let p := x.2 + x.1 * (n + 1)
      let hor := x.2 + x.1 * n
      let ver := p + (k + 1) * n
      let m ← s.1.putPolygon s.2 [p, p + 1, p + (n + 1) + 1, p + (n + 1)]
        [hor, ver + 1, hor + n, ver] 0
      ok (m, s.2 + 1))
    (fun P => ({ D with P := P } : MeshData K).mesh) (rectCell n k)
    (fun e => e.verts.length = 4 ∧ e.edges.length = 4)
    (gridPairs k n) [] (List.replicate (n * k)
      ⟨List.replicate 4 UINT_MAX, List.replicate 4 UINT_MAX, 0, false⟩) (by
      intro b hb; rw [List.eq_of_mem_replicate hb]; exact ⟨rfl, rfl⟩)
    (by simp [hl]) (by
      intro cells i b x hx hlen hi hb
      obtain ⟨h1, h2⟩ := mem_gridPairs.1 hx
      have e1 := grid_lt (m := n + 1) (n := k + 1) (b := x.2 + 1) (h := x.1 + 1) (by omega) (by omega)
      have e2 := grid_lt (m := n) (n := k + 1) (b := x.2) (h := x.1 + 1) (by omega) (by omega)
      have e3 := grid_lt (m := n + 1) (n := k) (b := x.2 + 1) (h := x.1) (by omega) (by omega)
      have e1' : x.2 + 1 + (x.1 + 1) * (n + 1) = x.2 + x.1 * (n + 1) + (n + 1) + 1 := by ring
      have e2' : x.2 + (x.1 + 1) * n = x.2 + x.1 * n + n := by ring
      have e3' : k * (n + 1) = (n + 1) * k := by ring
      have e4' : (k + 1) * (n + 1) = (n + 1) * (k + 1) := by ring
      rw [e1', e4', ← hV] at e1
      rw [e2'] at e2
      simp only
      rw [putPolygon_P hi (by simpa using hb.1) (by simpa using hb.2), ok_bind]
      · rfl
      · simp only [List.mem_cons, List.not_mem_nil, or_false]
        rintro y (rfl | rfl | rfl | rfl) <;> omega
      · simp only [List.mem_cons, List.not_mem_nil, or_false]
        rintro y (rfl | rfl | rfl | rfl) <;> omega)
  simp only [List.nil_append, List.length_nil, hl, List.drop_replicate, Nat.sub_self,
    List.replicate_zero, List.append_nil, Nat.zero_add] at this
  rw [← hP] at this
  exact this

theorem gridTriangles_eq {n k : Nat} (hV : D.V.length = (n + 1) * (k + 1))
    (hE : D.E.length = (k + 1) * n + (n + 1) * k + n * k)
    (hP : D.P = List.replicate (n * k * 2) ⟨List.replicate 3 UINT_MAX, List.replicate 3 UINT_MAX, 0, false⟩) :
    Mesh.gridTriangles (n + 1) (k + 1) D.mesh =
    ok (({ D with P := ((gridPairs k n).flatMap fun x => [(x, false), (x, true)]).map (triCell n k) }
      : MeshData K).mesh, n * k * 2) := by
  have hl : ((gridPairs k n).flatMap fun x => [(x, false), (x, true)]).length = n * k * 2 := by
    rw [List.length_flatMap]
    simp [length_gridPairs, Nat.mul_comm]
  have h2 : Mesh.gridTriangles (n + 1) (k + 1) D.mesh =
      foldRes (fun (s : Mesh K × Nat) (x : (Nat × Nat) × Bool) => do
        let m ← s.1.putPolygon s.2 (triCell n k x).verts (triCell n k x).edges 0
        ok (m, s.2 + 1)) (D.mesh, 0) ((gridPairs k n).flatMap fun x => [(x, false), (x, true)]) := by
    unfold Mesh.gridTriangles
    rw [Mesh.gridLoop_eq, usub_one, usub_one, foldRes_flatMap]
    congr 1
    funext s x
    simp only [foldRes_cons, foldRes_nil, triCell, if_true, Bool.false_eq_true, if_false]
    cases s.1.putPolygon s.2 [x.2 + x.1 * (n + 1), x.2 + x.1 * (n + 1) + 1,
      x.2 + x.1 * (n + 1) + (n + 1) + 1] [x.2 + x.1 * n, x.2 + x.1 * (n + 1) + (k + 1) * n + 1,
      (k + 1) * n + k * (n + 1) + x.2 + x.1 * n] 0 with
    | ok m =>
      simp only [ok_bind]
      cases m.putPolygon (s.2 + 1) [x.2 + x.1 * (n + 1), x.2 + x.1 * (n + 1) + (n + 1) + 1,
        x.2 + x.1 * (n + 1) + (n + 1)] [(k + 1) * n + k * (n + 1) + x.2 + x.1 * n, x.2 + x.1 * n + n,
        x.2 + x.1 * (n + 1) + (k + 1) * n] 0 <;> rfl
    | _ => rfl
  rw [h2]
  have := foldFill (fun (s : Mesh K × Nat) (x : (Nat × Nat) × Bool) => do
        let m ← s.1.putPolygon s.2 (triCell n k x).verts (triCell n k x).edges 0
        ok (m, s.2 + 1))
    (fun P => ({ D with P := P } : MeshData K).mesh) (triCell n k)
    (fun e => e.verts.length = 3 ∧ e.edges.length = 3)
    ((gridPairs k n).flatMap fun x => [(x, false), (x, true)]) [] (List.replicate (n * k * 2)
      ⟨List.replicate 3 UINT_MAX, List.replicate 3 UINT_MAX, 0, false⟩) (by
      intro b hb; rw [List.eq_of_mem_replicate hb]; exact ⟨rfl, rfl⟩)
    (by simp [hl]) (by
      intro cells i b x hx hlen hi hb
      obtain ⟨⟨h, b'⟩, f⟩ := x
      have hx' : (h, b') ∈ gridPairs k n := by
        obtain ⟨y, hy, hy'⟩ := List.mem_flatMap.1 hx
        simp only [List.mem_cons, Prod.mk.injEq, List.not_mem_nil, or_false] at hy'
        rcases hy' with h | h <;> (rw [h.1]; exact hy)
      obtain ⟨h1, h2⟩ := mem_gridPairs.1 hx'
      simp only at h1 h2
      have e1 := grid_lt (m := n + 1) (n := k + 1) (b := b' + 1) (h := h + 1) (by omega) (by omega)
      have e2 := grid_lt (m := n) (n := k + 1) (b := b') (h := h + 1) (by omega) (by omega)
      have e3 := grid_lt (m := n + 1) (n := k) (b := b' + 1) (h := h) (by omega) (by omega)
      have e4 := grid_lt (m := n) (n := k) (b := b') (h := h) (by omega) (by omega)
      have e1' : b' + 1 + (h + 1) * (n + 1) = b' + h * (n + 1) + (n + 1) + 1 := by ring
      have e2' : b' + (h + 1) * n = b' + h * n + n := by ring
      have e3' : k * (n + 1) = (n + 1) * k := by ring
      have e4' : (k + 1) * (n + 1) = (n + 1) * (k + 1) := by ring
      have e5' : k * n = n * k := by ring
      rw [e1', e4', ← hV] at e1
      rw [e2'] at e2
      cases f with
      | false =>
        simp only [triCell, Bool.false_eq_true, if_false]
        rw [putPolygon_P hi (by simpa using hb.1) (by simpa using hb.2), ok_bind]
        · simp only [List.mem_cons, List.not_mem_nil, or_false]
          rintro y (rfl | rfl | rfl) <;> omega
        · simp only [List.mem_cons, List.not_mem_nil, or_false]
          rintro y (rfl | rfl | rfl) <;> omega
      | true =>
        simp only [triCell, if_true]
        rw [putPolygon_P hi (by simpa using hb.1) (by simpa using hb.2), ok_bind]
        · simp only [List.mem_cons, List.not_mem_nil, or_false]
          rintro y (rfl | rfl | rfl) <;> omega
        · simp only [List.mem_cons, List.not_mem_nil, or_false]
          rintro y (rfl | rfl | rfl) <;> omega)
  simp only [List.nil_append, List.length_nil, hl, List.drop_replicate, Nat.sub_self,
    List.replicate_zero, List.append_nil, Nat.zero_add] at this
  rw [← hP] at this
  exact this

/-- The cells of the grid of rectangles. -/
def rectData (o bt ht : V3 K) (bs hs : List K) (n k : Nat) : MeshData K where
  dimension := 2
  V := (gridPairs (k + 1) (n + 1)).map (pointCell o bt ht bs hs)
  E := (gridPairs (k + 1) n).map (horCell n k) ++ (gridPairs k (n + 1)).map (verCell n)
  P := (gridPairs k n).map (rectCell n k)
  C := []

/-- The cells of the grid of triangles. -/
def triData (o bt ht : V3 K) (bs hs : List K) (n k : Nat) : MeshData K where
  dimension := 2
  V := (gridPairs (k + 1) (n + 1)).map (pointCell o bt ht bs hs)
  E := (gridPairs (k + 1) n).map (horCell n k) ++ (gridPairs k (n + 1)).map (verCell n) ++
    (gridPairs k n).map (oblCell n)
  P := ((gridPairs k n).flatMap fun x => [(x, false), (x, true)]).map (triCell n k)
  C := []

theorem createRectangleMesh_eq {o bt ht : V3 K} {bs hs : List K} {n k : Nat}
    (hb : bs.length = n + 1) (hh : hs.length = k + 1) :
    Mesh.createRectangleMesh o bt ht bs hs Mesh.empty = ok (rectData o bt ht bs hs n k).mesh := by
  have hp := gridPoints_eq (K := K) (o := o) (bt := bt) (ht := ht) (bs := bs) (hs := hs)
    (v := ⟨0, 0, 0, 0, false⟩)
    (D := ⟨2, [], List.replicate ((k + 1) * n + (n + 1) * k) ⟨0, 0, 0, false, []⟩,
      List.replicate (n * k) ⟨[], [], 0, false⟩, []⟩)
    (by rintro rfl; simp at hb) (by rintro rfl; simp at hh)
  unfold Mesh.createRectangleMesh
  simp only
  rw [hb, hh] at hp ⊢
  rw [usub_one, usub_one, empty_mesh, initDim_mesh, init_V rfl, init_E rfl, init_P rfl, hp, ok_bind]
  have h1 := gridHorizontal_eq (K := K) (n := n) (k := k) (j := 0)
    (D := ⟨2, (gridPairs (k + 1) (n + 1)).map (pointCell o bt ht bs hs), [],
      List.replicate (n * k) ⟨[], [], 0, false⟩, []⟩) (start := [])
    (rest := List.replicate ((k + 1) * n + (n + 1) * k) ⟨0, 0, 0, false, []⟩) (by simp) (by simp) rfl
  simp only [List.nil_append, List.length_nil, Nat.zero_add] at h1
  rw [h1, ok_bind]
  have h2 := gridVertical_eq (K := K) (n := n) (k := k) (j := (k + 1) * n)
    (D := ⟨2, (gridPairs (k + 1) (n + 1)).map (pointCell o bt ht bs hs), [],
      List.replicate (n * k) ⟨[], [], 0, false⟩, []⟩) (start := (gridPairs (k + 1) n).map (horCell n k))
    (rest := (List.replicate ((k + 1) * n + (n + 1) * k) ⟨0, 0, 0, false, []⟩).drop ((k + 1) * n))
    (by simp) (by simp; rw [Nat.mul_comm]) (by simp [length_gridPairs])
  rw [h2, ok_bind]
  have hz : List.drop (k * (n + 1)) (List.drop ((k + 1) * n)
      (List.replicate ((k + 1) * n + (n + 1) * k) (⟨0, 0, 0, false, []⟩ : ECell))) = [] := by
    simp [Nat.mul_comm]
  rw [hz, List.append_nil]
  rw [initRowsConst_P (N := n * k) rfl]
  rw [gridRectangles_eq (by simp [length_gridPairs, Nat.mul_comm])
    (by simp [length_gridPairs, Nat.mul_comm]) rfl, ok_bind]
  rfl

theorem createStructuredTriangularMesh_eq {o bt ht : V3 K} {bs hs : List K} {n k : Nat}
    (hb : bs.length = n + 1) (hh : hs.length = k + 1) :
    Mesh.createStructuredTriangularMesh o bt ht bs hs Mesh.empty =
      ok (triData o bt ht bs hs n k).mesh := by
  have hp := gridPoints_eq (K := K) (o := o) (bt := bt) (ht := ht) (bs := bs) (hs := hs)
    (v := ⟨0, 0, 0, 0, false⟩)
    (D := ⟨2, [], List.replicate ((k + 1) * n + (n + 1) * k + n * k) ⟨0, 0, 0, false, []⟩,
      List.replicate (n * k * 2) ⟨[], [], 0, false⟩, []⟩)
    (by rintro rfl; simp at hb) (by rintro rfl; simp at hh)
  unfold Mesh.createStructuredTriangularMesh
  simp only
  rw [hb, hh] at hp ⊢
  rw [usub_one, usub_one, empty_mesh, initDim_mesh, init_V rfl, init_E rfl, init_P rfl, hp, ok_bind]
  have h1 := gridHorizontal_eq (K := K) (n := n) (k := k) (j := 0)
    (D := ⟨2, (gridPairs (k + 1) (n + 1)).map (pointCell o bt ht bs hs), [],
      List.replicate (n * k * 2) ⟨[], [], 0, false⟩, []⟩) (start := [])
    (rest := List.replicate ((k + 1) * n + (n + 1) * k + n * k) ⟨0, 0, 0, false, []⟩) (by simp)
    (by simp; omega) rfl
  simp only [List.nil_append, List.length_nil, Nat.zero_add] at h1
  rw [h1, ok_bind]
  have h2 := gridVertical_eq (K := K) (n := n) (k := k) (j := (k + 1) * n)
    (D := ⟨2, (gridPairs (k + 1) (n + 1)).map (pointCell o bt ht bs hs), [],
      List.replicate (n * k * 2) ⟨[], [], 0, false⟩, []⟩)
    (start := (gridPairs (k + 1) n).map (horCell n k))
    (rest := (List.replicate ((k + 1) * n + (n + 1) * k + n * k) ⟨0, 0, 0, false, []⟩).drop ((k + 1) * n))
    (by simp) (by simp; rw [Nat.mul_comm k]; omega) (by simp [length_gridPairs])
  rw [h2, ok_bind]
  have h3 := gridOblique_eq (K := K) (n := n) (k := k)
    (j := ((gridPairs (k + 1) n).map (horCell n k)).length + k * (n + 1))
    (D := ⟨2, (gridPairs (k + 1) (n + 1)).map (pointCell o bt ht bs hs), [],
      List.replicate (n * k * 2) ⟨[], [], 0, false⟩, []⟩)
    (start := (gridPairs (k + 1) n).map (horCell n k) ++ (gridPairs k (n + 1)).map (verCell n))
    (rest := ((List.replicate ((k + 1) * n + (n + 1) * k + n * k)
      ⟨0, 0, 0, false, []⟩).drop ((k + 1) * n)).drop (k * (n + 1)))
    (by simp) (by simp; rw [Nat.mul_comm k, Nat.mul_comm k]; omega) (by simp [length_gridPairs])
  rw [h3, ok_bind]
  have hz : List.drop (k * n) (List.drop (k * (n + 1)) (List.drop ((k + 1) * n)
      (List.replicate ((k + 1) * n + (n + 1) * k + n * k) (⟨0, 0, 0, false, []⟩ : ECell)))) = [] := by
    simp [Nat.mul_comm]; omega
  rw [hz, List.append_nil]
  rw [initRowsConst_P (N := n * k * 2) rfl]
  rw [gridTriangles_eq (by simp [length_gridPairs, Nat.mul_comm])
    (by simp [length_gridPairs, Nat.mul_comm]; omega) rfl, ok_bind]
  rfl

end MeshData
end Verif
