import Verif.QuadMeshModel
import Verif.QuadMeshSpec
import Verif.RectLemmas
import Verif.FanLemmas
import Verif.CheckRunLemmas
import Verif.PolyMarkLemmas
import Verif.NeighLemmas
import Mathlib.Tactic.FieldSimp

/-
Lemmas: the loops that make quadrilaterals of triangles write down explicit lists of cells.
-/
namespace Verif

open Res

/-- A list of `n` items of which the first `i` are given by `f`. -/
def filled {β : Type} (n : Nat) (f : Nat → β) (b : β) (i : Nat) : List β :=
  (List.range n).map fun j => if j < i then f j else b

theorem length_filled {β : Type} {n i : Nat} {f : Nat → β} {b : β} : (filled n f b i).length = n := by simp [filled]

theorem filled_get {β : Type} {n i j : Nat} {f : Nat → β} {b : β} (h : j < n) :
    (filled n f b i)[j]? = some (if j < i then f j else b) := by
  simp [filled, h]

theorem filled_set {β : Type} {n i : Nat} {f : Nat → β} {b : β} :
    (filled n f b i).set i (f i) = filled n f b (i + 1) := by
  apply List.ext_getElem?
  intro j
  rw [List.getElem?_set, length_filled]
  by_cases hj : j < n
  · rw [filled_get hj, filled_get hj]
    by_cases hij : i = j
    · subst hij
      rw [if_pos rfl, if_pos hj, if_pos (by omega)]
    · rw [if_neg hij]
      by_cases h : j < i
      · rw [if_pos h, if_pos (by omega)]
      · rw [if_neg h, if_neg (by omega)]
  · by_cases hij : i = j
    · subst hij
      rw [if_pos rfl, if_neg hj, List.getElem?_eq_none (by rw [length_filled]; omega)]
    · rw [if_neg hij, List.getElem?_eq_none (by rw [length_filled]; omega),
        List.getElem?_eq_none (by rw [length_filled]; omega)]

theorem filled_zero {β : Type} {n : Nat} {f : Nat → β} {b : β} : filled n f b 0 = List.replicate n b := by
  simp [filled]

theorem foldRes_states {σ : Type} {f : σ → Nat → Res σ} (S : Nat → σ) (n : Nat)
    (h : ∀ k < n, f (S k) k = ok (S (k + 1))) : foldRes f (S 0) (List.range n) = ok (S n) := by
  induction n with
  | zero => rfl
  | succ n ih =>
    rw [foldRes_range_succ, ih (fun k hk => h k (by omega)), ok_bind, h n (by omega)]

/-- The data of a triangulation. -/
structure TriData (K : Type) where
  n0 : Nat
  n1 : Nat
  n2 : Nat
  pt : Nat → V3 K
  mk0 : Nat → Nat
  ext : Nat → Nat × Nat
  mk1 : Nat → Nat
  vs : Nat → Nat → Nat
  es : Nat → Nat → Nat

namespace TriData

variable {K : Type} [Field K] [LinearOrder K]

/-- `T` holds the data of `t`. -/
structure Of (T : TriData K) (t : Mesh K) : Prop where
  wf : t.WF
  n0 : t.num .d0 = T.n0
  n1 : t.num .d1 = T.n1
  n2 : t.num .d2 = T.n2
  pt : ∀ v < T.n0, t.point v = ok (T.pt v)
  mk0 : ∀ v < T.n0, t.marker .d0 v = ok (T.mk0 v)
  ext : ∀ e < T.n1, t.extremes e = ok (T.ext e)
  ext_lt : ∀ e < T.n1, (T.ext e).1 < T.n0 ∧ (T.ext e).2 < T.n0
  mk1 : ∀ e < T.n1, t.marker .d1 e = ok (T.mk1 e)
  vs : ∀ c < T.n2, t.row .vert2 c = ok [T.vs c 0, T.vs c 1, T.vs c 2]
  es : ∀ c < T.n2, t.row .edge2 c = ok [T.es c 0, T.es c 1, T.es c 2]
  vs_lt : ∀ c < T.n2, ∀ i < 3, T.vs c i < T.n0
  es_lt : ∀ c < T.n2, ∀ i < 3, T.es c i < T.n1
  joined : ∀ c < T.n2, ∀ i < 3, T.ext (T.es c i) = (T.vs c i, T.vs c ((i + 1) % 3)) ∨
    T.ext (T.es c i) = (T.vs c ((i + 1) % 3), T.vs c i)
  different : ∀ c < T.n2, ∀ i < 3, ∀ j < 3, i ≠ j → T.vs c i ≠ T.vs c j

variable (T : TriData K)

/-- The middle of an edge. -/
def mid (e : Nat) : V3 K :=
  (T.pt (T.ext e).1).add (V3.smul (1 / 2) ((T.pt (T.ext e).2).sub (T.pt (T.ext e).1)))

/-- The barycenter of a triangle. -/
def bary (c : Nat) : V3 K :=
  ⟨([T.pt (T.vs c 0), T.pt (T.vs c 1), T.pt (T.vs c 2)].map (·.x)).sum / (3 : Nat),
    ([T.pt (T.vs c 0), T.pt (T.vs c 1), T.pt (T.vs c 2)].map (·.y)).sum / (3 : Nat),
    ([T.pt (T.vs c 0), T.pt (T.vs c 1), T.pt (T.vs c 2)].map (·.z)).sum / (3 : Nat)⟩

def vcell (p : V3 K) (k : Nat) : VCell K := ⟨p.x, p.y, p.z, k, true⟩

/-- The vertices of the new mesh. -/
def fV (i : Nat) : VCell K :=
  if i < T.n0 then vcell (T.pt i) (T.mk0 i)
  else if i < T.n0 + T.n1 then vcell (T.mid (i - T.n0)) (T.mk1 (i - T.n0))
  else vcell (T.bary (i - (T.n0 + T.n1))) 0

/-- The edges of the new mesh. -/
def fE (i : Nat) : ECell :=
  if i < 2 * T.n1 then
    if i % 2 = 0 then ⟨(T.ext (i / 2)).1, T.n0 + i / 2, T.mk1 (i / 2), true, []⟩
    else ⟨T.n0 + i / 2, (T.ext (i / 2)).2, T.mk1 (i / 2), true, []⟩
  else ⟨T.n0 + T.es ((i - 2 * T.n1) / 3) ((i - 2 * T.n1) % 3), T.n0 + T.n1 + (i - 2 * T.n1) / 3, 0, true, []⟩

/-- The half of the side `i` at the corner `i`, and the half of the side before it. -/
def near (c i : Nat) : Nat := if (T.ext (T.es c i)).1 = T.vs c i then 2 * T.es c i else 2 * T.es c i + 1
def before (c i : Nat) : Nat :=
  if (T.ext (T.es c ((i + 2) % 3))).2 = T.vs c i then 2 * T.es c ((i + 2) % 3) + 1 else 2 * T.es c ((i + 2) % 3)

/-- The quadrilateral at the corner `i` of the triangle `c`. -/
def quad (c i : Nat) : PCell :=
  ⟨[T.vs c i, T.n0 + T.es c i, T.n0 + T.n1 + c, T.n0 + T.es c ((i + 2) % 3)],
    [T.near c i, 2 * T.n1 + 3 * c + i, 2 * T.n1 + 3 * c + (i + 2) % 3, T.before c i], 0, true⟩

def fP (i : Nat) : PCell := T.quad (i / 3) (i % 3)

def blankV : VCell K := ⟨0, 0, 0, 0, false⟩
def blankE : ECell := ⟨0, 0, 0, false, []⟩
def blankP : PCell := ⟨List.replicate 4 UINT_MAX, List.replicate 4 UINT_MAX, 0, false⟩

/-- The mesh when `i` vertices, `j` edges and `k` polygons have been written. -/
def data (i j k : Nat) : MeshData K where
  dimension := 2
  V := filled (T.n0 + T.n1 + T.n2) T.fV blankV i
  E := filled (2 * T.n1 + 3 * T.n2) T.fE blankE j
  P := filled (3 * T.n2) T.fP blankP k
  C := []

def half (e : Nat) : Nat × Nat × Nat := (2 * e, 2 * e + 1, T.n0 + e)

/-- The state when `i` vertices, `j` edges, `k` polygons and `l` rows of `edge_structure` have been written. -/
def state (i j k l : Nat) : QuadState K := ⟨(T.data i j k).mesh, i, j, k, filled T.n1 T.half (0, 0, 0) l⟩

variable {T}

theorem putPoint_data {i j k mk : Nat} {p : V3 K} (hi : i < T.n0 + T.n1 + T.n2) (h : vcell p mk = T.fV i) :
    (T.data i j k).mesh.putPoint i p mk = ok (T.data (i + 1) j k).mesh := by
  rw [MeshData.putPoint_V (D := T.data i j k) (i := i) (filled_get hi)]
  congr 2
  show ({ T.data i j k with V := (filled (T.n0 + T.n1 + T.n2) T.fV blankV i).set i (vcell p mk) } : MeshData K) = _
  rw [h, filled_set]
  rfl

theorem quadEdge_data {i j k a b mk : Nat} (hj : j < 2 * T.n1 + 3 * T.n2)
    (h : (⟨a, b, mk, true, []⟩ : ECell) = T.fE j) :
    (T.data i j k).mesh.quadEdge j a b mk = ok (T.data i (j + 1) k).mesh := by
  have hE : (T.data i j k).E[j]? = some blankE := by
    show (filled _ _ _ _)[j]? = _
    rw [filled_get hj, if_neg (by omega)]
  have hl : j < (T.data i j k).E.length := (List.getElem?_eq_some_iff.1 hE).1
  unfold Mesh.quadEdge
  rw [MeshData.setAct_E hE, ok_bind, MeshData.insertExt_E (by simp [hl]; rfl), ok_bind,
    MeshData.setMark_E (by simp [hl]; rfl)]
  congr 2
  simp only [List.set_set]
  show ({ T.data i j k with E := (filled (2 * T.n1 + 3 * T.n2) T.fE blankE j).set j ⟨a, b, mk, true, []⟩ } : MeshData K) = _
  rw [h, filled_set]
  rfl

theorem putPolygon_data {i j k : Nat} {vs es : List Nat} (hk : k < 3 * T.n2)
    (h : (⟨vs, es, 0, true⟩ : PCell) = T.fP k) (hv : vs.length = 4) (he : es.length = 4)
    (h3 : ∀ x ∈ vs, x < T.n0 + T.n1 + T.n2) (h4 : ∀ x ∈ es, x < 2 * T.n1 + 3 * T.n2) :
    (T.data i j k).mesh.putPolygon k vs es 0 = ok (T.data i j (k + 1)).mesh := by
  have hP : (T.data i j k).P[k]? = some blankP := by
    show (filled _ _ _ _)[k]? = _
    rw [filled_get hk, if_neg (by omega)]
  rw [MeshData.putPolygon_P hP (by rw [hv]; rfl) (by rw [he]; rfl)
    (by intro x hx; show x < (filled _ _ _ _).length; rw [length_filled]; exact h3 x hx)
    (by intro x hx; show x < (filled _ _ _ _).length; rw [length_filled]; exact h4 x hx)]
  congr 2
  show ({ T.data i j k with P := (filled (3 * T.n2) T.fP blankP k).set k ⟨vs, es, 0, true⟩ } : MeshData K) = _
  rw [h, filled_set]
  rfl

variable {t : Mesh K}

theorem quadCopy_data (h : T.Of t) {v : Nat} (hv : v < T.n0) :
    Mesh.quadCopy t ((T.data v 0 0).mesh, v) v = ok ((T.data (v + 1) 0 0).mesh, v + 1) := by
  unfold Mesh.quadCopy
  rw [h.pt v hv, ok_bind, h.mk0 v hv, ok_bind, putPoint_data (by omega), ok_bind]
  simp [fV, hv]

theorem quadSplitEdge_data (h : T.Of t) {e : Nat} (he : e < T.n1) :
    Mesh.quadSplitEdge t (T.state (T.n0 + e) (2 * e) 0 e) e = ok (T.state (T.n0 + (e + 1)) (2 * (e + 1)) 0 (e + 1)) := by
  unfold Mesh.quadSplitEdge state
  have hx := h.ext_lt e he
  rw [h.ext e he, ok_bind, h.pt _ hx.1, ok_bind, h.pt _ hx.2, ok_bind, h.mk1 e he, ok_bind]
  simp only []
  rw [putPoint_data (by omega) (by
    unfold fV
    rw [if_neg (by omega), if_pos (by omega), Nat.add_sub_cancel_left]
    rfl), ok_bind]
  rw [quadEdge_data (by omega) (by
    unfold fE
    rw [if_pos (by omega), if_pos (by omega), Nat.mul_div_cancel_left _ (by omega)]), ok_bind]
  rw [quadEdge_data (by omega) (by
    unfold fE
    rw [if_pos (by omega), if_neg (by omega), show (2 * e + 1) / 2 = e by omega]), ok_bind]
  rw [vset_of_lt _ (by rw [length_filled]; exact he), ok_bind]
  have e1 : usub (2 * e + 2) 2 = 2 * e := by simp [usub]
  have e2 : usub (2 * e + 2) 1 = 2 * e + 1 := by
    unfold usub
    rw [if_pos (by omega)]
    omega
  rw [e1, e2]
  have := filled_set (n := T.n1) (f := T.half) (b := ((0 : Nat), (0 : Nat), (0 : Nat))) (i := e)
  rw [show T.half e = (2 * e, 2 * e + 1, T.n0 + e) from rfl] at this
  rw [this]
  rfl

theorem halves_get (h : T.Of t) {e : Nat} (he : e < T.n1) : vget (filled T.n1 T.half (0, 0, 0) T.n1) e = ok (T.half e) := by
  rw [vget_eq_ok, filled_get he, if_pos he]

theorem entry_es (h : T.Of t) {c i : Nat} (hc : c < T.n2) (hi : i < 3) : t.entry .edge2 c i = ok (T.es c i) := by
  refine entry_at h.wf (h.es c hc) ?_
  match i, hi with
  | 0, _ => rfl
  | 1, _ => rfl
  | 2, _ => rfl

theorem entry_vs (h : T.Of t) {c i : Nat} (hc : c < T.n2) (hi : i < 3) : t.entry .vert2 c i = ok (T.vs c i) := by
  refine entry_at h.wf (h.vs c hc) ?_
  match i, hi with
  | 0, _ => rfl
  | 1, _ => rfl
  | 2, _ => rfl

theorem near_or (c i : Nat) : T.near c i = 2 * T.es c i ∨ T.near c i = 2 * T.es c i + 1 := by
  unfold near
  split
  · exact Or.inl rfl
  · exact Or.inr rfl

theorem before_or (c i : Nat) :
    T.before c i = 2 * T.es c ((i + 2) % 3) ∨ T.before c i = 2 * T.es c ((i + 2) % 3) + 1 := by
  unfold before
  split
  · exact Or.inr rfl
  · exact Or.inl rfl

theorem quadCorner_data (h : T.Of t) {c i : Nat} (hc : c < T.n2) (hi : i < 3) :
    Mesh.quadCorner t c (T.state (T.n0 + T.n1 + c + 1) (2 * T.n1 + 3 * c + i) (3 * c + i) T.n1) i =
      ok (T.state (T.n0 + T.n1 + c + 1) (2 * T.n1 + 3 * c + (i + 1)) (3 * c + (i + 1)) T.n1) := by
  have hp : (if 0 < i then (i - 1) % 3 else 2) = (i + 2) % 3 := by split <;> omega
  have hi2 : (i + 2) % 3 < 3 := Nat.mod_lt _ (by omega)
  have l1 := h.es_lt c hc i hi
  have l2 := h.es_lt c hc _ hi2
  have l3 := h.vs_lt c hc i hi
  unfold Mesh.quadCorner state
  rw [hp, entry_es h hc hi2, ok_bind, entry_es h hc hi, ok_bind]
  simp only []
  rw [halves_get h l1, ok_bind]
  have e1 : usub (T.n0 + T.n1 + c + 1) 1 = T.n0 + T.n1 + c := by simp [usub]
  have e2 : usub (2 * T.n1 + 3 * c + i + 1) 1 = 2 * T.n1 + 3 * c + i := by simp [usub]
  have e3 : (if i = 0 then 2 * T.n1 + 3 * c + i + 1 + 1 else usub (2 * T.n1 + 3 * c + i + 1) 2) =
      2 * T.n1 + 3 * c + (i + 2) % 3 := by
    unfold usub
    split
    · omega
    · rw [if_pos (by omega)]; omega
  rw [e1, e2, e3, quadEdge_data (by omega) (by
    unfold fE
    rw [if_neg (by omega), show 2 * T.n1 + 3 * c + i - 2 * T.n1 = 3 * c + i by omega, show (3 * c + i) / 3 = c by omega,
      show (3 * c + i) % 3 = i by omega]
    rfl), ok_bind, entry_vs h hc hi, ok_bind, halves_get h l2, ok_bind, h.ext _ l1, ok_bind, h.ext _ l2, ok_bind]
  have n1 := near_or (T := T) c i
  have n2 := before_or (T := T) c i
  rw [putPolygon_data (by omega) (by
    unfold fP
    rw [show (3 * c + i) / 3 = c by omega, show (3 * c + i) % 3 = i by omega]
    rfl) rfl rfl (by
    simp only [half, List.mem_cons, List.not_mem_nil, or_false]
    rintro y (rfl | rfl | rfl | rfl) <;> omega) (by
    show ∀ x ∈ [T.near c i, 2 * T.n1 + 3 * c + i, 2 * T.n1 + 3 * c + (i + 2) % 3, T.before c i], _
    simp only [List.mem_cons, List.not_mem_nil, or_false]
    rintro y (rfl | rfl | rfl | rfl) <;> omega), ok_bind]
  rfl

theorem quadCell_data (h : T.Of t) {c : Nat} (hc : c < T.n2) :
    Mesh.quadCell t (T.state (T.n0 + T.n1 + c) (2 * T.n1 + 3 * c) (3 * c) T.n1) c =
      ok (T.state (T.n0 + T.n1 + (c + 1)) (2 * T.n1 + 3 * (c + 1)) (3 * (c + 1)) T.n1) := by
  have hps : t.cellPoints c = ok [T.pt (T.vs c 0), T.pt (T.vs c 1), T.pt (T.vs c 2)] := by
    unfold Mesh.cellPoints
    rw [h.vs c hc, ok_bind]
    simp only [mapRes, h.pt _ (h.vs_lt c hc 0 (by omega)), h.pt _ (h.vs_lt c hc 1 (by omega)),
      h.pt _ (h.vs_lt c hc 2 (by omega)), ok_bind]
  unfold Mesh.quadCell
  rw [hps, ok_bind]
  have hb : polygonBarycenter [T.pt (T.vs c 0), T.pt (T.vs c 1), T.pt (T.vs c 2)] = ok (T.bary c) := rfl
  rw [hb, ok_bind]
  unfold state
  simp only []
  rw [putPoint_data (by omega) (by
    unfold fV
    rw [if_neg (by omega), if_neg (by omega), Nat.add_sub_cancel_left]), ok_bind]
  have := foldRes_states (f := Mesh.quadCorner t c)
    (fun i => T.state (T.n0 + T.n1 + c + 1) (2 * T.n1 + 3 * c + i) (3 * c + i) T.n1) 3
    (fun i hi => quadCorner_data h hc hi)
  exact this

theorem create_data (h : T.Of t) : Mesh.createQuadrilateralMesh t Mesh.empty =
    ok (T.data (T.n0 + T.n1 + T.n2) (2 * T.n1 + 3 * T.n2) (3 * T.n2)).mesh := by
  unfold Mesh.createQuadrilateralMesh
  simp only [h.n0, h.n1, h.n2]
  rw [MeshData.empty_mesh, MeshData.initDim_mesh, MeshData.init_V rfl, MeshData.init_E rfl, MeshData.init_P rfl,
    MeshData.initRowsConst_P (N := 3 * T.n2) rfl]
  have e0 : (⟨2, List.replicate (T.n0 + T.n1 + T.n2) blankV, List.replicate (2 * T.n1 + 3 * T.n2) blankE,
      List.replicate (3 * T.n2) blankP, []⟩ : MeshData K) = T.data 0 0 0 := by
    unfold data
    rw [filled_zero, filled_zero, filled_zero]
  have h1 := foldRes_states (f := Mesh.quadCopy t) (fun v => ((T.data v 0 0).mesh, v)) T.n0
    (fun v hv => quadCopy_data h hv)
  have h2 := foldRes_states (f := Mesh.quadSplitEdge t) (fun e => T.state (T.n0 + e) (2 * e) 0 e) T.n1
    (fun e he => quadSplitEdge_data h he)
  have h3 := foldRes_states (f := Mesh.quadCell t)
    (fun c => T.state (T.n0 + T.n1 + c) (2 * T.n1 + 3 * c) (3 * c) T.n1) T.n2 (fun c hc => quadCell_data h hc)
  simp only [Nat.mul_zero, Nat.add_zero] at h2 h3
  refine Eq.trans (congrArg (fun D : MeshData K => do
    let s ← foldRes (Mesh.quadCopy t) (D.mesh, 0) (List.range T.n0)
    let s ← foldRes (Mesh.quadSplitEdge t) ⟨s.1, s.2, 0, 0, List.replicate T.n1 (0, 0, 0)⟩ (List.range T.n1)
    let s ← foldRes (Mesh.quadCell t) s (List.range T.n2)
    ok s.mesh) e0) ?_
  show (foldRes (Mesh.quadCopy t) ((T.data 0 0 0).mesh, 0) (List.range T.n0) >>= _) = _
  rw [h1, ok_bind]
  have e4 : (⟨(T.data T.n0 0 0).mesh, T.n0, 0, 0, List.replicate T.n1 (0, 0, 0)⟩ : QuadState K) = T.state T.n0 0 0 0 := by
    unfold state
    rw [filled_zero]
  simp only []
  rw [e4, h2, ok_bind, h3, ok_bind]
  rfl

end TriData
end Verif
