import Verif.EdgeLabelLemmas

/-
C125: the labels of edges during a refinement.
-/
namespace Verif

open Res

variable {α σ : Type}

/-- **C125.** The update gives every edge of the polygons a label and keeps the labels that fit to the mesh; the labels
that were there and the labels of edges of other polygons do not change. -/
theorem c125_update {m : Mesh α} (checked : σ) {cells : List Nat} {s : EdgeLabels σ} (h : m.CanLabel cells s)
    (hf : s.Fits m) :
    ∃ t, updateLabels m checked cells s = ok t ∧ t.Fits m ∧ t.aligned.length = m.num .d1 ∧
      t.status.length = m.num .d1 ∧ s.maxAligned ≤ t.maxAligned ∧ (∀ e, m.EdgeIn cells e → ∃ l, t.Has e l) ∧
      (∀ e l, s.Has e l → t.Has e l) ∧ (∀ e l, ¬ m.EdgeIn cells e → t.Has e l → s.Has e l) := by
  obtain ⟨t, ht, I⟩ := update_inv checked h hf
  have hmem : ∀ e, e ∈ cells.flatMap m.edgesOf ↔ m.EdgeIn cells e := fun e => mem_edgesOf h.wf h.inMesh
  have hh := resized_has m checked h.aligned
  refine ⟨t, ht, I.fits, I.alignedLen, I.statusLen, I.max, ?_, ?_, ?_⟩
  · intro e he
    exact I.done e ((hmem e).2 he)
  · intro e l he
    exact I.kept e l ((hh e l).2 he)
  · intro e l he hl
    have := I.others e fun c => he ((hmem e).1 c)
    rw [← hh]
    exact ⟨by rw [← this]; exact hl.1, hl.2⟩

/-- **C125.** Two edges with labels have the same label exactly if they came from the same edge. -/
theorem c125_same_label {m : Mesh α} {s : EdgeLabels σ} (hf : s.Fits m) {e e' r r' l l' : Nat} (he : s.Has e l)
    (he' : s.Has e' l') (hr : m.CameFrom e r) (hr' : m.CameFrom e' r') : l = l' ↔ r = r' := by
  obtain ⟨n1, h1⟩ := cameFrom_label hf hr
  obtain ⟨n2, h2⟩ := cameFrom_label hf hr'
  have a := h1 l he
  have b := h2 l' he'
  constructor
  · rintro rfl
    exact hf.wholes r r' l a b n1 n2
  · rintro rfl
    exact Option.some.inj (a.1.symm.trans b.1)

/-- **C125.** A part takes over the state of the edge it is a part of; all other states stay, and new edges that are no
parts get the state that is given for them. -/
theorem c125_status {m : Mesh α} (checked : σ) {cells : List Nat} {s t : EdgeLabels σ} (h : m.CanLabel cells s)
    (hf : s.Fits m) (ht : updateLabels m checked cells s = ok t) :
    (∀ e o, m.EdgeIn cells e → m.PieceOf e o → ¬ m.EdgeIn cells o → o < s.status.length → t.status[e]? = s.status[o]?) ∧
    (∀ e, (¬ m.EdgeIn cells e ∨ ∀ o, ¬ m.PieceOf e o) → e < m.num .d1 →
      t.status[e]? = if e < s.status.length then s.status[e]? else some checked) := by
  obtain ⟨t', ht', I⟩ := update_inv checked h hf
  rw [ht] at ht'
  injection ht' with e
  subst e
  have hmem : ∀ e, e ∈ cells.flatMap m.edgesOf ↔ m.EdgeIn cells e := fun e => mem_edgesOf h.wf h.inMesh
  have hst := vresize_getElem? (l := s.status) checked h.status
  constructor
  · intro e o he hp ho hol
    rw [I.statusWhole e ((hmem e).2 he) o hp (fun c => ho ((hmem o).1 c))]
    show (vresize s.status (m.num .d1) checked)[o]? = _
    rw [hst, if_pos hol]
  · intro e he hlt
    rw [I.statusKept e (he.imp (fun h c => h ((hmem e).1 c)) id)]
    show (vresize s.status (m.num .d1) checked)[e]? = _
    rw [hst, if_pos hlt]

/-- **C125.** In a mesh without parts of edges every edge gets a label of its own at the start, one more than its
index. -/
theorem c125_initial {m : Mesh α} (checked : σ) (hw : m.WF)
    (he : ∀ e, m.EdgeIn (List.range (m.num .d2)) e → e < m.num .d1) (hn : ∀ e o, ¬ m.PieceOf e o) :
    ∃ s, initialLabels m checked = ok s ∧ s.Fits m ∧ s.maxAligned = m.num .d1 ∧ s.status.length = m.num .d1 ∧
      ∀ e, e < m.num .d1 → s.aligned[e]? = some (e + 1) ∧ s.status[e]? = some checked := by
  have hget : ∀ e : Nat, ((List.range (m.num .d1)).map (· + 1))[e]? = if e < m.num .d1 then some (e + 1) else none := by
    intro e
    rw [List.getElem?_map]
    split
    · rename_i h; rw [List.getElem?_range h]; rfl
    · rename_i h; rw [List.getElem?_eq_none (by simpa using h)]; rfl
  have hf : (EdgeLabels.mk (m.num .d1) ((List.range (m.num .d1)).map (· + 1)) ([] : List σ)).Fits m := by
    constructor
    · rintro e l ⟨h1, -⟩
      simp only [hget] at h1
      split at h1
      · have := Option.some.inj h1; simp only; omega
      · simp at h1
    · intro e o l _ hp; exact absurd hp (hn e o)
    · rintro r r' l ⟨h1, -⟩ ⟨h2, -⟩ _ _
      simp only [hget] at h1 h2
      split at h1 <;> split at h2 <;> simp at h1 h2
      omega
  have e1 : vresize ((List.range (m.num .d1)).map (· + 1)) (m.num .d1) 0 = (List.range (m.num .d1)).map (· + 1) := by
    simp [vresize]
  have e2 : vresize ([] : List σ) (m.num .d1) checked = List.replicate (m.num .d1) checked := by
    simp [vresize]
  refine ⟨⟨m.num .d1, (List.range (m.num .d1)).map (· + 1), List.replicate (m.num .d1) checked⟩, ?_,
    ⟨hf.le, hf.parts, hf.wholes⟩, rfl, by simp, ?_⟩
  · have hr : ∀ c ∈ List.range (m.num .d2), c < m.num .d2 := fun c h => List.mem_range.1 h
    unfold initialLabels
    rw [updateLabels_eq hw checked hr]
    simp only [e1, e2]
    obtain ⟨t, ht, I⟩ := foldRes_inv (f := labelEdge m)
      (I := fun _ t => t = EdgeLabels.mk (m.num .d1) ((List.range (m.num .d1)).map (· + 1))
        (List.replicate (m.num .d1) checked))
      ((List.range (m.num .d2)).flatMap m.edgesOf) _ rfl (by
        rintro pre e t hx rfl
        have hlt := he e ((mem_edgesOf hw hr).1 hx)
        obtain ⟨o, ho⟩ := Mesh.original_ok hw hlt
        have hp : ¬ o < m.num .d1 := fun c => hn e o ⟨ho, c⟩
        refine ⟨_, ?_, rfl⟩
        have hl : ((List.range (m.num .d1)).map (· + 1))[e]? = some (e + 1) := by rw [hget, if_pos hlt]
        simp only [labelEdge, Mesh.hasOriginal, ho, ok_bind, hp, decide_false, vget_eq_ok.2 hl]
        rfl)
    rw [ht, I]
  · intro e hlt
    refine ⟨by simp only [hget, if_pos hlt], ?_⟩
    simp [hlt]

/-! ### The hypotheses can be met -/

/-- One triangle. -/
def wholeOps : List (Op ℚ) :=
  [.append .d0 3, .append .d1 3, .insertExt 0 0 1, .insertExt 1 1 2, .insertExt 2 2 0,
   .append .d2 1, .addRow .vert2 0 [0, 1, 2], .addRow .edge2 0 [0, 1, 2]]

/-- The triangle in two parts: the edge 0 in two pieces, 3 and 4, and a new edge 5. -/
def piecesOps : List (Op ℚ) :=
  wholeOps ++
  [.append .d0 1, .append .d1 2, .insertExt 3 0 3, .insertExt 4 3 1, .insertUpd .d1 0 3, .insertUpd .d1 0 4,
   .append .d1 1, .insertExt 5 3 2, .append .d2 2, .addRow .vert2 1 [0, 3, 2], .addRow .edge2 1 [3, 5, 2],
   .addRow .vert2 2 [3, 1, 2], .addRow .edge2 2 [4, 1, 5]]

def wholeMesh : Mesh ℚ :=
  match Mesh.empty.run wholeOps with
  | ok m => m
  | _ => Mesh.empty

def piecesMesh : Mesh ℚ :=
  match Mesh.empty.run piecesOps with
  | ok m => m
  | _ => Mesh.empty

theorem labelOps_wf {ops : List (Op ℚ)} {m : Mesh ℚ} (hr : Mesh.empty.run ops = ok m)
    (this : ∀ o ∈ ops, (match o with
      | .init _ _ => false | .resetNeighbour _ _ _ => false | .insertProp _ _ _ _ _ => false | _ => true) = true) :
    m.WF := by
  refine Mesh.run_wf_of_ok (ops := ops) Mesh.empty_wf (Mesh.along_of_forall ?_ _) hr
  intro o ho m
  have := this o ho
  cases o <;> first | trivial | simp at this

theorem wholeMesh_wf : wholeMesh.WF := labelOps_wf (ops := wholeOps) rfl (by decide +kernel)

theorem piecesMesh_wf : piecesMesh.WF := labelOps_wf (ops := piecesOps) rfl (by decide +kernel)

theorem piecesMesh_rows : piecesMesh.row .edge2 1 = ok [3, 5, 2] ∧ piecesMesh.row .edge2 2 = ok [4, 1, 5] := by
  decide +kernel

theorem piecesMesh_pieceOf {e o : Nat} (h : piecesMesh.PieceOf e o) : (e = 3 ∨ e = 4) ∧ o = 0 := by
  obtain ⟨h1, h2⟩ := h
  have he : e < 6 := by
    by_contra hc
    rw [Mesh.original, assert_false (show ¬ e < piecesMesh.num .d1 from hc)] at h1
    cases h1
  have hn : piecesMesh.num .d1 = 6 := rfl
  have h3 : (match piecesMesh.original .d1 e with | ok o => o | _ => 9) = o := by rw [h1]
  subst h3
  revert h2
  rw [hn]
  clear h1 hn
  have key : ∀ e : Fin 6, (match piecesMesh.original .d1 e with | ok o => o | _ => 9) < 6 →
      ((e : Nat) = 3 ∨ (e : Nat) = 4) ∧ (match piecesMesh.original .d1 e with | ok o => o | _ => 9) = 0 := by
    decide +kernel
  exact key ⟨e, he⟩

/-- The labels of the triangle fit to the mesh of the two parts, and the new polygons can be labelled. -/
theorem piecesMesh_can : piecesMesh.CanLabel [1, 2] (EdgeLabels.mk 3 [1, 2, 3] [true, false, false]) ∧
    (EdgeLabels.mk 3 [1, 2, 3] [true, false, false]).Fits piecesMesh := by
  have small : ∀ e l, (EdgeLabels.mk 3 [1, 2, 3] [true, false, false]).Has e l → e < 3 ∧ l = e + 1 := by
    rintro e l ⟨h, -⟩
    rcases e with _ | _ | _ | e <;> simp at h <;> omega
  have edges : ∀ e, piecesMesh.EdgeIn [1, 2] e → e < 6 := by
    rintro e ⟨c, hc, es, hr, he⟩
    simp only [List.mem_cons, List.not_mem_nil, or_false] at hc
    rcases hc with rfl | rfl
    · rw [piecesMesh_rows.1] at hr
      injection hr with hr
      subst hr
      simp at he
      omega
    · rw [piecesMesh_rows.2] at hr
      injection hr with hr
      subst hr
      simp at he
      omega
  refine ⟨⟨piecesMesh_wf, ?_, edges, ?_, by decide, by decide⟩, ⟨?_, ?_, ?_⟩⟩
  · intro c hc
    simp only [List.mem_cons, List.not_mem_nil, or_false] at hc
    rcases hc with rfl | rfl <;> decide
  · intro e o _ hp
    rw [(piecesMesh_pieceOf hp).2]
    exact ⟨1, rfl, by decide⟩
  · intro e l h
    have := small e l h
    show l ≤ 3
    omega
  · intro e o l h hp
    have := small e l h
    have := (piecesMesh_pieceOf hp).1
    omega
  · intro r r' l h h' _ _
    have := small r l h
    have := small r' l h'
    omega

/-- The pieces have the label and the state of the edge 0, and the new edge has a label of its own. -/
example : updateLabels piecesMesh false [1, 2] (EdgeLabels.mk 3 [1, 2, 3] [true, false, false]) =
    ok (EdgeLabels.mk 4 [1, 2, 3, 1, 1, 4] [true, false, false, true, true, false]) ∧
    initialLabels wholeMesh false = ok (EdgeLabels.mk 3 [1, 2, 3] [false, false, false]) := by
  decide +kernel

/-- The two pieces came from the same edge. -/
example : piecesMesh.CameFrom 3 0 ∧ piecesMesh.CameFrom 4 0 ∧ piecesMesh.CameFrom 5 5 := by
  have h0 : piecesMesh.CameFrom 0 0 := .self fun o h => by have := (piecesMesh_pieceOf h).1; omega
  exact ⟨.step ⟨rfl, by decide⟩ h0, .step ⟨rfl, by decide⟩ h0,
    .self fun o h => by have := (piecesMesh_pieceOf h).1; omega⟩

/-- The mesh of one triangle has no pieces of edges. -/
example : wholeMesh.WF ∧ (∀ e o, ¬ wholeMesh.PieceOf e o) ∧
    ∀ e, wholeMesh.EdgeIn (List.range (wholeMesh.num .d2)) e → e < wholeMesh.num .d1 := by
  refine ⟨wholeMesh_wf, ?_, ?_⟩
  · rintro e o ⟨h1, h2⟩
    have he : e < 3 := by
      by_contra hc
      rw [Mesh.original, assert_false (show ¬ e < wholeMesh.num .d1 from hc)] at h1
      cases h1
    have h3 : (match wholeMesh.original .d1 e with | ok o => o | _ => 9) = o := by rw [h1]
    have key : ∀ e : Fin 3, ¬ (match wholeMesh.original .d1 e with | ok o => o | _ => 9) < wholeMesh.num .d1 := by
      decide +kernel
    subst h3
    exact key ⟨e, he⟩ h2
  · rintro e ⟨c, hc, es, hr, he⟩
    have hc : c < 1 := List.mem_range.1 hc
    obtain rfl : c = 0 := by omega
    have : wholeMesh.row .edge2 0 = ok [0, 1, 2] := by decide +kernel
    rw [this] at hr
    injection hr with hr
    subst hr
    simp at he
    show e < 3
    omega

end Verif
