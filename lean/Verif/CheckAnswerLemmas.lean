import Verif.CheckConvexLemmas

/-
Lemmas: the checks come back with a verdict.
-/
namespace Verif

open Res

variable {K : Type} [Field K] [LinearOrder K] [IsStrictOrderedRing K]
variable {g : GeoCfg K} {sqrt : K → K} {m : Mesh K}

theorem answers_ok {β : Type} (b : β) : Answers (ok b) := Or.inl ⟨b, rfl⟩

theorem answers_assert (p : Prop) [Decidable p] : Answers (assert p) := by
  by_cases h : p
  · rw [assert_true h]; exact answers_ok _
  · rw [assert_false h]; exact Or.inr rfl

theorem answers_bind {β γ : Type} {r : Res β} {f : β → Res γ} (h : Answers r)
    (hf : ∀ b, r = ok b → Answers (f b)) : Answers (r >>= f) := by
  rcases h with ⟨b, h⟩ | h
  · rw [h, ok_bind]; exact hf b h
  · rw [h, abort_bind]; exact Or.inr rfl

theorem answers_forEach {first n : Nat} {f : Nat → Res Unit} (h : ∀ i, first ≤ i → i < n → Answers (f i)) :
    Answers (forEach first n f) := by
  unfold forEach
  have : ∀ l : List Nat, (∀ i ∈ l, Answers (f i)) → Answers (foldRes (fun _ i => f i) () l) := by
    intro l
    induction l with
    | nil => intro _; exact answers_ok _
    | cons a l ih =>
      intro h
      rw [foldRes_cons]
      exact answers_bind (h a (by simp)) fun b _ => ih fun i hi => h i (by simp [hi])
  refine this _ fun i hi => ?_
  obtain ⟨h1, h2⟩ := List.mem_range'_1.1 hi
  exact h i h1 (by omega)

theorem answers_mapRes {β γ : Type} {f : β → Res γ} {l : List β} (h : ∀ b ∈ l, Answers (f b)) :
    Answers (mapRes f l) := by
  induction l with
  | nil => exact answers_ok _
  | cons b l ih =>
    rw [mapRes]
    exact answers_bind (h b (by simp)) fun c _ =>
      answers_bind (ih fun x hx => h x (by simp [hx])) fun cs _ => answers_ok _

theorem answers_point (h : m.WF) (i : Nat) : Answers (m.point i) := by
  by_cases hi : i < m.num .d0
  · obtain ⟨p, hp⟩ := point_of_lt h hi
    rw [hp]; exact answers_ok _
  · unfold Mesh.point Mesh.coordinates
    rw [assert_false hi, abort_bind, abort_bind]
    exact Or.inr rfl

theorem answers_row (h : m.WF) (l : Lst) (i : Nat) : Answers (m.row l i) := by
  by_cases hi : i < m.num l.owner
  · obtain ⟨p, hp⟩ := Mesh.row_exists h l hi
    rw [hp]; exact answers_ok _
  · unfold Mesh.row
    rw [assert_false hi, abort_bind]
    exact Or.inr rfl

theorem answers_rowSize (h : m.WF) (l : Lst) (i : Nat) : Answers (m.rowSize l i) := by
  by_cases hi : i < m.num l.owner
  · obtain ⟨p, hp⟩ := Mesh.row_exists h l hi
    rw [rowSize_of_row h hp]; exact answers_ok _
  · unfold Mesh.rowSize
    rw [assert_false hi, abort_bind]
    exact Or.inr rfl

theorem answers_entry (h : m.WF) (l : Lst) (i k : Nat) : Answers (m.entry l i k) := by
  by_cases hi : i < m.num l.owner
  · obtain ⟨r, hr⟩ := Mesh.row_exists h l hi
    by_cases hk : k < r.length
    · rw [entry_of_row h hr (List.getElem?_eq_getElem hk)]; exact answers_ok _
    · unfold Mesh.entry
      rw [rowSize_of_row h hr, ok_bind, assert_false hk, abort_bind]
      exact Or.inr rfl
  · unfold Mesh.entry Mesh.rowSize
    rw [assert_false hi, abort_bind, abort_bind]
    exact Or.inr rfl

theorem answers_extremes (h : m.WF) (e : Nat) : Answers (m.extremes e) := by
  by_cases hi : e < m.num .d1
  · obtain ⟨x, hp⟩ := Mesh.extremes_exists h hi
    rw [hp]; exact answers_ok _
  · unfold Mesh.extremes
    rw [assert_false hi, abort_bind]
    exact Or.inr rfl

theorem answers_findExtLoop (h : m.WF) (a b : Nat) : ∀ (l : List Nat) (n : Nat), (∀ e ∈ l, e < m.num .d1) →
    Answers (Mesh.findExtLoop m.ext a b n l) := by
  intro l
  induction l with
  | nil => intro n _; exact answers_ok _
  | cons e l ih =>
    intro n hl
    have hlen : m.ext.length = 2 * m.num .d1 := h.ext
    have he := hl e (by simp)
    rw [Mesh.findExtLoop, vget_of_lt (by omega), ok_bind]
    split
    · rw [vget_of_lt (by omega), ok_bind]
      split
      · exact answers_ok _
      · exact ih _ fun x hx => hl x (by simp [hx])
    · exact ih _ fun x hx => hl x (by simp [hx])

theorem answers_byExt (h : m.WF) (a b : Nat) : Answers (m.cell1DByExt a b) := by
  unfold Mesh.cell1DByExt
  exact answers_bind (answers_assert _) fun _ _ => answers_bind (answers_assert _) fun _ _ =>
    answers_findExtLoop h a b _ _ fun e he => List.mem_range.1 he

/-- The polygons have edges, and they are edges of the mesh. -/
def EdgesExist {α : Type} (m : Mesh α) : Prop := ∀ p es, m.row .edge2 p = ok es → es ≠ [] ∧ ∀ e ∈ es, e < m.num .d1

theorem answers_findEdge (h : m.WF) (he : EdgesExist m) (p a b : Nat) : Answers (m.findEdgeByExt .edge2 p a b) := by
  unfold Mesh.findEdgeByExt
  exact answers_bind (answers_row h _ _) fun r hr => answers_findExtLoop h a b _ _ (he p r hr).2

theorem answers_checkPlanar (h : m.WF) : Answers (g.checkPlanar m) := by
  unfold GeoCfg.checkPlanar
  refine answers_bind (answers_mapRes fun i _ => answers_point h i) fun ps _ => ?_
  refine answers_bind ?_ fun _ _ => answers_assert _
  unfold GeoCfg.pointsAre2D
  exact answers_bind (answers_assert _) fun _ _ => answers_ok _

theorem answers_checkVertices (h : m.WF) : Answers (g.checkVertices sqrt m) := by
  unfold GeoCfg.checkVertices
  exact answers_forEach fun i _ _ => answers_forEach fun j _ _ =>
    answers_bind (answers_point h i) fun _ _ => answers_bind (answers_point h j) fun _ _ => answers_assert _

theorem answers_checkEdgeCopies (h : m.WF) : Answers m.checkEdgeCopies := by
  unfold Mesh.checkEdgeCopies
  exact answers_forEach fun i _ _ => answers_bind (answers_extremes h i) fun x _ =>
    answers_bind (answers_byExt h _ _) fun _ _ => answers_bind (answers_assert _) fun _ _ =>
    answers_bind (answers_byExt h _ _) fun _ _ => answers_bind (answers_assert _) fun _ _ =>
    answers_forEach fun j _ _ => answers_bind (answers_extremes h j) fun y _ =>
    answers_bind (answers_assert _) fun _ _ => answers_assert _

theorem answers_checkNeighbours (h : m.WF) (he : EdgesExist m) : Answers m.checkNeighbours := by
  unfold Mesh.checkNeighbours
  refine answers_forEach fun e _ _ => answers_bind (answers_rowSize h _ _) fun s _ =>
    answers_bind (answers_assert _) fun _ _ => answers_forEach fun n _ _ => ?_
  unfold Mesh.checkNeighbour
  refine answers_bind ?_ fun has _ => ?_
  · unfold Mesh.hasEntry
    exact answers_bind (answers_entry h _ _ _) fun _ _ => answers_ok _
  · split
    · refine answers_bind (answers_entry h _ _ _) fun t _ => answers_bind (answers_rowSize h _ _) fun num hnum => ?_
      refine answers_bind ?_ fun k _ => ?_
      · unfold Mesh.findEntry
        exact answers_bind (answers_row h _ _) fun _ _ => answers_ok _
      · rw [if_neg]
        · refine answers_bind (answers_entry h _ _ _) fun o _ => answers_bind (answers_entry h _ _ _) fun d _ =>
            answers_bind (answers_findEdge h he _ _ _) fun a _ => ?_
          split
          · exact answers_bind (answers_findEdge h he _ _ _) fun b _ => answers_assert _
          · exact Or.inr rfl
        · have hlt : t < m.num (Lst.owner .edge2) := by
            by_contra hc
            unfold Mesh.rowSize at hnum
            rw [assert_false hc, abort_bind] at hnum
            cases hnum
          obtain ⟨es, hes⟩ := Mesh.row_exists h .edge2 hlt
          rw [rowSize_of_row h hes] at hnum
          obtain rfl := ok.inj hnum
          have := (he t es hes).1
          simpa using this
    · exact answers_ok _

theorem answers_checkLengths (h : m.WF) : Answers (g.checkLengths sqrt m) := by
  unfold GeoCfg.checkLengths
  exact answers_forEach fun i _ _ => answers_bind (answers_extremes h i) fun x _ =>
    answers_bind (answers_point h _) fun _ _ => answers_bind (answers_point h _) fun _ _ => answers_assert _

theorem answers_checkSides (h : m.WF) (he : EdgesExist m) : Answers m.checkSides := by
  unfold Mesh.checkSides
  exact answers_forEach fun i _ _ => answers_bind (answers_rowSize h _ _) fun num _ =>
    answers_forEach fun v _ _ => answers_bind (answers_entry h _ _ _) fun _ _ =>
    answers_bind (answers_entry h _ _ _) fun _ _ => answers_bind (answers_findEdge h he _ _ _) fun _ _ =>
    answers_bind (answers_findEdge h he _ _ _) fun _ _ => answers_assert _

theorem answers_checkPolygonCopies (h : m.WF) : Answers m.checkPolygonCopies := by
  unfold Mesh.checkPolygonCopies
  exact answers_forEach fun i _ _ => answers_bind (answers_row h _ _) fun _ _ =>
    answers_bind (answers_row h _ _) fun _ _ => answers_forEach fun j _ _ => answers_bind (answers_row h _ _) fun _ _ =>
    answers_bind (answers_row h _ _) fun _ _ => answers_bind (answers_assert _) fun _ _ => answers_assert _

theorem answers_cellPoints (h : m.WF) (p : Nat) : Answers (m.cellPoints p) := by
  unfold Mesh.cellPoints
  exact answers_bind (answers_row h _ _) fun vs _ => answers_mapRes fun v _ => answers_point h v

theorem answers_checkAreas (h : m.WF) {tol2D : K} : Answers (g.checkAreas tol2D m) := by
  unfold GeoCfg.checkAreas
  refine answers_forEach fun i _ _ => answers_bind (answers_cellPoints h _) fun ps _ =>
    answers_bind ?_ fun _ _ => answers_assert _
  unfold GeoCfg.polygonArea
  refine answers_bind ?_ fun flat _ => ?_
  · unfold GeoCfg.pointsAre2D
    exact answers_bind (answers_assert _) fun _ _ => answers_ok _
  · by_cases hc : flat = true ∧ 2 < ps.length
    · rw [assert_true hc, ok_bind, vget_of_lt (by omega), ok_bind]
      exact answers_ok _
    · rw [assert_false hc, abort_bind]
      exact Or.inr rfl

end Verif
