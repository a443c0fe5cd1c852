import Verif.EdgeLabelSpec
import Verif.BisectStepLemmas
import Verif.ExtractLemmas2
import Verif.GraphLemmas2

/-
Lemmas about the labels of edges.
-/
namespace Verif

open Res

variable {α σ : Type}

theorem vresize_getElem? {β : Type} {l : List β} {n : Nat} (d : β) (h : l.length ≤ n) (i : Nat) :
    (vresize l n d)[i]? = if i < l.length then l[i]? else if i < n then some d else none := by
  unfold vresize
  rw [List.take_of_length_le h]
  split
  · rename_i hi
    rw [List.getElem?_append_left hi]
  · rename_i hi
    rw [List.getElem?_append_right (by omega), List.getElem?_replicate]
    congr 1
    exact propext (by omega)

theorem vresize_length {β : Type} {l : List β} {n : Nat} (d : β) (h : l.length ≤ n) : (vresize l n d).length = n := by
  unfold vresize
  rw [List.take_of_length_le h]
  simp
  omega

theorem Mesh.original_ok {m : Mesh α} (h : m.WF) {e : Nat} (he : e < m.num .d1) : ∃ o, m.original .d1 e = ok o := by
  have hl : e < (m.orig .d1).length := by rw [h.orig .d1 (by decide)]; exact he
  refine ⟨(m.orig .d1)[e], ?_⟩
  simp only [Mesh.original, assert_true he, ok_bind, List.getElem?_eq_getElem hl]

/-- The edges of a polygon one after the other. -/
theorem labelCell_eq {m : Mesh α} (h : m.WF) {c : Nat} {es : List Nat} (hr : m.row .edge2 c = ok es)
    (s : EdgeLabels σ) : labelCell m s c = foldRes (labelEdge m) s es := by
  simp only [labelCell, rowSize_of_row h hr, ok_bind]
  have e : es = (List.range es.length).map fun k => es.getD k 0 := by
    apply List.ext_getElem?
    intro i
    rw [List.getElem?_map]
    rcases Nat.lt_or_ge i es.length with hi | hi
    · rw [List.getElem?_range hi]
      simp [hi]
    · rw [List.getElem?_eq_none hi, List.getElem?_eq_none (by simpa using hi)]
      rfl
  conv_rhs => rw [e]
  rw [foldRes_map]
  refine foldRes_congr _ _ fun s k hk => ?_
  rw [List.mem_range] at hk
  have hv : es[k]? = some (es.getD k 0) := by simp [hk]
  rw [entry_of_row h hr hv, ok_bind]

/-- What holds after the edges `pre`. -/
structure LabelInv (m : Mesh α) (s0 : EdgeLabels σ) (all pre : List Nat) (t : EdgeLabels σ) : Prop where
  fits : t.Fits m
  alignedLen : t.aligned.length = m.num .d1
  statusLen : t.status.length = m.num .d1
  kept : ∀ e l, s0.Has e l → t.Has e l
  done : ∀ e ∈ pre, ∃ l, t.Has e l
  others : ∀ e, e ∉ pre → t.aligned[e]? = s0.aligned[e]?
  max : s0.maxAligned ≤ t.maxAligned
  statusKept : ∀ e, (e ∉ pre ∨ ∀ o, ¬ m.PieceOf e o) → t.status[e]? = s0.status[e]?
  statusWhole : ∀ e ∈ pre, ∀ o, m.PieceOf e o → o ∉ all → t.status[e]? = s0.status[o]?
  fresh : ∀ e l, t.Has e l → s0.Has e l ∨ (∃ o, m.PieceOf e o ∧ s0.Has o l) ∨ s0.maxAligned < l

theorem label_step {m : Mesh α} (h : m.WF) {s0 : EdgeLabels σ} {all pre : List Nat} {t : EdgeLabels σ} {e : Nat}
    (hall : ∀ x ∈ pre, x ∈ all) (he : e ∈ all) (hin : e < m.num .d1) (hw : ∀ o, m.PieceOf e o → ∃ l, s0.Has o l)
    (I : LabelInv m s0 all pre t) :
    ∃ t', labelEdge m t e = ok t' ∧ LabelInv m s0 all (pre ++ [e]) t' := by
  obtain ⟨o, ho⟩ := Mesh.original_ok h hin
  have hea : e < t.aligned.length := by rw [I.alignedLen]; exact hin
  by_cases hp : o < m.num .d1
  · -- the edge is a part
    have hpart : m.PieceOf e o := ⟨ho, hp⟩
    have uniq : ∀ o', m.PieceOf e o' → o' = o := by
      intro o' h'
      have := h'.1
      rw [ho] at this
      injection this with this
      exact this.symm
    have hes : e < t.status.length := by rw [I.statusLen]; exact hin
    have hos : o < t.status.length := by rw [I.statusLen]; exact hp
    obtain ⟨l, hl⟩ := hw o hpart
    have hto := I.kept o l hl
    have hset : ∀ i : Nat, (t.aligned.set e l)[i]? = if i = e then some l else t.aligned[i]? := by
      intro i
      by_cases hi : i = e
      · subst hi; rw [if_pos rfl, List.getElem?_set_self hea]
      · rw [if_neg hi, List.getElem?_set_ne (fun c => hi c.symm)]
    have hsets : ∀ i : Nat, (t.status.set e t.status[o])[i]? = if i = e then t.status[o]? else t.status[i]? := by
      intro i
      by_cases hi : i = e
      · subst hi; rw [if_pos rfl, List.getElem?_set_self hes, List.getElem?_eq_getElem hos]
      · rw [if_neg hi, List.getElem?_set_ne (fun c => hi c.symm)]
    have hhas : ∀ i l', (EdgeLabels.mk t.maxAligned (t.aligned.set e l) (t.status.set e t.status[o])).Has i l' ↔
        if i = e then l' = l else t.Has i l' := by
      intro i l'
      unfold EdgeLabels.Has
      simp only [hset]
      split
      · constructor
        · rintro ⟨h1, -⟩; exact (Option.some.inj h1).symm
        · rintro rfl; exact ⟨rfl, hl.2⟩
      · rfl
    have hsame : ∀ l', t.Has e l' → l' = l := by
      intro l' h'
      have := I.fits.parts e o l' h' hpart
      have h2 := this.1
      rw [hto.1] at h2
      exact (Option.some.inj h2).symm
    refine ⟨{ t with aligned := t.aligned.set e l, status := t.status.set e t.status[o] }, ?_, ?_⟩
    · simp only [labelEdge, Mesh.hasOriginal, ho, ok_bind, hp, decide_true, if_true, vget_eq_ok.2 hto.1,
        vset_of_lt _ hea, vget_of_lt hos, vset_of_lt _ hes]
    · constructor
      · constructor
        · intro i l' h'
          rw [hhas] at h'
          split at h'
          · rw [h']; exact I.fits.le o l hto
          · exact I.fits.le i l' h'
        · intro i o' l' h' hp'
          rw [hhas] at h' ⊢
          split at h'
          · rename_i hi
            subst hi h'
            have := uniq o' hp'
            subst this
            split
            · rfl
            · exact hto
          · have h2 := I.fits.parts i o' l' h' hp'
            split
            · rename_i hi
              subst hi
              exact hsame l' h2
            · exact h2
        · intro r r' l' h1 h2 n1 n2
          rw [hhas] at h1 h2
          have e1 : r ≠ e := by rintro rfl; exact n1 o hpart
          have e2 : r' ≠ e := by rintro rfl; exact n2 o hpart
          rw [if_neg e1] at h1
          rw [if_neg e2] at h2
          exact I.fits.wholes r r' l' h1 h2 n1 n2
      · simpa using I.alignedLen
      · simpa using I.statusLen
      · intro i l' h'
        have := I.kept i l' h'
        rw [hhas]
        split
        · rename_i hi; subst hi; exact hsame l' this
        · exact this
      · intro i hi
        rw [List.mem_append, List.mem_singleton] at hi
        by_cases hie : i = e
        · exact ⟨l, by rw [hhas, if_pos hie]⟩
        · rcases hi with hi | hi
          · obtain ⟨l', h'⟩ := I.done i hi
            exact ⟨l', by rw [hhas, if_neg hie]; exact h'⟩
          · exact absurd hi hie
      · intro i hi
        rw [List.mem_append, List.mem_singleton, not_or] at hi
        show (t.aligned.set e l)[i]? = _
        rw [hset, if_neg hi.2]
        exact I.others i hi.1
      · exact I.max
      · intro i hi
        show (t.status.set e t.status[o])[i]? = _
        have hie : i ≠ e := by
          rintro rfl
          rcases hi with hi | hi
          · simp at hi
          · exact hi o hpart
        rw [hsets, if_neg hie]
        refine I.statusKept i ?_
        rcases hi with hi | hi
        · rw [List.mem_append, not_or] at hi; exact .inl hi.1
        · exact .inr hi
      · intro i hi o' hp' ho'
        show (t.status.set e t.status[o])[i]? = _
        rw [hsets]
        split
        · rename_i hie
          subst hie
          have := uniq o' hp'
          subst this
          exact I.statusKept o' (.inl fun c => ho' (hall _ c))
        · rename_i hie
          rw [List.mem_append, List.mem_singleton] at hi
          rcases hi with hi | hi
          · exact I.statusWhole i hi o' hp' ho'
          · exact absurd hi hie
      · intro i l' h'
        rw [hhas] at h'
        split at h'
        · rename_i hie
          subst hie h'
          exact .inr (.inl ⟨o, hpart, hl⟩)
        · exact I.fresh i l' h'
  · -- the edge is no part
    have hno : ∀ o', ¬ m.PieceOf e o' := by
      rintro o' ⟨h1, h2⟩
      rw [ho] at h1
      injection h1 with h1
      exact hp (h1 ▸ h2)
    obtain ⟨l, hl⟩ : ∃ l, t.aligned[e]? = some l := ⟨_, List.getElem?_eq_getElem hea⟩
    by_cases h0 : l = 0
    · subst h0
      have hset : ∀ i : Nat, (t.aligned.set e (t.maxAligned + 1))[i]? =
          if i = e then some (t.maxAligned + 1) else t.aligned[i]? := by
        intro i
        by_cases hi : i = e
        · subst hi; rw [if_pos rfl, List.getElem?_set_self hea]
        · rw [if_neg hi, List.getElem?_set_ne (fun c => hi c.symm)]
      have hhas : ∀ i l', (EdgeLabels.mk (t.maxAligned + 1) (t.aligned.set e (t.maxAligned + 1)) t.status).Has i l' ↔
          if i = e then l' = t.maxAligned + 1 else t.Has i l' := by
        intro i l'
        unfold EdgeLabels.Has
        simp only [hset]
        split
        · constructor
          · rintro ⟨h1, -⟩; exact (Option.some.inj h1).symm
          · rintro rfl; exact ⟨rfl, by omega⟩
        · rfl
      have hnot : ∀ l', ¬ t.Has e l' := by
        rintro l' ⟨h1, h2⟩
        rw [hl] at h1
        exact h2 (Option.some.inj h1).symm
      refine ⟨{ t with maxAligned := t.maxAligned + 1, aligned := t.aligned.set e (t.maxAligned + 1) }, ?_, ?_⟩
      · simp only [labelEdge, Mesh.hasOriginal, ho, ok_bind, hp, decide_false, vget_eq_ok.2 hl,
          vset_of_lt _ hea]
        rfl
      · constructor
        · constructor
          · intro i l' h'
            rw [hhas] at h'
            show l' ≤ t.maxAligned + 1
            split at h'
            · omega
            · have := I.fits.le i l' h'; omega
          · intro i o' l' h' hp'
            rw [hhas] at h' ⊢
            have hie : i ≠ e := by rintro rfl; exact hno o' hp'
            rw [if_neg hie] at h'
            have h2 := I.fits.parts i o' l' h' hp'
            split
            · rename_i hi; subst hi; exact absurd h2 (hnot l')
            · exact h2
          · intro r r' l' h1 h2 n1 n2
            rw [hhas] at h1 h2
            split at h1 <;> split at h2
            · rename_i e1 e2; rw [e1, e2]
            · have := I.fits.le _ _ h2; omega
            · have := I.fits.le _ _ h1; omega
            · exact I.fits.wholes r r' l' h1 h2 n1 n2
        · simpa using I.alignedLen
        · exact I.statusLen
        · intro i l' h'
          have := I.kept i l' h'
          rw [hhas]
          split
          · rename_i hi; subst hi; exact absurd this (hnot l')
          · exact this
        · intro i hi
          rw [List.mem_append, List.mem_singleton] at hi
          by_cases hie : i = e
          · exact ⟨_, by rw [hhas, if_pos hie]⟩
          · rcases hi with hi | hi
            · obtain ⟨l', h'⟩ := I.done i hi
              exact ⟨l', by rw [hhas, if_neg hie]; exact h'⟩
            · exact absurd hi hie
        · intro i hi
          rw [List.mem_append, List.mem_singleton, not_or] at hi
          show (t.aligned.set e _)[i]? = _
          rw [hset, if_neg hi.2]
          exact I.others i hi.1
        · have := I.max; show _ ≤ t.maxAligned + 1; omega
        · intro i hi
          refine I.statusKept i ?_
          rcases hi with hi | hi
          · rw [List.mem_append, not_or] at hi; exact .inl hi.1
          · exact .inr hi
        · intro i hi o' hp' ho'
          rw [List.mem_append, List.mem_singleton] at hi
          rcases hi with hi | hi
          · exact I.statusWhole i hi o' hp' ho'
          · subst hi; exact absurd hp' (hno o')
        · intro i l' h'
          rw [hhas] at h'
          split at h'
          · have := I.max; exact .inr (.inr (by omega))
          · exact I.fresh i l' h'
    · refine ⟨t, ?_, ?_⟩
      · simp only [labelEdge, Mesh.hasOriginal, ho, ok_bind, hp, decide_false, vget_eq_ok.2 hl, if_neg h0]
        rfl
      · refine ⟨I.fits, I.alignedLen, I.statusLen, I.kept, ?_, ?_, I.max, ?_, ?_, I.fresh⟩
        · intro i hi
          rw [List.mem_append, List.mem_singleton] at hi
          rcases hi with hi | hi
          · exact I.done i hi
          · subst hi; exact ⟨l, hl, h0⟩
        · intro i hi
          rw [List.mem_append, not_or] at hi
          exact I.others i hi.1
        · intro i hi
          refine I.statusKept i ?_
          rcases hi with hi | hi
          · rw [List.mem_append, not_or] at hi; exact .inl hi.1
          · exact .inr hi
        · intro i hi o' hp' ho'
          rw [List.mem_append, List.mem_singleton] at hi
          rcases hi with hi | hi
          · exact I.statusWhole i hi o' hp' ho'
          · subst hi; exact absurd hp' (hno o')

/-- The row of a polygon as a list. -/
def Mesh.edgesOf (m : Mesh α) (c : Nat) : List Nat :=
  match m.row .edge2 c with
  | ok es => es
  | _ => []

/-- All edges of the polygons one after the other. -/
theorem updateLabels_eq {m : Mesh α} (h : m.WF) (checked : σ) {cells : List Nat} (hc : ∀ c ∈ cells, c < m.num .d2)
    (s : EdgeLabels σ) : updateLabels m checked cells s = foldRes (labelEdge m)
      { s with
        aligned := vresize s.aligned (m.num .d1) 0
        status := vresize s.status (m.num .d1) checked } (cells.flatMap m.edgesOf) := by
  rw [foldRes_flatMap]
  unfold updateLabels
  refine foldRes_congr _ _ fun s c hcc => ?_
  obtain ⟨es, hr⟩ := Mesh.row_exists h .edge2 (hc c hcc)
  rw [labelCell_eq h hr]
  simp only [Mesh.edgesOf, hr]

theorem mem_edgesOf {m : Mesh α} (h : m.WF) {cells : List Nat} (hc : ∀ c ∈ cells, c < m.num .d2) {e : Nat} :
    e ∈ cells.flatMap m.edgesOf ↔ m.EdgeIn cells e := by
  rw [List.mem_flatMap]
  constructor
  · rintro ⟨c, hcc, he⟩
    obtain ⟨es, hr⟩ := Mesh.row_exists h .edge2 (hc c hcc)
    simp only [Mesh.edgesOf, hr] at he
    exact ⟨c, hcc, es, hr, he⟩
  · rintro ⟨c, hcc, es, hr, he⟩
    refine ⟨c, hcc, ?_⟩
    simp only [Mesh.edgesOf, hr]
    exact he

/-- The labels after the vectors got their new sizes. -/
theorem resized_has (m : Mesh α) (checked : σ) {s : EdgeLabels σ} (h : s.aligned.length ≤ m.num .d1) (e l : Nat) :
    (EdgeLabels.mk s.maxAligned (vresize s.aligned (m.num .d1) 0) (vresize s.status (m.num .d1) checked)).Has e l ↔
      s.Has e l := by
  unfold EdgeLabels.Has
  simp only [vresize_getElem? 0 h]
  constructor
  · rintro ⟨h1, h2⟩
    split at h1
    · exact ⟨h1, h2⟩
    · split at h1
      · exact absurd (Option.some.inj h1).symm h2
      · simp at h1
  · rintro ⟨h1, h2⟩
    rw [if_pos (List.getElem?_eq_some_iff.1 h1).1]
    exact ⟨h1, h2⟩

theorem update_inv {m : Mesh α} (checked : σ) {cells : List Nat} {s : EdgeLabels σ} (h : m.CanLabel cells s)
    (hf : s.Fits m) : ∃ t, updateLabels m checked cells s = ok t ∧
      LabelInv m { s with
        aligned := vresize s.aligned (m.num .d1) 0
        status := vresize s.status (m.num .d1) checked } (cells.flatMap m.edgesOf) (cells.flatMap m.edgesOf) t := by
  rw [updateLabels_eq h.wf checked h.inMesh]
  generalize hall : cells.flatMap m.edgesOf = all
  have hmem : ∀ e, e ∈ all ↔ m.EdgeIn cells e := by
    intro e
    rw [← hall]
    exact mem_edgesOf h.wf h.inMesh
  have hh := resized_has m checked h.aligned
  generalize es0 : EdgeLabels.mk s.maxAligned (vresize s.aligned (m.num .d1) 0)
    (vresize s.status (m.num .d1) checked) = s0 at hh
  have i0 : LabelInv m s0 all [] s0 := by
    have a1 : s0.aligned.length = m.num .d1 := by rw [← es0]; exact vresize_length 0 h.aligned
    have a2 : s0.status.length = m.num .d1 := by rw [← es0]; exact vresize_length checked h.status
    have em : s0.maxAligned = s.maxAligned := by rw [← es0]
    refine ⟨⟨?_, ?_, ?_⟩, a1, a2, fun _ _ h => h, by simp, fun _ _ => rfl, Nat.le_refl _, fun _ _ => rfl, by simp,
      fun _ _ h => .inl h⟩
    · intro e l he
      rw [em]
      exact hf.le e l ((hh e l).1 he)
    · intro e o l he hp
      exact (hh o l).2 (hf.parts e o l ((hh e l).1 he) hp)
    · intro r r' l h1 h2 n1 n2
      exact hf.wholes r r' l ((hh r l).1 h1) ((hh r' l).1 h2) n1 n2
  have := foldRes_inv (f := labelEdge m) (I := fun pre t => (∀ x ∈ pre, x ∈ all) ∧ LabelInv m s0 all pre t) all s0
    ⟨by simp, i0⟩ (by
      rintro pre x t hx ⟨hp, I⟩
      have hin := (hmem x).1 hx
      obtain ⟨t', ht', I'⟩ := label_step h.wf hp hx (h.edges x hin)
        (fun o ho => by obtain ⟨l, hl⟩ := h.wholes x o hin ho; exact ⟨l, (hh o l).2 hl⟩) I
      refine ⟨t', ht', ?_, I'⟩
      intro y hy
      rw [List.mem_append, List.mem_singleton] at hy
      rcases hy with hy | rfl
      · exact hp y hy
      · exact hx)
  obtain ⟨t, ht, -, I⟩ := this
  exact ⟨t, ht, I⟩

/-- A part has the label of the edge it came from. -/
theorem cameFrom_label {m : Mesh α} {s : EdgeLabels σ} (hf : s.Fits m) {e r : Nat} (h : m.CameFrom e r) :
    (∀ o, ¬ m.PieceOf r o) ∧ ∀ l, s.Has e l → s.Has r l := by
  induction h with
  | self hn => exact ⟨hn, fun _ h => h⟩
  | step hp _ ih => exact ⟨ih.1, fun l hl => ih.2 l (hf.parts _ _ l hl hp)⟩

end Verif
