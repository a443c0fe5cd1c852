import Verif.MergeSpec
import Verif.JoinLemmas

namespace Verif

open Res

namespace AMesh

variable {α : Type} {A : AMesh α}

/-- Everything but markers, states and lists is the same. -/
structure SameFrame (A F : AMesh α) : Prop where
  num : F.num = A.num
  dimension : F.dimension = A.dimension
  coord : F.coord = A.coord
  ext : F.ext = A.ext
  orig : F.orig = A.orig
  upd : F.upd = A.upd
  ids : F.ids = A.ids
  props : F.props = A.props

theorem SameFrame.refl (A : AMesh α) : SameFrame A A := ⟨rfl, rfl, rfl, rfl, rfl, rfl, rfl, rfl⟩

theorem SameFrame.trans {A B C : AMesh α} (h : SameFrame A B) (h' : SameFrame B C) : SameFrame A C :=
  ⟨h'.num.trans h.num, h'.dimension.trans h.dimension, h'.coord.trans h.coord, h'.ext.trans h.ext,
    h'.orig.trans h.orig, h'.upd.trans h.upd, h'.ids.trans h.ids, h'.props.trans h.props⟩

theorem sameFrame_setRow (A : AMesh α) (l : Lst) (i : Nat) (r : List Nat) : SameFrame A (A.setRow l i r) :=
  ⟨rfl, rfl, rfl, rfl, rfl, rfl, rfl, rfl⟩

theorem sameFrame_withMark (A : AMesh α) (d : Dim) (i k : Nat) : SameFrame A (A.withMark d i k) :=
  ⟨rfl, rfl, rfl, rfl, rfl, rfl, rfl, rfl⟩

theorem sameFrame_withAct (A : AMesh α) (d : Dim) (i : Nat) (b : Bool) : SameFrame A (A.withAct d i b) :=
  ⟨rfl, rfl, rfl, rfl, rfl, rfl, rfl, rfl⟩

theorem sameFrame_offAll (A : AMesh α) (d : Dim) (cs : List Nat) : SameFrame A (A.offAll d cs) := by
  obtain ⟨f1, f2, f3, f4, -, f6, f7, f8, f9, -⟩ := offAll_frame A d cs
  exact ⟨f2, f1, f3, f4, f6, f7, f8, f9⟩

/-- Lists of several cells are changed. -/
def modAll (A : AMesh α) (l : Lst) (f : List Nat → List Nat) (xs : List Nat) : AMesh α :=
  xs.foldl (fun B x => B.setRow l x (f (((B.rows l)[x]?).getD []))) A

theorem ok_modAll (h : A.Ok) (l : Lst) (f : List Nat → List Nat) (xs : List Nat) : (A.modAll l f xs).Ok := by
  unfold modAll
  induction xs generalizing A with
  | nil => exact h
  | cons x xs ih => exact ih (ok_setRow h _ _ _)

theorem modAll_same (A : AMesh α) (l : Lst) (f : List Nat → List Nat) (xs : List Nat) :
    SameFrame A (A.modAll l f xs) ∧ (A.modAll l f xs).mark = A.mark ∧ (A.modAll l f xs).act = A.act := by
  unfold modAll
  induction xs generalizing A with
  | nil => exact ⟨SameFrame.refl A, rfl, rfl⟩
  | cons x xs ih =>
    obtain ⟨h1, h2, h3⟩ := ih (A.setRow l x (f (((A.rows l)[x]?).getD [])))
    exact ⟨(sameFrame_setRow _ _ _ _).trans h1, h2, h3⟩

theorem modAll_rows (h : A.Ok) (l : Lst) (f : List Nat → List Nat) {xs : List Nat} (hn : xs.Nodup)
    (hx : ∀ x ∈ xs, x < A.num l.owner) (l' : Lst) (i : Nat) :
    ((A.modAll l f xs).rows l')[i]? = if l' = l ∧ i ∈ xs then ((A.rows l)[i]?).map f else (A.rows l')[i]? := by
  induction xs generalizing A with
  | nil => simp [modAll]
  | cons x xs ih =>
    have hxl : x < (A.rows l).length := by rw [h.rows]; exact hx x (by simp)
    have e : A.modAll l f (x :: xs) = (A.setRow l x (f (((A.rows l)[x]?).getD []))).modAll l f xs := rfl
    rw [List.nodup_cons] at hn
    rw [e, ih (ok_setRow h _ _ _) hn.2 (fun y hy => hx y (by simp [hy])), setRow_rows _ _ _ _ _ _ hxl,
      setRow_rows _ _ _ _ _ _ hxl]
    by_cases hl : l' = l
    · subst hl
      simp only [true_and, List.mem_cons]
      by_cases hi : i = x
      · subst hi
        simp [hn.1, List.getElem?_eq_getElem hxl]
      · simp [hi]
    · simp [hl]

theorem modAll_snoc (A : AMesh α) (l : Lst) (f : List Nat → List Nat) (xs : List Nat) (x : Nat) :
    A.modAll l f (xs ++ [x]) = (A.modAll l f xs).setRow l x (f ((((A.modAll l f xs).rows l)[x]?).getD [])) := by
  unfold modAll
  rw [List.foldl_append]
  rfl

theorem modAll_rows_ne (A : AMesh α) (l : Lst) (f : List Nat → List Nat) (xs : List Nat) {l' : Lst} (hl : l' ≠ l) :
    (A.modAll l f xs).rows l' = A.rows l' := by
  unfold modAll
  induction xs generalizing A with
  | nil => rfl
  | cons x xs ih =>
    rw [List.foldl_cons, ih]
    unfold setRow
    rw [setRows_rows_ne _ _ hl]

/-- A loop over the parts of the new cell. -/
theorem around_conc (h : A.Ok) {b l : Lst} (hbl : b ≠ l) {new : Nat} {xs : List Nat}
    (hr : (A.rows b)[new]? = some xs) (hx : ∀ x ∈ xs, x < A.num l.owner) {step : Mesh α → Nat → Res (Mesh α)}
    {f : List Nat → List Nat} (hstep : ∀ B : AMesh α, B.Ok → B.num = A.num → ∀ x r, (B.rows l)[x]? = some r →
      step B.conc x = ok (B.setRow l x (f r)).conc) :
    A.conc.around b new step = ok (A.modAll l f xs).conc := by
  unfold Mesh.around
  rw [rowSize_conc h hr, ok_bind]
  have key : ∀ k, k ≤ xs.length → foldRes (fun (m : Mesh α) k => do
      let x ← m.entry b new k
      step m x) A.conc (List.range k) = ok (A.modAll l f (xs.take k)).conc := by
    intro k
    induction k with
    | zero => intro _; rfl
    | succ k ih =>
      intro hk
      have hk' : k < xs.length := by omega
      have hB := ok_modAll h l f (xs.take k)
      have hBn : (A.modAll l f (xs.take k)).num = A.num := (modAll_same A l f (xs.take k)).1.num
      have hBr : ((A.modAll l f (xs.take k)).rows b)[new]? = some xs := by
        rw [modAll_rows_ne _ _ _ _ hbl]; exact hr
      have hxk : xs[k] < A.num l.owner := hx _ (List.getElem_mem hk')
      obtain ⟨r, hr'⟩ := getElem?_row hB (l := l) (j := xs[k]) (by rw [hBn]; exact hxk)
      rw [List.range_succ, foldRes_append, ih (by omega), ok_bind, join_one, entry_conc hB hBr]
      simp only [agetD, List.getElem?_eq_getElem hk', ok_bind]
      rw [hstep _ hB hBn _ r hr', List.take_succ, List.getElem?_eq_getElem hk', Option.toList_some, modAll_snoc, hr']
      rfl
  have := key xs.length le_rfl
  rw [List.take_length] at this
  exact this

/-- The joined cells are replaced in one list. -/
def swapRow (subs : List Nat) (new : Nat) (r : List Nat) : List Nat := r.map fun y => if y ∈ subs then new else y

theorem replaceEnd_conc (h : A.Ok) {l : Lst} {subs : List Nat} {new x : Nat} {r : List Nat}
    (hr : (A.rows l)[x]? = some r) (hs : ∀ c ∈ subs, c < A.num l.target) (hn : new < A.num l.target) :
    A.conc.replaceEnd l subs new x = ok (A.setRow l x (swapRow subs new r)).conc := by
  have hx := lt_of_getElem? hr
  unfold Mesh.replaceEnd
  rw [rowSize_conc h hr, ok_bind]
  apply foldRow_conc _ hr (by simp [swapRow])
  intro k hk r' hl hk'
  have hkr : k < r.length := by simpa [swapRow] using hk
  have hkr' : k < r'.length := by omega
  have hB : (A.setRow l x r').Ok := ok_setRow h l x r'
  have hBr : ((A.setRow l x r').rows l)[x]? = some r' := setRow_row hx
  have he : r'[k] = r[k] := by
    rw [List.getElem?_eq_getElem hkr', List.getElem?_eq_getElem hkr] at hk'
    simpa using hk'
  rw [hasEntry_conc hB hBr hkr', entry_conc hB hBr]
  simp only [agetD, List.getElem?_eq_getElem hkr', ok_bind]
  have hset : r'.set k r'[k] = r' := List.set_getElem_self hkr'
  by_cases hlt : r'[k] < A.num l.target
  · rw [if_pos (decide_eq_true (show r'[k] < (A.setRow l x r').num l.target from hlt))]
    by_cases hec : r'[k] ∈ subs
    · rw [if_pos hec, insertEntry_conc hB hBr hkr' hn, setRow_setRow]
      simp only [swapRow, List.getElem_map]
      rw [if_pos (by rw [← he]; exact hec)]
    · rw [if_neg hec]
      simp only [swapRow, List.getElem_map]
      rw [if_neg (by rw [← he]; exact hec), ← he, hset]
  · rw [if_neg (by rw [decide_eq_true_iff]; exact hlt)]
    simp only [swapRow, List.getElem_map]
    rw [if_neg (by rw [← he]; intro hh; exact hlt (hs _ hh)), ← he, hset]

/-- The loop over the cells. -/
theorem mergeFold_conc {d : Dim} {l : Option Lst} (hl : ∀ l', l = some l' → l'.owner = d) {orig : List (List Nat)}
    {cs : List Nat} {A : AMesh α} (h : A.Ok) (hc : ∀ c ∈ cs, c < A.num d) (hco : ∀ c ∈ cs, c < orig.length)
    (s : MergeState α) (hs : s.mesh = A.conc) :
    ∃ t, foldRes (Mesh.mergeOne d l orig) s cs = ok t ∧ t.mesh = (A.offAll d cs).conc ∧
      t.cells = s.cells ++ cs.flatMap (fun c => (orig[c]?).getD []) ∧
      s.marker ≤ t.marker ∧ (∀ c ∈ cs, ∀ k, (A.mark d)[c]? = some k → k ≤ t.marker) ∧
      (t.marker = s.marker ∨ ∃ c ∈ cs, (A.mark d)[c]? = some t.marker) ∧
      ∀ l', l = some l' → Coll A l' cs s.polyhedra t.polyhedra := by
  induction cs generalizing A s with
  | nil =>
    exact ⟨s, rfl, hs, by simp, le_rfl, by simp, Or.inl rfl, fun _ _ => ⟨id, by simp, fun p hp => Or.inl hp⟩⟩
  | cons c cs ih =>
    have hcn : c < A.num d := hc c (by simp)
    have hB := ok_withAct h d c false
    obtain ⟨k, hk⟩ : ∃ k, (A.mark d)[c]? = some k :=
      ⟨_, List.getElem?_eq_getElem (by rw [h.mark]; exact hcn)⟩
    have hcc : orig[c]? = some (orig[c]'(hco c (by simp))) := List.getElem?_eq_getElem _
    obtain ⟨Q, eQ, cQ⟩ : ∃ Q, (A.withAct d c false).conc.collectIf l c s.polyhedra = ok Q ∧
        ∀ l', l = some l' → Coll (A.withAct d c false) l' [c] s.polyhedra Q := by
      cases l with
      | none => exact ⟨s.polyhedra, rfl, by simp⟩
      | some l =>
        obtain ⟨r, hr⟩ := getElem?_row h (l := l) (j := c) (by rw [hl l rfl]; exact hcn)
        obtain ⟨Q, e, cQ⟩ := collect_conc hB (l := l) (c := c) hr s.polyhedra
        refine ⟨Q, e, ?_⟩
        rintro l' rfl'
        cases rfl'
        exact cQ
    obtain ⟨t, et, tm, tc, t1, t2, t3, tQ⟩ := ih hB (fun c' h' => hc c' (by simp [h']))
      (fun c' h' => hco c' (by simp [h']))
      ⟨(A.withAct d c false).conc, if s.marker < k then k else s.marker, s.cells ++ orig[c]'(hco c (by simp)), Q⟩
      rfl
    refine ⟨t, ?_, tm, ?_, ?_, ?_, ?_, fun l' e => ((cQ l' e).cons (tQ l' e)).congr rfl rfl⟩
    · rw [foldRes_cons]
      unfold Mesh.mergeOne at et ⊢
      rw [hs, setAct_with h hcn, ok_bind, marker_conc (A := A.withAct d c false) hcn hk, ok_bind]
      unfold vat at et ⊢
      rw [hcc]
      simp only [ok_bind]
      rw [eQ, ok_bind, ok_bind]
      exact et
    · rw [tc]
      simp only [List.flatMap_cons, hcc, Option.getD_some, List.append_assoc]
    · refine le_trans ?_ t1
      simp only
      split <;> omega
    · intro c' hc' k' hk'
      simp only [List.mem_cons] at hc'
      rcases hc' with rfl | hc'
      · rw [hk, Option.some.injEq] at hk'
        subst hk'
        refine le_trans ?_ t1
        simp only
        split <;> omega
      · exact t2 c' hc' k' hk'
    · rcases t3 with t3 | ⟨c', hc', hk'⟩
      · rw [t3]
        simp only
        split
        · exact Or.inr ⟨c, by simp, hk⟩
        · exact Or.inl rfl
      · exact Or.inr ⟨c', by simp [hc'], hk'⟩

theorem addIf_conc (h : A.Ok) {l : Lst} (hl : l ≠ .sub2) {new : Nat} {qs : List Nat}
    (hr : (A.rows l)[new]? = some []) (hq : ∀ q ∈ qs, q < A.num l.target) :
    A.conc.addIf l new qs = ok (A.setRow l new qs).conc := by
  have hn : new < A.num l.owner := by
    have := lt_of_getElem? hr
    rwa [h.rows] at this
  unfold Mesh.addIf
  by_cases h0 : qs = []
  · subst h0
    rw [if_pos rfl, setRow_self hr]
  rw [if_neg h0]
  exact addRow_conc h hn (fun e => absurd e hl) hq

/-- The parts of one cell are sorted. -/
theorem sortCell_conc (h : A.Ok) {b l : Lst} {min : Nat} {subs : List Nat} {X : Nat → Prop} {s : List Nat × List Nat}
    (hs : JoinInv A l min subs X s) {c : Nat} {r : List Nat} (hr : (A.rows b)[c]? = some r)
    (hx : ∀ x ∈ r, x < A.num l.owner) :
    ∃ t, A.conc.sortCell b l min subs s c = ok t ∧ JoinInv A l min subs (fun y => X y ∨ y ∈ r) t := by
  unfold Mesh.sortCell
  rw [rowSize_conc h hr, ok_bind]
  have key : ∀ k, k ≤ r.length → ∃ t, foldRes (fun s k => do
      let x ← A.conc.entry b c k
      A.conc.joinVertex l min subs s x) s (List.range k) = ok t ∧
        JoinInv A l min subs (fun y => X y ∨ y ∈ r.take k) t := by
    intro k
    induction k with
    | zero => intro _; exact ⟨s, rfl, hs.congr fun y => by simp⟩
    | succ k ih =>
      intro hk
      have hk' : k < r.length := by omega
      obtain ⟨t, e, i⟩ := ih (by omega)
      obtain ⟨t', e', i'⟩ := joinVertex_conc h i (x := r[k]) (hx _ (List.getElem_mem hk'))
      refine ⟨t', ?_, i'.congr fun y => ?_⟩
      · rw [List.range_succ, foldRes_append, e, ok_bind, join_one, entry_conc h hr]
        simp only [agetD, List.getElem?_eq_getElem hk', ok_bind]
        exact e'
      · rw [List.take_succ, List.getElem?_eq_getElem hk', Option.toList_some, List.mem_append, List.mem_singleton,
          or_assoc]
  obtain ⟨t, e, i⟩ := key r.length le_rfl
  rw [List.take_length] at i
  exact ⟨t, e, i⟩

theorem sortCells_conc (h : A.Ok) {b l : Lst} {min : Nat} {subs cs : List Nat}
    (hc : ∀ c ∈ cs, c < A.num b.owner) (hx : ∀ c ∈ cs, ∀ r, A.conc.row b c = ok r → ∀ x ∈ r, x < A.num l.owner) :
    ∃ t, foldRes (A.conc.sortCell b l min subs) ([], []) cs = ok t ∧ PartsSorted A.conc b l min cs subs t := by
  have key : ∀ (cs : List Nat) (X : Nat → Prop) (s : List Nat × List Nat), JoinInv A l min subs X s →
      (∀ c ∈ cs, c < A.num b.owner) → (∀ c ∈ cs, ∀ r, A.conc.row b c = ok r → ∀ x ∈ r, x < A.num l.owner) →
      ∃ t, foldRes (A.conc.sortCell b l min subs) s cs = ok t ∧
        JoinInv A l min subs (fun y => X y ∨ IsPartOf A.conc b cs y) t := by
    intro cs
    induction cs with
    | nil => intro X s hs _ _; exact ⟨s, rfl, hs.congr fun y => by simp [IsPartOf]⟩
    | cons c cs ih =>
      intro X s hs hc hx
      obtain ⟨r, hr⟩ := getElem?_row h (l := b) (j := c) (hc c (by simp))
      have hr' := row_conc h hr
      obtain ⟨t1, e1, i1⟩ := sortCell_conc h hs hr (hx c (by simp) r hr')
      obtain ⟨t, e, i⟩ := ih _ t1 i1 (fun c' h' => hc c' (by simp [h'])) (fun c' h' => hx c' (by simp [h']))
      refine ⟨t, ?_, i.congr fun y => ?_⟩
      · rw [foldRes_cons, e1, ok_bind]
        exact e
      · have : IsPartOf A.conc b (c :: cs) y ↔ y ∈ r ∨ IsPartOf A.conc b cs y := by
          unfold IsPartOf
          constructor
          · rintro ⟨c', hc', r', e', hy⟩
            rcases List.mem_cons.1 hc' with rfl | hc'
            · rw [hr'] at e'
              cases e'
              exact Or.inl hy
            · exact Or.inr ⟨c', hc', r', e', hy⟩
          · rintro (hy | ⟨c', hc', hh⟩)
            · exact ⟨c, by simp, r, hr', hy⟩
            · exact ⟨c', by simp [hc'], hh⟩
        rw [this, or_assoc]
  obtain ⟨t, e, i⟩ := key cs (fun _ => False) ([], []) ⟨by simp, by simp, by simp, by simp⟩ hc hx
  exact ⟨t, e, i.nodup1, i.nodup2, fun x => by rw [i.kept, false_or], fun x => by rw [i.removed, false_or]⟩

/-- What is kept. -/
theorem keptExcept_conc [Zero α] (hA : A.Ok) {d : Dim} {F : AMesh α} (hF : F.Ok)
    (hf : SameFrame (A.append d 1) F) {act : Dim → Nat → Prop} {rows : Lst → Nat → Prop}
    (hm : ∀ e i, i < A.num e → (F.mark e)[i]? = (A.mark e)[i]?)
    (ha : ∀ e i, i < A.num e → ¬ act e i → (F.act e)[i]? = (A.act e)[i]?)
    (ha' : ∀ e i, i < A.num e → act e i → (F.act e)[i]? = some false)
    (hr : ∀ l i, i < A.num l.owner → ¬ rows l i → (F.rows l)[i]? = (A.rows l)[i]?) :
    KeptExcept A.conc F.conc d act rows := by
  have hold := sameOldCells_append hA d 1
  have hnum : (A.append d 1).num = fset A.num d (A.num d + 1) := rfl
  have hFl : ∀ e i, i < A.num e → i < F.num e := by
    intro e i hi
    rw [hf.num, hnum]
    by_cases he : e = d
    · subst he; rw [fset_self]; omega
    · rw [fset_ne _ _ he]; exact hi
  have hBl : ∀ e i, i < A.num e → i < (A.append d 1).num e := by
    intro e i hi; rw [← hf.num]; exact hFl e i hi
  have hprops : F.conc.props = (A.append d 1).conc.props := by
    show (fun d => (F.props d).map Csr.ofRows) = fun e => ((A.append d 1).props e).map Csr.ofRows
    rw [hf.props]
  constructor
  · exact hf.dimension.trans hold.dimension
  · show F.num d = _
    rw [hf.num, hnum, fset_self]; rfl
  · intro e he
    show F.num e = _
    rw [hf.num, hnum, fset_ne _ _ he]; rfl
  · intro i hi
    rw [← hold.coordinates i hi]
    exact coordinates_congr hf.num hf.coord
  · intro i hi
    rw [← hold.extremes i hi]
    exact extremes_congr hf.num hf.ext
  · intro e i hi
    exact marker_congr (show i < A.conc.num e from hi) (hFl e i hi) (hm e i hi)
  · intro e i hi hne
    exact active_congr (show i < A.conc.num e from hi) (hFl e i hi) (ha e i hi hne)
  · intro e i hi hh
    unfold Mesh.active
    show (do assert (i < F.num e); vget (F.act e) i) = _
    rw [assert_true (hFl e i hi), ok_bind, vget_eq_ok]
    exact ha' e i hi hh
  · intro e i hi
    rw [← hold.original e i hi]
    apply original_congr (hBl e i hi) (hFl e i hi)
    show (F.orig e)[i]? = ((A.append d 1).orig e)[i]?
    rw [hf.orig]
  · intro e i hi
    rw [← hold.updated e i hi]
    apply updated_congr (hBl e i hi) (hFl e i hi)
    show mapFind (F.upd e) i = mapFind ((A.append d 1).upd e) i
    rw [hf.upd]
  · show F.ids = _
    rw [hf.ids]
    funext e
    exact hold.ids e
  · intro e i p hi
    rw [← hold.propSize e i p hi]
    exact propSize_congr hf.num hf.ids hprops
  · intro e i p t hi
    rw [← hold.propValue e i p t hi]
    exact propValue_congr hf.num hf.ids hprops
  · intro l i hi hl
    obtain ⟨r, hr'⟩ := getElem?_row hA (l := l) (j := i) hi
    rw [row_conc hA hr']
    apply row_conc hF
    rw [hr l i hi hl, hr']

/-- What is known about the new cell. -/
theorem isMerged_conc [Zero α] (hA : A.Ok) {d : Dim} (hd : d ≠ .d0) {F : AMesh α} (hf : SameFrame (A.append d 1) F)
    {subs : List Nat} (hs : ∀ c ∈ subs, c < A.num d) (hne : subs ≠ []) {k : Nat}
    (h1 : ∀ c ∈ subs, ∀ k', (A.mark d)[c]? = some k' → k' ≤ k)
    (h2 : k = 0 ∨ ∃ c ∈ subs, (A.mark d)[c]? = some k) (hm : (F.mark d)[A.num d]? = some k)
    (ha : (F.act d)[A.num d]? = some true) : IsMerged A.conc F.conc d subs (A.num d) := by
  have hnum : (A.append d 1).num = fset A.num d (A.num d + 1) := rfl
  have hnB : A.num d < (A.append d 1).num d := by rw [hnum, fset_self]; omega
  have hnew : A.num d < F.num d := by rw [hf.num]; exact hnB
  have hprops : F.conc.props = (A.append d 1).conc.props := by
    show (fun d => (F.props d).map Csr.ofRows) = fun e => ((A.append d 1).props e).map Csr.ofRows
    rw [hf.props]
  have blank := blankCell_append hA d 1 le_rfl (Nat.lt_succ_self _)
  constructor
  · refine ⟨k, ?_, ?_, ?_⟩
    · unfold Mesh.marker
      show (do assert (A.num d < F.num d); vget (F.mark d) (A.num d)) = _
      rw [assert_true hnew, ok_bind, vget_eq_ok]
      exact hm
    · rcases h2 with h2 | ⟨c, hc, hk'⟩
      · obtain ⟨c, hc⟩ := List.exists_mem_of_ne_nil subs hne
        obtain ⟨k', hk'⟩ : ∃ k', (A.mark d)[c]? = some k' :=
          ⟨_, List.getElem?_eq_getElem (by rw [hA.mark]; exact hs c hc)⟩
        have := h1 c hc k' hk'
        have e0 : k = k' := by omega
        exact ⟨c, hc, by rw [e0]; exact marker_conc (hs c hc) hk'⟩
      · exact ⟨c, hc, marker_conc (hs c hc) hk'⟩
    · intro c hc k' hk'
      refine h1 c hc k' ?_
      unfold Mesh.marker at hk'
      rw [assert_true (show c < A.conc.num d from hs c hc), ok_bind, vget_eq_ok] at hk'
      exact hk'
  · unfold Mesh.active
    show (do assert (A.num d < F.num d); vget (F.act d) (A.num d)) = _
    rw [assert_true hnew, ok_bind, vget_eq_ok]
    exact ha
  · refine Eq.trans ?_ (blank.original hd)
    apply original_congr hnB hnew
    show (F.orig d)[A.num d]? = ((A.append d 1).orig d)[A.num d]?
    rw [hf.orig]
  · refine Eq.trans ?_ blank.updated
    apply updated_congr hnB hnew
    show mapFind (F.upd d) (A.num d) = mapFind ((A.append d 1).upd d) (A.num d)
    rw [hf.upd]
  · intro p hp
    refine Eq.trans ?_ (blank.propSize p hp)
    exact propSize_congr hf.num hf.ids hprops

/-- The parts of the mesh with one more cell. -/
theorem append_one [Zero α] (hA : A.Ok) (d : Dim) :
    (∀ e, e ≠ d → (A.append d 1).num e = A.num e) ∧ (A.append d 1).num d = A.num d + 1 ∧
    (∀ l i, i < A.num l.owner → ((A.append d 1).rows l)[i]? = (A.rows l)[i]?) ∧
    (∀ l, l.owner = d → ((A.append d 1).rows l)[A.num d]? = some []) ∧
    (∀ e i, i < A.num e → ((A.append d 1).mark e)[i]? = (A.mark e)[i]?) ∧
    (∀ e i, i < A.num e → ((A.append d 1).act e)[i]? = (A.act e)[i]?) := by
  refine ⟨?_, ?_, ?_, ?_, ?_, ?_⟩
  · intro e he; simp [append, fset_ne _ _ he]
  · simp [append]
  · intro l i hi
    simp only [append]
    split
    · rw [List.getElem?_append_left (by rw [hA.rows]; exact hi)]
    · rfl
  · intro l hl
    have hll := hA.rows l
    rw [hl] at hll
    simp only [append]
    rw [if_pos hl, List.getElem?_append_right (by omega), hll, Nat.sub_self]
    rfl
  · intro e i hi
    by_cases he : e = d
    · subst he
      simp only [append, fset_self]
      rw [List.getElem?_append_left (by rw [hA.mark]; exact hi)]
    · simp only [append, fset_ne _ _ he]
  · intro e i hi
    by_cases he : e = d
    · subst he
      simp only [append, fset_self]
      rw [List.getElem?_append_left (by rw [hA.act]; exact hi)]
    · simp only [append, fset_ne _ _ he]

/-- The mesh before the neighbours of the parts of a new polygon are changed. -/
def madeA2 (A : AMesh α) (vs es : List Nat) (new k : Nat) (qs : List Nat) : AMesh α :=
  ((((A.setRow .vert2 new vs).setRow .edge2 new es).withMark .d2 new k).withAct .d2 new true).setRow .nb23 new qs

theorem ok_madeA2 (h : A.Ok) (vs es : List Nat) (new k : Nat) (qs : List Nat) : (A.madeA2 vs es new k qs).Ok :=
  ok_setRow (ok_withAct (ok_withMark (ok_setRow (ok_setRow h _ _ _) _ _ _) _ _ _) _ _ _) _ _ _

theorem madeA2_rows (h : A.Ok) (vs es : List Nat) {new : Nat} (k : Nat) (qs : List Nat) (hn : new < A.num .d2)
    (l : Lst) (i : Nat) : ((A.madeA2 vs es new k qs).rows l)[i]? =
      if l = .nb23 ∧ i = new then some qs else if l = .edge2 ∧ i = new then some es
      else if l = .vert2 ∧ i = new then some vs else (A.rows l)[i]? := by
  have h1 := ok_setRow h .vert2 new vs
  have h2 := ok_setRow h1 .edge2 new es
  have h4 := ok_withAct (ok_withMark h2 .d2 new k) .d2 new true
  unfold madeA2
  rw [setRow_rows _ _ _ _ _ _ (by rw [h4.rows]; exact hn)]
  have e : ∀ B : AMesh α, ((B.withMark .d2 new k).withAct .d2 new true).rows = B.rows := fun _ => rfl
  rw [e, setRow_rows _ _ _ _ _ _ (by rw [h1.rows]; exact hn),
    setRow_rows _ _ _ _ _ _ (by rw [h.rows]; exact hn)]

/-- The mesh after polygons are joined. -/
def mergedA2 (A : AMesh α) (subs vs es rem0 rem1 : List Nat) (new k : Nat) (qs : List Nat) : AMesh α :=
  ((((A.madeA2 vs es new k qs).modAll .nb02 (endRow (A.num .d2) subs new) vs).modAll .nb12
    (swapRow subs new) es).offAll .d0 rem0).offAll .d1 rem1

theorem mergeFinish2_conc (h : A.Ok) {subs vs es rem0 rem1 qs : List Nat} {new : Nat} (k : Nat) (hn : new < A.num .d2)
    (hs : ∀ c ∈ subs, c < A.num .d2) (h3 : (A.rows .nb23)[new]? = some []) (hv : ∀ x ∈ vs, x < A.num .d0)
    (he : ∀ x ∈ es, x < A.num .d1) (hq : ∀ q ∈ qs, q < A.num .d3) (hr0 : ∀ x ∈ rem0, x < A.num .d0)
    (hr1 : ∀ x ∈ rem1, x < A.num .d1) :
    A.conc.mergeFinish2 subs vs es rem0 rem1 new k qs = ok (A.mergedA2 subs vs es rem0 rem1 new k qs).conc ∧
    (A.mergedA2 subs vs es rem0 rem1 new k qs).Ok := by
  have h1 := ok_setRow h .vert2 new vs
  have h2 := ok_setRow h1 .edge2 new es
  have h3' := ok_withMark h2 .d2 new k
  have h4 := ok_withAct h3' .d2 new true
  have h5 := ok_madeA2 h vs es new k qs
  have r5 := madeA2_rows h vs es k qs hn
  have n5 : (A.madeA2 vs es new k qs).num = A.num := rfl
  have h6 := ok_modAll h5 .nb02 (endRow (A.num .d2) subs new) vs
  have r6 : ∀ l, l ≠ .nb02 → ((A.madeA2 vs es new k qs).modAll .nb02 (endRow (A.num .d2) subs new) vs).rows l =
      (A.madeA2 vs es new k qs).rows l := fun l hl => modAll_rows_ne _ _ _ _ hl
  have n6 := (modAll_same (A.madeA2 vs es new k qs) .nb02 (endRow (A.num .d2) subs new) vs).1.num
  have h7 := ok_modAll h6 .nb12 (swapRow subs new) es
  have n7 := (modAll_same ((A.madeA2 vs es new k qs).modAll .nb02 (endRow (A.num .d2) subs new) vs) .nb12
    (swapRow subs new) es).1.num
  have h8 := ok_offAll h7 .d0 rem0
  have n8 := (sameFrame_offAll (((A.madeA2 vs es new k qs).modAll .nb02 (endRow (A.num .d2) subs new) vs).modAll .nb12
    (swapRow subs new) es) .d0 rem0).num
  refine ⟨?_, ok_offAll h8 _ _⟩
  unfold Mesh.mergeFinish2
  rw [addRow_conc h (show new < A.num (Lst.owner .vert2) from hn) (by simp) hv, ok_bind,
    addRow_conc h1 (show new < A.num (Lst.owner .edge2) from hn) (by simp) he, ok_bind,
    setMark_with h2 hn, ok_bind, setAct_with h3' hn, ok_bind]
  have e0 : (((((A.setRow .vert2 new vs).setRow .edge2 new es).withMark .d2 new k).withAct .d2 new true).rows
      .nb23)[new]? = some [] := by
    show (((A.setRow .vert2 new vs).setRow .edge2 new es).rows .nb23)[new]? = some []
    rw [setRow_rows _ _ _ _ _ _ (by rw [h1.rows]; exact hn), if_neg (by simp),
      setRow_rows _ _ _ _ _ _ (by rw [h.rows]; exact hn), if_neg (by simp)]
    exact h3
  rw [addIf_conc h4 (by simp) e0 hq, ok_bind]
  show (do
    let m ← (A.madeA2 vs es new k qs).conc.around _ _ _
    let m ← m.around .edge2 new (fun m x => m.replaceEnd .nb12 subs new x)
    let m ← m.switchOff .d0 rem0
    m.switchOff .d1 rem1) = _
  rw [around_conc h5 (b := .vert2) (l := .nb02) (by simp) (xs := vs) (f := endRow (A.num .d2) subs new)
    (by rw [r5]; simp) hv, ok_bind]
  · rw [around_conc h6 (b := .edge2) (l := .nb12) (by simp) (xs := es) (f := swapRow subs new)
      (by rw [r6 _ (by simp), r5]; simp) (by rw [n6]; exact he), ok_bind]
    · unfold Mesh.switchOff
      rw [offAll_conc h7 (by rw [n7, n6]; exact hr0), ok_bind, offAll_conc h8 (by rw [n8, n7, n6]; exact hr1)]
      rfl
    · intro B hB hBn x r hr
      have hBn' : B.num .d2 = A.num .d2 := by rw [hBn, n6]; rfl
      exact replaceEnd_conc hB (l := .nb12) hr (fun c hc => by rw [show Lst.target .nb12 = .d2 from rfl, hBn']; exact hs c hc)
        (by rw [show Lst.target .nb12 = .d2 from rfl, hBn']; exact hn)
  · intro B hB hBn x r hr
    have hBn' : B.num .d2 = A.num .d2 := by rw [hBn]; rfl
    rw [joinEnd_conc hB (l := .nb02) hr rfl (by rw [show Lst.target .nb02 = .d2 from rfl, hBn']; exact hn)]
    rw [show Lst.target .nb02 = .d2 from rfl, hBn']

theorem mergedA2_facts (h : A.Ok) (subs : List Nat) {vs es : List Nat} (rem0 rem1 : List Nat) {new : Nat} (k : Nat)
    (qs : List Nat) (hn : new < A.num .d2) (hv : ∀ x ∈ vs, x < A.num .d0) (he : ∀ x ∈ es, x < A.num .d1)
    (nv : vs.Nodup) (ne : es.Nodup) (F : AMesh α) (hF : A.mergedA2 subs vs es rem0 rem1 new k qs = F) :
    SameFrame A F ∧ F.mark = fset A.mark .d2 ((A.mark .d2).set new k) ∧
    (∀ d i, (F.act d)[i]? = if (d = .d1 ∧ i ∈ rem1 ∧ i < (A.act d).length) ∨ (d = .d0 ∧ i ∈ rem0 ∧ i < (A.act d).length)
      then some false else (fset A.act .d2 ((A.act .d2).set new true) d)[i]?) ∧
    ∀ l i, (F.rows l)[i]? = if l = .nb12 ∧ i ∈ es then ((A.rows l)[i]?).map (swapRow subs new)
      else if l = .nb02 ∧ i ∈ vs then ((A.rows l)[i]?).map (endRow (A.num .d2) subs new)
      else if l = .nb23 ∧ i = new then some qs else if l = .edge2 ∧ i = new then some es
      else if l = .vert2 ∧ i = new then some vs else (A.rows l)[i]? := by
  have h5 := ok_madeA2 h vs es new k qs
  have r5 := madeA2_rows h vs es k qs hn
  have s5 : SameFrame A (A.madeA2 vs es new k qs) :=
    ((((sameFrame_setRow _ _ _ _).trans (sameFrame_setRow _ _ _ _)).trans (sameFrame_withMark _ _ _ _)).trans
      (sameFrame_withAct _ _ _ _)).trans (sameFrame_setRow _ _ _ _)
  have m5 : (A.madeA2 vs es new k qs).mark = fset A.mark .d2 ((A.mark .d2).set new k) := rfl
  have a5 : (A.madeA2 vs es new k qs).act = fset A.act .d2 ((A.act .d2).set new true) := rfl
  unfold mergedA2 at hF
  generalize A.madeA2 vs es new k qs = B at *
  have h6 := ok_modAll h5 .nb02 (endRow (A.num .d2) subs new) vs
  obtain ⟨s6, m6, a6⟩ := modAll_same B .nb02 (endRow (A.num .d2) subs new) vs
  have r6 := modAll_rows h5 .nb02 (endRow (A.num .d2) subs new) nv (by rw [s5.num]; exact hv)
  generalize B.modAll .nb02 (endRow (A.num .d2) subs new) vs = C at *
  obtain ⟨s7, m7, a7⟩ := modAll_same C .nb12 (swapRow subs new) es
  have r7 := modAll_rows h6 .nb12 (swapRow subs new) ne (by rw [s6.num, s5.num]; exact he)
  generalize C.modAll .nb12 (swapRow subs new) es = D at *
  have s8 := sameFrame_offAll D .d0 rem0
  have a8 := offAll_act D .d0 rem0
  obtain ⟨-, -, -, -, m8, -, -, -, -, r8⟩ := offAll_frame D .d0 rem0
  generalize D.offAll .d0 rem0 = E at *
  have s9 := sameFrame_offAll E .d1 rem1
  have a9 := offAll_act E .d1 rem1
  obtain ⟨-, -, -, -, m9, -, -, -, -, r9⟩ := offAll_frame E .d1 rem1
  rw [hF] at s9 a9 m9 r9
  have aD : D.act = fset A.act .d2 ((A.act .d2).set new true) := by rw [a7, a6, a5]
  refine ⟨((((s5.trans s6).trans s7).trans s8).trans s9), ?_, ?_, ?_⟩
  · rw [m9, m8, m7, m6, m5]
  · intro d i
    rw [a9, a8]
    have hEl : (E.act d).length = (D.act d).length := by
      by_contra hh
      rcases Nat.lt_or_gt_of_ne hh with hh | hh
      · have := a8 d (E.act d).length
        rw [List.getElem?_eq_none le_rfl, List.getElem?_eq_getElem hh] at this
        split at this <;> simp at this
      · have := a8 d (D.act d).length
        rw [List.getElem?_eq_none (l := D.act d) le_rfl, List.getElem?_eq_getElem hh] at this
        simp at this
    have hAl : (D.act d).length = (A.act d).length := by
      rw [aD]
      cases d <;> simp [fset]
    rw [hEl, hAl, aD]
    by_cases c1 : d = .d1 ∧ i ∈ rem1 ∧ i < (A.act d).length
    · rw [if_pos c1, if_pos (Or.inl c1)]
    · rw [if_neg c1]
      by_cases c0 : d = .d0 ∧ i ∈ rem0 ∧ i < (A.act d).length
      · rw [if_pos c0, if_pos (Or.inr c0)]
      · rw [if_neg c0, if_neg (by rintro (c | c) <;> contradiction)]
  · intro l i
    rw [r9, r8, r7]
    by_cases c1 : l = .nb12 ∧ i ∈ es
    · obtain ⟨rfl, c1⟩ := c1
      rw [if_pos ⟨rfl, c1⟩, if_pos ⟨rfl, c1⟩, r6, if_neg (by simp), r5]
      simp
    · rw [if_neg c1, if_neg c1, r6]
      by_cases c2 : l = .nb02 ∧ i ∈ vs
      · obtain ⟨rfl, c2⟩ := c2
        rw [if_pos ⟨rfl, c2⟩, if_pos ⟨rfl, c2⟩, r5]
        simp
      · rw [if_neg c2, if_neg c2, r5]

end AMesh

theorem mergeCell2Ds_eq {α : Type} [Zero α] (ord : List Nat → List Nat) (m : Mesh α) (subs vs es rem0 rem1 : List Nat)
    (orig : List (List Nat)) (hl : 2 ≤ subs.length) {m1 m2 : Mesh α} {t : MergeState α}
    (h1 : m.append .d2 1 = ok (m1, m.num .d2)) (ho : orig.length = m.num .d2)
    (ht : foldRes (Mesh.mergeOne .d2 (some .nb23) orig) ⟨m1, 0, [], []⟩ subs = ok t)
    (hf : t.mesh.mergeFinish2 subs vs es rem0 rem1 (m.num .d2) t.marker (ord (t.polyhedra.map Prod.fst)) = ok m2) :
    m.mergeCell2Ds ord subs vs es rem0 rem1 orig = ok (m2, m.num .d2, orig ++ [t.cells]) := by
  have v1 : vat (orig ++ [[]]) (m.num .d2) = ok [] := by
    unfold vat
    rw [← ho, List.getElem?_append_right le_rfl, Nat.sub_self]
    rfl
  have v2 : vset (orig ++ [[]]) (m.num .d2) t.cells = ok (orig ++ [t.cells]) := by
    rw [vset_of_lt _ (by rw [List.length_append]; simp [ho]), ← ho]
    simp [List.set_append]
  have e : m.mergeCell2Ds ord subs vs es rem0 rem1 orig = m.mergeMany2 ord subs vs es rem0 rem1 orig := by
    clear ht hf
    match subs, hl with
    | c :: c' :: cs, _ => rfl
  rw [e]
  unfold Mesh.mergeMany2
  rw [h1, ok_bind]
  simp only
  rw [ht, ok_bind, v1, ok_bind, v2, ok_bind, hf, ok_bind]

namespace AMesh

variable {α : Type} {A : AMesh α}

/-- The mesh before the neighbours of the parts of a new polyhedron are changed. -/
def madeA3 (A : AMesh α) (vs es fs : List Nat) (new k : Nat) : AMesh α :=
  ((((A.setRow .vert3 new vs).setRow .edge3 new es).setRow .face3 new fs).withMark .d3 new k).withAct .d3 new true

theorem ok_madeA3 (h : A.Ok) (vs es fs : List Nat) (new k : Nat) : (A.madeA3 vs es fs new k).Ok :=
  ok_withAct (ok_withMark (ok_setRow (ok_setRow (ok_setRow h _ _ _) _ _ _) _ _ _) _ _ _) _ _ _

theorem madeA3_rows (h : A.Ok) (vs es fs : List Nat) {new : Nat} (k : Nat) (hn : new < A.num .d3)
    (l : Lst) (i : Nat) : ((A.madeA3 vs es fs new k).rows l)[i]? =
      if l = .face3 ∧ i = new then some fs else if l = .edge3 ∧ i = new then some es
      else if l = .vert3 ∧ i = new then some vs else (A.rows l)[i]? := by
  have h1 := ok_setRow h .vert3 new vs
  have h2 := ok_setRow h1 .edge3 new es
  unfold madeA3
  have e : ∀ B : AMesh α, ((B.withMark .d3 new k).withAct .d3 new true).rows = B.rows := fun _ => rfl
  rw [e, setRow_rows _ _ _ _ _ _ (by rw [h2.rows]; exact hn), setRow_rows _ _ _ _ _ _ (by rw [h1.rows]; exact hn),
    setRow_rows _ _ _ _ _ _ (by rw [h.rows]; exact hn)]

/-- The mesh after the neighbours of the parts of a new polyhedron are changed. -/
def aroundA3 (A : AMesh α) (n : Nat) (subs vs es fs : List Nat) (new : Nat) : AMesh α :=
  ((A.modAll .nb03 (endRow n subs new) vs).modAll .nb13 (endRow n subs new) es).modAll .nb23 (swapRow subs new) fs

/-- The mesh after polyhedra are joined. -/
def mergedA3 (A : AMesh α) (subs vs es fs rem0 rem1 rem2 : List Nat) (new k : Nat) : AMesh α :=
  ((((A.madeA3 vs es fs new k).aroundA3 (A.num .d3) subs vs es fs new).offAll .d0 rem0).offAll .d1 rem1).offAll .d2 rem2

theorem mergeFinish3_conc (h : A.Ok) {subs vs es fs rem0 rem1 rem2 : List Nat} {new : Nat} (k : Nat)
    (hn : new < A.num .d3) (hs : ∀ c ∈ subs, c < A.num .d3) (hv : ∀ x ∈ vs, x < A.num .d0)
    (he : ∀ x ∈ es, x < A.num .d1) (hf : ∀ x ∈ fs, x < A.num .d2) (hr0 : ∀ x ∈ rem0, x < A.num .d0)
    (hr1 : ∀ x ∈ rem1, x < A.num .d1) (hr2 : ∀ x ∈ rem2, x < A.num .d2) :
    A.conc.mergeFinish3 subs vs es fs rem0 rem1 rem2 new k = ok (A.mergedA3 subs vs es fs rem0 rem1 rem2 new k).conc ∧
    (A.mergedA3 subs vs es fs rem0 rem1 rem2 new k).Ok := by
  have h1 := ok_setRow h .vert3 new vs
  have h2 := ok_setRow h1 .edge3 new es
  have h3 := ok_setRow h2 .face3 new fs
  have h4 := ok_withMark h3 .d3 new k
  have h5 := ok_madeA3 h vs es fs new k
  have r5 := madeA3_rows h vs es fs k hn
  have n5 : (A.madeA3 vs es fs new k).num = A.num := rfl
  unfold Mesh.mergeFinish3 mergedA3 aroundA3
  rw [addRow_conc h (show new < A.num (Lst.owner .vert3) from hn) (by simp) hv, ok_bind,
    addRow_conc h1 (show new < A.num (Lst.owner .edge3) from hn) (by simp) he, ok_bind,
    addRow_conc h2 (show new < A.num (Lst.owner .face3) from hn) (by simp) hf, ok_bind,
    setMark_with h3 hn, ok_bind, setAct_with h4 hn, ok_bind]
  show (do
    let m ← (A.madeA3 vs es fs new k).conc.around _ _ _
    let m ← m.around .edge3 new (fun m x => m.joinEnd .nb13 subs new x)
    let m ← m.around .face3 new (fun m x => m.replaceEnd .nb23 subs new x)
    let m ← m.switchOff .d0 rem0
    let m ← m.switchOff .d1 rem1
    m.switchOff .d2 rem2) = _ ∧ _
  generalize A.madeA3 vs es fs new k = B at *
  have h6 := ok_modAll h5 .nb03 (endRow (A.num .d3) subs new) vs
  have r6 : ∀ l, l ≠ .nb03 → (B.modAll .nb03 (endRow (A.num .d3) subs new) vs).rows l = B.rows l :=
    fun l hl => modAll_rows_ne _ _ _ _ hl
  have n6 := (modAll_same B .nb03 (endRow (A.num .d3) subs new) vs).1.num
  rw [around_conc h5 (b := .vert3) (l := .nb03) (by simp) (xs := vs) (f := endRow (A.num .d3) subs new)
    (by rw [r5]; simp) (by rw [n5]; exact hv), ok_bind]
  · generalize B.modAll .nb03 (endRow (A.num .d3) subs new) vs = C at *
    have h7 := ok_modAll h6 .nb13 (endRow (A.num .d3) subs new) es
    have r7 : ∀ l, l ≠ .nb13 → (C.modAll .nb13 (endRow (A.num .d3) subs new) es).rows l = C.rows l :=
      fun l hl => modAll_rows_ne _ _ _ _ hl
    have n7 := (modAll_same C .nb13 (endRow (A.num .d3) subs new) es).1.num
    rw [around_conc h6 (b := .edge3) (l := .nb13) (by simp) (xs := es) (f := endRow (A.num .d3) subs new)
      (by rw [r6 _ (by simp), r5]; simp) (by rw [n6, n5]; exact he), ok_bind]
    · generalize C.modAll .nb13 (endRow (A.num .d3) subs new) es = D at *
      have h8 := ok_modAll h7 .nb23 (swapRow subs new) fs
      have n8 := (modAll_same D .nb23 (swapRow subs new) fs).1.num
      rw [around_conc h7 (b := .face3) (l := .nb23) (by simp) (xs := fs) (f := swapRow subs new)
        (by rw [r7 _ (by simp), r6 _ (by simp), r5]; simp) (by rw [n7, n6, n5]; exact hf), ok_bind]
      · generalize D.modAll .nb23 (swapRow subs new) fs = E at *
        have h9 := ok_offAll h8 .d0 rem0
        have n9 := (sameFrame_offAll E .d0 rem0).num
        have h10 := ok_offAll h9 .d1 rem1
        have n10 := (sameFrame_offAll (E.offAll .d0 rem0) .d1 rem1).num
        unfold Mesh.switchOff
        rw [offAll_conc h8 (by rw [n8, n7, n6, n5]; exact hr0), ok_bind,
          offAll_conc h9 (by rw [n9, n8, n7, n6, n5]; exact hr1), ok_bind,
          offAll_conc h10 (by rw [n10, n9, n8, n7, n6, n5]; exact hr2)]
        exact ⟨rfl, ok_offAll h10 _ _⟩
      · intro X hX hXn x r hr
        have hXn' : X.num .d3 = A.num .d3 := by rw [hXn, n7, n6, n5]
        exact replaceEnd_conc hX (l := .nb23) hr
          (fun c hc => by rw [show Lst.target .nb23 = .d3 from rfl, hXn']; exact hs c hc)
          (by rw [show Lst.target .nb23 = .d3 from rfl, hXn']; exact hn)
    · intro X hX hXn x r hr
      have hXn' : X.num .d3 = A.num .d3 := by rw [hXn, n6, n5]
      rw [joinEnd_conc hX (l := .nb13) hr rfl (by rw [show Lst.target .nb13 = .d3 from rfl, hXn']; exact hn)]
      rw [show Lst.target .nb13 = .d3 from rfl, hXn']
  · intro X hX hXn x r hr
    have hXn' : X.num .d3 = A.num .d3 := by rw [hXn, n5]
    rw [joinEnd_conc hX (l := .nb03) hr rfl (by rw [show Lst.target .nb03 = .d3 from rfl, hXn']; exact hn)]
    rw [show Lst.target .nb03 = .d3 from rfl, hXn']

theorem aroundA3_facts (h : A.Ok) (n : Nat) (subs : List Nat) {vs es fs : List Nat} (new : Nat)
    (hv : ∀ x ∈ vs, x < A.num .d0) (he : ∀ x ∈ es, x < A.num .d1) (hf : ∀ x ∈ fs, x < A.num .d2)
    (nv : vs.Nodup) (ne : es.Nodup) (nf : fs.Nodup) :
    SameFrame A (A.aroundA3 n subs vs es fs new) ∧ (A.aroundA3 n subs vs es fs new).mark = A.mark ∧
    (A.aroundA3 n subs vs es fs new).act = A.act ∧
    ∀ l i, ((A.aroundA3 n subs vs es fs new).rows l)[i]? =
      if l = .nb23 ∧ i ∈ fs then ((A.rows l)[i]?).map (swapRow subs new)
      else if l = .nb13 ∧ i ∈ es then ((A.rows l)[i]?).map (endRow n subs new)
      else if l = .nb03 ∧ i ∈ vs then ((A.rows l)[i]?).map (endRow n subs new) else (A.rows l)[i]? := by
  unfold aroundA3
  have h6 := ok_modAll h .nb03 (endRow n subs new) vs
  obtain ⟨s6, m6, a6⟩ := modAll_same A .nb03 (endRow n subs new) vs
  have r6 := modAll_rows h .nb03 (endRow n subs new) nv hv
  generalize A.modAll .nb03 (endRow n subs new) vs = B at *
  have h7 := ok_modAll h6 .nb13 (endRow n subs new) es
  obtain ⟨s7, m7, a7⟩ := modAll_same B .nb13 (endRow n subs new) es
  have r7 := modAll_rows h6 .nb13 (endRow n subs new) ne (by rw [s6.num]; exact he)
  generalize B.modAll .nb13 (endRow n subs new) es = C at *
  obtain ⟨s8, m8, a8⟩ := modAll_same C .nb23 (swapRow subs new) fs
  have r8 := modAll_rows h7 .nb23 (swapRow subs new) nf (by rw [s7.num, s6.num]; exact hf)
  refine ⟨(s6.trans s7).trans s8, by rw [m8, m7, m6], by rw [a8, a7, a6], ?_⟩
  intro l i
  rw [r8]
  by_cases c1 : l = .nb23 ∧ i ∈ fs
  · obtain ⟨rfl, c1⟩ := c1
    rw [if_pos ⟨rfl, c1⟩, if_pos ⟨rfl, c1⟩, r7, if_neg (by simp), r6, if_neg (by simp)]
  · rw [if_neg c1, if_neg c1, r7]
    by_cases c2 : l = .nb13 ∧ i ∈ es
    · obtain ⟨rfl, c2⟩ := c2
      rw [if_pos ⟨rfl, c2⟩, if_pos ⟨rfl, c2⟩, r6, if_neg (by simp)]
    · rw [if_neg c2, if_neg c2, r6]
      by_cases c3 : l = .nb03 ∧ i ∈ vs
      · obtain ⟨rfl, c3⟩ := c3
        rw [if_pos ⟨rfl, c3⟩]
      · rw [if_neg c3, if_neg c3]

theorem offAll_act_length (A : AMesh α) (d : Dim) (cs : List Nat) (d' : Dim) :
    ((A.offAll d cs).act d').length = (A.act d').length := by
  have a8 := offAll_act A d cs d'
  generalize (A.offAll d cs).act d' = E at *
  by_contra hh
  rcases Nat.lt_or_gt_of_ne hh with hh | hh
  · have := a8 E.length
    rw [List.getElem?_eq_none le_rfl, List.getElem?_eq_getElem hh] at this
    split at this <;> simp at this
  · have := a8 (A.act d').length
    rw [List.getElem?_eq_none (l := A.act d') le_rfl, List.getElem?_eq_getElem hh] at this
    simp at this

theorem mergedA3_facts (h : A.Ok) (subs : List Nat) {vs es fs : List Nat} (rem0 rem1 rem2 : List Nat) {new : Nat}
    (k : Nat) (hn : new < A.num .d3) (hv : ∀ x ∈ vs, x < A.num .d0) (he : ∀ x ∈ es, x < A.num .d1)
    (hf : ∀ x ∈ fs, x < A.num .d2) (nv : vs.Nodup) (ne : es.Nodup) (nf : fs.Nodup) (F : AMesh α)
    (hF : A.mergedA3 subs vs es fs rem0 rem1 rem2 new k = F) :
    SameFrame A F ∧ F.mark = fset A.mark .d3 ((A.mark .d3).set new k) ∧
    (∀ d i, (F.act d)[i]? = if (d = .d2 ∧ i ∈ rem2 ∧ i < (A.act d).length) ∨
        (d = .d1 ∧ i ∈ rem1 ∧ i < (A.act d).length) ∨ (d = .d0 ∧ i ∈ rem0 ∧ i < (A.act d).length)
      then some false else (fset A.act .d3 ((A.act .d3).set new true) d)[i]?) ∧
    ∀ l i, (F.rows l)[i]? = if l = .nb23 ∧ i ∈ fs then ((A.rows l)[i]?).map (swapRow subs new)
      else if l = .nb13 ∧ i ∈ es then ((A.rows l)[i]?).map (endRow (A.num .d3) subs new)
      else if l = .nb03 ∧ i ∈ vs then ((A.rows l)[i]?).map (endRow (A.num .d3) subs new)
      else if l = .face3 ∧ i = new then some fs else if l = .edge3 ∧ i = new then some es
      else if l = .vert3 ∧ i = new then some vs else (A.rows l)[i]? := by
  have h5 := ok_madeA3 h vs es fs new k
  have r5 := madeA3_rows h vs es fs k hn
  have s5 : SameFrame A (A.madeA3 vs es fs new k) :=
    ((((sameFrame_setRow _ _ _ _).trans (sameFrame_setRow _ _ _ _)).trans (sameFrame_setRow _ _ _ _)).trans
      (sameFrame_withMark _ _ _ _)).trans (sameFrame_withAct _ _ _ _)
  have m5 : (A.madeA3 vs es fs new k).mark = fset A.mark .d3 ((A.mark .d3).set new k) := rfl
  have a5 : (A.madeA3 vs es fs new k).act = fset A.act .d3 ((A.act .d3).set new true) := rfl
  unfold mergedA3 at hF
  generalize A.madeA3 vs es fs new k = B at *
  obtain ⟨s6, m6, a6, r6⟩ := aroundA3_facts h5 (A.num .d3) subs new (by rw [s5.num]; exact hv)
    (by rw [s5.num]; exact he) (by rw [s5.num]; exact hf) nv ne nf
  generalize B.aroundA3 (A.num .d3) subs vs es fs new = D at *
  have s8 := sameFrame_offAll D .d0 rem0
  have a8 := offAll_act D .d0 rem0
  have l8 := offAll_act_length D .d0 rem0
  obtain ⟨-, -, -, -, m8, -, -, -, -, r8⟩ := offAll_frame D .d0 rem0
  generalize D.offAll .d0 rem0 = E at *
  have s9 := sameFrame_offAll E .d1 rem1
  have a9 := offAll_act E .d1 rem1
  have l9 := offAll_act_length E .d1 rem1
  obtain ⟨-, -, -, -, m9, -, -, -, -, r9⟩ := offAll_frame E .d1 rem1
  generalize E.offAll .d1 rem1 = H at *
  have s10 := sameFrame_offAll H .d2 rem2
  have a10 := offAll_act H .d2 rem2
  obtain ⟨-, -, -, -, m10, -, -, -, -, r10⟩ := offAll_frame H .d2 rem2
  rw [hF] at s10 a10 m10 r10
  have aD : D.act = fset A.act .d3 ((A.act .d3).set new true) := by rw [a6, a5]
  refine ⟨((((s5.trans s6).trans s8).trans s9).trans s10), ?_, ?_, ?_⟩
  · rw [m10, m9, m8, m6, m5]
  · intro d i
    rw [a10, a9, a8]
    have hAl : (D.act d).length = (A.act d).length := by
      rw [aD]
      cases d <;> simp [fset]
    rw [l9, l8, hAl, aD]
    by_cases c2 : d = .d2 ∧ i ∈ rem2 ∧ i < (A.act d).length
    · rw [if_pos c2, if_pos (Or.inl c2)]
    · rw [if_neg c2]
      by_cases c1 : d = .d1 ∧ i ∈ rem1 ∧ i < (A.act d).length
      · rw [if_pos c1, if_pos (Or.inr (Or.inl c1))]
      · rw [if_neg c1]
        by_cases c0 : d = .d0 ∧ i ∈ rem0 ∧ i < (A.act d).length
        · rw [if_pos c0, if_pos (Or.inr (Or.inr c0))]
        · rw [if_neg c0, if_neg (by rintro (c | c | c) <;> contradiction)]
  · intro l i
    rw [r10, r9, r8, r6]
    by_cases c1 : l = .nb23 ∧ i ∈ fs
    · obtain ⟨rfl, c1⟩ := c1
      rw [if_pos ⟨rfl, c1⟩, if_pos ⟨rfl, c1⟩, r5]
      simp
    · rw [if_neg c1, if_neg c1]
      by_cases c2 : l = .nb13 ∧ i ∈ es
      · obtain ⟨rfl, c2⟩ := c2
        rw [if_pos ⟨rfl, c2⟩, if_pos ⟨rfl, c2⟩, r5]
        simp
      · rw [if_neg c2, if_neg c2]
        by_cases c3 : l = .nb03 ∧ i ∈ vs
        · obtain ⟨rfl, c3⟩ := c3
          rw [if_pos ⟨rfl, c3⟩, if_pos ⟨rfl, c3⟩, r5]
          simp
        · rw [if_neg c3, if_neg c3, r5]

end AMesh

theorem mergeCell3Ds_eq {α : Type} [Zero α] (m : Mesh α) (subs vs es fs rem0 rem1 rem2 : List Nat)
    (orig : List (List Nat)) (hl : 2 ≤ subs.length) {m1 m2 : Mesh α} {t : MergeState α}
    (h1 : m.append .d3 1 = ok (m1, m.num .d3)) (ho : orig.length = m.num .d3)
    (ht : foldRes (Mesh.mergeOne .d3 none orig) ⟨m1, 0, [], []⟩ subs = ok t)
    (hf : t.mesh.mergeFinish3 subs vs es fs rem0 rem1 rem2 (m.num .d3) t.marker = ok m2) :
    m.mergeCell3Ds subs vs es fs rem0 rem1 rem2 orig = ok (m2, m.num .d3, orig ++ [t.cells]) := by
  have v1 : vat (orig ++ [[]]) (m.num .d3) = ok [] := by
    unfold vat
    rw [← ho, List.getElem?_append_right le_rfl, Nat.sub_self]
    rfl
  have v2 : vset (orig ++ [[]]) (m.num .d3) t.cells = ok (orig ++ [t.cells]) := by
    rw [vset_of_lt _ (by rw [List.length_append]; simp [ho]), ← ho]
    simp [List.set_append]
  have e : m.mergeCell3Ds subs vs es fs rem0 rem1 rem2 orig = m.mergeMany3 subs vs es fs rem0 rem1 rem2 orig := by
    clear ht hf
    match subs, hl with
    | c :: c' :: cs, _ => rfl
  rw [e]
  unfold Mesh.mergeMany3
  rw [h1, ok_bind]
  simp only
  rw [ht, ok_bind, v1, ok_bind, v2, ok_bind, hf, ok_bind]

namespace AMesh

variable {α : Type} {A : AMesh α}

theorem restOf_succ {n : Nat} {subs r : List Nat} (h : n ∉ r) : restOf (n + 1) subs r = restOf n subs r := by
  unfold restOf
  apply List.filter_congr
  intro y hy
  have hne : y ≠ n := fun e => h (e ▸ hy)
  apply decide_eq_decide.2
  constructor
  · rintro ⟨u, v⟩; exact ⟨by omega, v⟩
  · rintro ⟨u, v⟩; exact ⟨by omega, v⟩

theorem othersAndNew_conc (hA : A.Ok) {F : AMesh α} (hF : F.Ok) {l : Lst} {subs : List Nat} {x : Nat}
    (hfresh : ∀ r, A.conc.row l x = ok r → A.num l.target ∉ r)
    (h : (F.rows l)[x]? = ((A.rows l)[x]?).map (endRow (A.num l.target + 1) subs (A.num l.target))) :
    OthersAndNew A.conc F.conc l subs (A.num l.target) x := by
  intro r hr
  have hr' := row_eq_ok hA hr
  rw [hr', Option.map_some] at h
  rw [row_conc hF h]
  unfold endRow
  rw [restOf_succ (hfresh r hr), show A.conc.num = A.num from rfl]
  constructor
  · intro hh
    rw [if_neg hh]
  · intro hh
    rw [if_pos hh]

theorem joinedReplaced_conc (hA : A.Ok) {F : AMesh α} (hF : F.Ok) {l : Lst} {subs : List Nat} {new x : Nat}
    (h : (F.rows l)[x]? = ((A.rows l)[x]?).map (swapRow subs new)) :
    JoinedReplaced A.conc F.conc l subs new x := by
  intro r hr
  rw [row_eq_ok hA hr, Option.map_some] at h
  exact row_conc hF h

end AMesh

end Verif
