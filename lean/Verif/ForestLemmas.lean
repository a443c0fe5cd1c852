/-
Helper lemmas for the refinement forest.
-/
import Verif.ForestModel
import Verif.ForestSpec
import Verif.MeshGetLemmas
import Mathlib.Data.Finset.Card
import Mathlib.Data.Finset.Range
import Mathlib.Tactic.Choose

namespace Verif

open Res

namespace Mesh

variable {α : Type}

theorem updated_of_lt {m : Mesh α} {d : Dim} {c : Nat} (h : c < m.num d) :
    m.updated d c = ok (mapFind (m.upd d) c) := by
  unfold Mesh.updated; rw [assert_true h]; rfl

theorem child_iff {m : Mesh α} (h : m.WF) {d : Dim} {c x : Nat} :
    m.Child d c x ↔ ∃ s, (c, s) ∈ m.upd d ∧ x ∈ s := by
  constructor
  · rintro ⟨s, hs, hx⟩
    by_cases hc : c < m.num d
    · rw [updated_of_lt hc] at hs
      cases hf : mapFind (m.upd d) c with
      | none => rw [hf] at hs; cases hs
      | some t =>
        rw [hf] at hs
        cases hs
        exact ⟨s, (mapFind_eq_some (h.upd d).keys).1 hf, hx⟩
    · unfold Mesh.updated at hs; rw [assert_false hc] at hs; cases hs
  · rintro ⟨s, hs, hx⟩
    have hc := (h.upd d).key_lt _ hs
    refine ⟨s, ?_, hx⟩
    rw [updated_of_lt hc, (mapFind_eq_some (h.upd d).keys).2 hs]

theorem child_lt {m : Mesh α} (h : m.WF) {d : Dim} {c x : Nat} (hc : m.Child d c x) :
    c < m.num d ∧ x < m.num d := by
  obtain ⟨s, hs, hx⟩ := (child_iff h).1 hc
  exact ⟨(h.upd d).key_lt _ hs, (h.upd d).val_lt _ hs x hx⟩

open Classical in
/-- Number of proper descendants. -/
noncomputable def rank (m : Mesh α) (d : Dim) (c : Nat) : Nat :=
  ((Finset.range (m.num d)).filter fun x => Relation.TransGen (m.Child d) c x).card

theorem rank_le (m : Mesh α) (d : Dim) (c : Nat) : m.rank d c ≤ m.num d := by
  classical
  unfold rank
  refine (Finset.card_filter_le _ _).trans ?_
  simp

theorem rank_lt {m : Mesh α} (h : m.WF) {d : Dim} (ha : m.Acyclic d) {c x : Nat}
    (hc : m.Child d c x) : m.rank d x < m.rank d c := by
  unfold rank
  apply Finset.card_lt_card
  rw [Finset.ssubset_iff_of_subset]
  · refine ⟨x, ?_, ?_⟩
    · simp only [Finset.mem_filter, Finset.mem_range]
      exact ⟨(child_lt h hc).2, .single hc⟩
    · simp only [Finset.mem_filter, not_and]
      intro _; exact ha x
  · intro y hy
    simp only [Finset.mem_filter] at hy ⊢
    exact ⟨hy.1, .head hc hy.2⟩

/-- What `updatedCells` computes on an acyclic update relation. -/
theorem updatedCells_spec {m : Mesh α} (h : m.WF) {d : Dim} (ha : m.Acyclic d) (n : Nat) :
    ∀ c, c < m.num d → m.rank d c = n →
    ∃ L, (∀ fuel acc, n < fuel →
        m.updatedCells d fuel c acc = ok (acc ++ L, (mapFind (m.upd d) c).isNone)) ∧
      (∀ x, x ∈ L ↔ m.Descends d c x ∧ mapFind (m.upd d) x = none) ∧ L ≠ [] ∧
      (m.SingleParent d → L.Nodup) := by
  induction n using Nat.strong_induction_on with
  | _ n ih =>
  intro c hc hrank
  cases hf : mapFind (m.upd d) c with
  | none =>
    refine ⟨[c], ?_, ?_, by simp, by simp⟩
    · intro fuel acc hfuel
      obtain ⟨fuel, rfl⟩ : ∃ f, fuel = f + 1 := ⟨fuel - 1, by omega⟩
      simp only [updatedCells, assert_true hc, ok_bind, hf, Option.isNone_none]
    · intro x
      simp only [List.mem_singleton]
      constructor
      · rintro rfl; exact ⟨.refl, hf⟩
      · rintro ⟨hd, _⟩
        rcases Relation.ReflTransGen.cases_head hd with rfl | ⟨y, hy, _⟩
        · rfl
        · obtain ⟨s, hs, _⟩ := hy
          rw [updated_of_lt hc, hf] at hs; cases hs
  | some s =>
    have hmem := (mapFind_eq_some (h.upd d).keys).1 hf
    have hchild : ∀ x ∈ s, m.Child d c x := fun x hx => (child_iff h).2 ⟨s, hmem, hx⟩
    have hchild' : ∀ x, m.Child d c x → x ∈ s := by
      rintro x ⟨t, ht, hx⟩
      rw [updated_of_lt hc, hf] at ht
      cases ht
      exact hx
    have key : ∀ x, ∃ L, x ∈ s → (∀ fuel acc, m.rank d x < fuel →
        m.updatedCells d fuel x acc = ok (acc ++ L, (mapFind (m.upd d) x).isNone)) ∧
        (∀ y, y ∈ L ↔ m.Descends d x y ∧ mapFind (m.upd d) y = none) ∧ L ≠ [] ∧
        (m.SingleParent d → L.Nodup) := by
      intro x
      by_cases hx : x ∈ s
      · have hr := rank_lt h ha (hchild x hx)
        obtain ⟨L, hL⟩ := ih _ (by omega) x (child_lt h (hchild x hx)).2 rfl
        exact ⟨L, fun _ => hL⟩
      · exact ⟨[], fun h => absurd h hx⟩
    choose F hF using key
    refine ⟨s.flatMap F, ?_, ?_, ?_, ?_⟩
    · intro fuel acc hfuel
      obtain ⟨fuel, rfl⟩ : ∃ f, fuel = f + 1 := ⟨fuel - 1, by omega⟩
      have hfold : ∀ (t : List Nat) (acc : List Nat), (∀ x ∈ t, x ∈ s) →
          foldRes (fun acc child => do
            let r ← m.updatedCells d fuel child acc
            ok r.1) acc t = ok (acc ++ t.flatMap F) := by
        intro t
        induction t with
        | nil => intro acc _; simp
        | cons x t iht =>
          intro acc ht
          have hx := ht x (by simp)
          have hr := rank_lt h ha (hchild x hx)
          rw [foldRes_cons, (hF x hx).1 fuel acc (by omega)]
          simp only [ok_bind]
          rw [iht _ (fun y hy => ht y (by simp [hy]))]
          simp
      simp only [updatedCells, assert_true hc, ok_bind, hf, hfold s acc (fun x hx => hx),
        Option.isNone_some]
    · intro x
      simp only [List.mem_flatMap]
      constructor
      · rintro ⟨y, hy, hx⟩
        obtain ⟨h1, h2⟩ := ((hF y hy).2.1 x).1 hx
        exact ⟨.head (hchild y hy) h1, h2⟩
      · rintro ⟨hd, hx⟩
        rcases Relation.ReflTransGen.cases_head hd with rfl | ⟨y, hy, hyx⟩
        · rw [hf] at hx; cases hx
        · exact ⟨y, hchild' y hy, ((hF y (hchild' y hy)).2.1 x).2 ⟨hyx, hx⟩⟩
    · intro hnil
      cases s with
      | nil => exact (h.upd d).val_ne _ hmem rfl
      | cons x s =>
        simp only [List.flatMap_cons, List.append_eq_nil_iff] at hnil
        exact (hF x (by simp)).2.2.1 hnil.1
    · intro hsp
      rw [List.nodup_flatMap]
      refine ⟨fun x hx => (hF x hx).2.2.2 hsp, ?_⟩
      refine List.Pairwise.imp_of_mem ?_ ((h.upd d).val_nodup _ hmem)
      intro a b hma hmb hab
      show List.Disjoint (F a) (F b)
      intro y hya hyb
      have h1 := (((hF a hma).2.1 y).1 hya).1
      have h2 := (((hF b hmb).2.1 y).1 hyb).1
      have hfun : Relator.RightUnique (Function.swap (m.Child d)) := by
        intro x p q hp hq; exact hsp p q x hp hq
      have t1 := Relation.reflTransGen_swap.2 h1
      have t2 := Relation.reflTransGen_swap.2 h2
      have htot := Relation.ReflTransGen.total_of_right_unique hfun t1 t2
      have hno : ∀ a b, a ∈ s → b ∈ s → a ≠ b → ¬ m.Descends d a b := by
        intro a b hma hmb hab hdesc
        rcases Relation.ReflTransGen.cases_tail hdesc with rfl | ⟨p, hp, hpb⟩
        · exact hab rfl
        · have hpc := hsp p c b hpb (hchild b hmb)
          subst hpc
          exact ha p (Relation.TransGen.head' (hchild a hma) hp)
      rcases htot with h3 | h3
      · exact hno b a hmb hma (Ne.symm hab) (Relation.reflTransGen_swap.1 h3)
      · exact hno a b hma hmb hab (Relation.reflTransGen_swap.1 h3)

/-! ### Invariants of call sequences -/

/-- Every original cell is at least `B` (absent) or lists the cell among its updated cells. -/
def OrigOk (m : Mesh α) (d : Dim) (B : Nat) : Prop :=
  ∀ x p, (m.orig d)[x]? = some p → B ≤ p ∨ ∃ s, (p, s) ∈ m.upd d ∧ x ∈ s

/-- Updated cells have larger numbers. -/
def Upward (m : Mesh α) (d : Dim) : Prop :=
  ∀ p s, (p, s) ∈ m.upd d → ∀ x ∈ s, p < x

/-- The parts of the record that the forest depends on. -/
def SameForest (m m' : Mesh α) : Prop := m'.orig = m.orig ∧ m'.upd = m.upd ∧ m'.num = m.num

theorem SameForest.trans {a b c : Mesh α} (h : SameForest a b) (h' : SameForest b c) :
    SameForest a c := ⟨h'.1.trans h.1, h'.2.1.trans h.2.1, h'.2.2.trans h.2.2⟩

theorem assert_eq_ok {p : Prop} [Decidable p] {u : PUnit} : assert p = ok u ↔ p := by
  unfold assert; split <;> simp_all

theorem insertEntry_same {m m' : Mesh α} {l : Lst} {i k v : Nat} (h : m.insertEntry l i k v = ok m') :
    SameForest m m' := by
  simp only [insertEntry, bind_eq_ok] at h
  obtain ⟨_, _, s, _, _, _, _, _, c, _, h⟩ := h
  cases h
  exact ⟨rfl, rfl, rfl⟩

theorem resizeRowOf_same {m m' : Mesh α} {l : Lst} {i k : Nat} (h : m.resizeRowOf l i k = ok m') :
    SameForest m m' := by
  simp only [resizeRowOf, bind_eq_ok] at h
  obtain ⟨_, _, _, _, c, _, h⟩ := h
  cases h
  exact ⟨rfl, rfl, rfl⟩

theorem insertFrom_same {l : Lst} {i : Nat} {vs : List Nat} {k : Nat} {m m' : Mesh α}
    (h : m.insertFrom l i k vs = ok m') : SameForest m m' := by
  induction vs generalizing m k with
  | nil => cases h; exact ⟨rfl, rfl, rfl⟩
  | cons v vs ih =>
    simp only [insertFrom, bind_eq_ok] at h
    obtain ⟨m1, h1, h2⟩ := h
    exact (insertEntry_same h1).trans (ih h2)

theorem insertPairsFrom_same {i : Nat} {ps : List (Nat × Nat)} {k : Nat} {m m' : Mesh α}
    (h : m.insertPairsFrom i k ps = ok m') : SameForest m m' := by
  induction ps generalizing m k with
  | nil => cases h; exact ⟨rfl, rfl, rfl⟩
  | cons p ps ih =>
    obtain ⟨v, e⟩ := p
    simp only [insertPairsFrom, bind_eq_ok] at h
    obtain ⟨m1, h1, m2, h2, h3⟩ := h
    exact ((insertEntry_same h1).trans (insertEntry_same h2)).trans (ih h3)

/-- Every call except `CellXDsInitialize`, `CellXDAppend`, `CellXDRemove` and
`CellXDInsertUpdatedCellXD` leaves the forest alone. -/
theorem step_same [Zero α] {m m' : Mesh α} {o : Op α} (h : m.step o = ok m')
    (h1 : ∀ d n, o ≠ .init d n) (h2 : ∀ d n, o ≠ .append d n) (h3 : ∀ d i, o ≠ .remove d i)
    (h4 : ∀ d i j, o ≠ .insertUpd d i j) : SameForest m m' := by
  cases o with
  | init d n => exact absurd rfl (h1 d n)
  | append d n => exact absurd rfl (h2 d n)
  | remove d i => exact absurd rfl (h3 d i)
  | insertUpd d i j => exact absurd rfl (h4 d i j)
  | initDim n => cases h; exact ⟨rfl, rfl, rfl⟩
  | insertCoord i x y z =>
    simp only [step, insertCoord, bind_eq_ok] at h
    obtain ⟨_, _, _, _, _, _, _, _, h⟩ := h
    cases h; exact ⟨rfl, rfl, rfl⟩
  | insertExt i a b =>
    simp only [step, insertExt, bind_eq_ok] at h
    obtain ⟨_, _, _, _, _, _, h⟩ := h
    cases h; exact ⟨rfl, rfl, rfl⟩
  | setMark d i a =>
    simp only [step, setMark, bind_eq_ok] at h
    obtain ⟨_, _, _, _, h⟩ := h
    cases h; exact ⟨rfl, rfl, rfl⟩
  | setAct d i a =>
    simp only [step, setAct, bind_eq_ok] at h
    obtain ⟨_, _, _, _, h⟩ := h
    cases h; exact ⟨rfl, rfl, rfl⟩
  | initRows l sizes =>
    simp only [step, initRows, bind_eq_ok] at h
    obtain ⟨_, _, h⟩ := h
    cases h; exact ⟨rfl, rfl, rfl⟩
  | initRowsConst l k => cases h; exact ⟨rfl, rfl, rfl⟩
  | resizeRow l i k => exact resizeRowOf_same h
  | insertEntry l i k v => exact insertEntry_same h
  | resetNeighbour l i k =>
    simp only [step, resetNeighbour, bind_eq_ok] at h
    obtain ⟨_, _, h⟩ := h
    cases h; exact ⟨rfl, rfl, rfl⟩
  | addRow l i vs =>
    simp only [step, addRow, bind_eq_ok] at h
    obtain ⟨m1, h1, h2⟩ := h
    exact (resizeRowOf_same h1).trans (insertFrom_same h2)
  | addVerticesAndEdges i ps =>
    simp only [step, addVerticesAndEdges, bind_eq_ok] at h
    obtain ⟨m1, h1, m2, h2, h3⟩ := h
    exact ((resizeRowOf_same h1).trans (resizeRowOf_same h2)).trans (insertPairsFrom_same h3)
  | addProp d id =>
    simp only [step, addProp, bind_eq_ok] at h
    obtain ⟨_, ⟨_, _, h⟩, h'⟩ := h
    cases h; cases h'; exact ⟨rfl, rfl, rfl⟩
  | initPropAll d p sizes =>
    simp only [step, initPropAll, bind_eq_ok] at h
    obtain ⟨_, _, _, _, _, _, _, _, h⟩ := h
    cases h; exact ⟨rfl, rfl, rfl⟩
  | initPropRow d i p k =>
    simp only [step, initPropRow, bind_eq_ok] at h
    obtain ⟨_, _, _, _, _, _, _, _, _, _, h⟩ := h
    cases h; exact ⟨rfl, rfl, rfl⟩
  | insertProp d i p k v =>
    simp only [step, insertProp, bind_eq_ok] at h
    obtain ⟨_, _, _, _, _, _, _, _, _, _, h⟩ := h
    cases h; exact ⟨rfl, rfl, rfl⟩

theorem insertUpd_ok {m m' : Mesh α} {e : Dim} {i j : Nat} (h : m.insertUpd e i j = ok m') :
    i < m.num e ∧ j < m.num e ∧ m'.num = m.num ∧
      m'.upd = fset m.upd e (updInsert (m.upd e) i j) ∧
      m'.orig = if e = .d0 then m.orig else fset m.orig e ((m.orig e).set j i) := by
  rw [insertUpd_eq] at h
  simp only [bind_eq_ok] at h
  obtain ⟨_, hi, _, hj, h⟩ := h
  rw [assert_eq_ok] at hi hj
  refine ⟨hi, hj, ?_⟩
  by_cases he : e = .d0
  · rw [if_pos he] at h
    cases h
    exact ⟨rfl, rfl, by rw [if_pos he]⟩
  · rw [if_neg he, bind_eq_ok] at h
    obtain ⟨o, ho, h⟩ := h
    unfold vset at ho
    split at ho
    · cases ho
      cases h
      exact ⟨rfl, rfl, by rw [if_neg he]⟩
    · cases ho

theorem notInit_of {m : Mesh α} {o : Op α} (h : o.notInit) : m.InitGuarded o := by
  cases o <;> first | trivial | exact absurd h (by simp [Op.notInit])

/-- One call preserves the invariant on original cells. -/
theorem step_orig [Zero α] {m m' : Mesh α} {o : Op α} (hw : m.WF) (hn : o.notInit)
    (h : m.step o = ok m') {d : Dim} (hd : d ≠ .d0) {B : Nat} (hB : B ≤ UINT_MAX)
    (ho : m.OrigOk d B) (hb : m.num d + o.load ≤ B) :
    ∃ B', B' ≤ UINT_MAX ∧ m'.OrigOk d B' ∧ m'.num d + B ≤ m.num d + o.load + B' := by
  by_cases h1 : ∃ e k, o = .append e k
  · obtain ⟨e, k, rfl⟩ := h1
    obtain ⟨A, hA, rfl⟩ := AMesh.exists_conc hw
    simp only [step, AMesh.append_conc hA, ok_bind] at h
    cases h
    refine ⟨B, hB, ?_, ?_⟩
    · intro x p hp
      have hp' : ((if e = .d0 then A.orig else
        fset A.orig e (A.orig e ++ List.replicate k UINT_MAX)) d)[x]? = some p := hp
      clear hp
      by_cases hed : e = d
      · subst hed
        rw [if_neg hd, fset_self] at hp'
        by_cases hx : x < (A.orig e).length
        · rw [List.getElem?_append_left hx] at hp'
          exact ho x p hp'
        · rw [List.getElem?_append_right (by omega), List.getElem?_replicate] at hp'
          split at hp'
          · cases hp'; exact .inl hB
          · cases hp'
      · split at hp'
        · exact ho x p hp'
        · rw [fset_ne _ _ (Ne.symm hed)] at hp'
          exact ho x p hp'
    · show fset A.num e (A.num e + k) d + B ≤ A.num d + k + B
      by_cases hed : d = e
      · subst hed; rw [fset_self]
      · rw [fset_ne _ _ hed]; omega
  by_cases h2 : ∃ e i, o = .remove e i
  · obtain ⟨e, i, rfl⟩ := h2
    obtain ⟨A, hA, rfl⟩ := AMesh.exists_conc hw
    by_cases hi : i < A.num e
    · simp only [step, AMesh.remove_conc hA e hi] at h
      cases h
      by_cases hed : d = e
      · subst hed
        have hb' : A.num d ≤ B := by simpa [Op.load] using hb
        refine ⟨B - 1, by omega, ?_, ?_⟩
        · intro x p hp
          have hp' : ((if d = .d0 then A.orig else
            fset A.orig d (((A.orig d).eraseIdx i).map (align i UINT_MAX))) d)[x]? = some p := hp
          rw [if_neg hd, fset_self, List.getElem?_map, getElem?_eraseIdx_old] at hp'
          cases hq : (A.orig d)[oldIndex i x]? with
          | none => rw [hq] at hp'; cases hp'
          | some q =>
            rw [hq] at hp'
            simp only [Option.map_some, Option.some.injEq] at hp'
            subst hp'
            rcases ho _ q hq with hq2 | ⟨s, hs, hx⟩
            · left
              unfold align
              rw [if_pos (by omega)]; omega
            · have hs' : (q, s) ∈ A.upd d := hs
              by_cases hqi : q = i
              · left; simp [align, hqi]; omega
              · right
                have hql := (hA.upd d).key_lt _ hs'
                simp only at hql
                have hf := (refFollows_align (new := UINT_MAX) hi
                  (by omega : A.num d - 1 ≤ UINT_MAX)).1 hql hqi
                have hxl := List.getElem?_eq_some_iff.1 hq
                obtain ⟨hxl, _⟩ := hxl
                rw [hA.orig d hd] at hxl
                have hxm : x ∈ alignSet i (A.num d - 1) s := by
                  rw [mem_alignSet hi ((hA.upd d).val_lt _ hs')]
                  refine ⟨?_, hx⟩
                  unfold oldIndex at hxl
                  split at hxl <;> omega
                refine ⟨alignSet i (A.num d - 1) s, ?_, hxm⟩
                show _ ∈ fset A.upd d _ d
                rw [fset_self]
                refine (mem_updRemove hi (hA.upd d) _ _).2 ⟨?_, s, ?_, rfl⟩
                · intro hnil; rw [hnil] at hxm; cases hxm
                · rw [hf.2]; exact hs'
        · show fset A.num d (A.num d - 1) d + B ≤ A.num d + 0 + (B - 1)
          rw [fset_self]; omega
      · refine ⟨B, hB, ?_, ?_⟩
        · intro x p hp
          have hp' : ((if e = .d0 then A.orig else
            fset A.orig e (((A.orig e).eraseIdx i).map (align i UINT_MAX))) d)[x]? = some p := hp
          have hpo : (A.orig d)[x]? = some p := by
            split at hp'
            · exact hp'
            · rwa [fset_ne _ _ hed] at hp'
          rcases ho x p hpo with h3 | ⟨s, hs, hx⟩
          · exact .inl h3
          · right
            refine ⟨s, ?_, hx⟩
            show _ ∈ fset A.upd e _ d
            rw [fset_ne _ _ hed]; exact hs
        · show fset A.num e (A.num e - 1) d + B ≤ A.num d + 0 + B
          rw [fset_ne _ _ hed]; omega
    · simp only [step, AMesh.remove_conc_abort e hi] at h
      cases h
  by_cases h3 : ∃ e i j, o = .insertUpd e i j
  · obtain ⟨e, i, j, rfl⟩ := h3
    obtain ⟨hi, hj, e1, e2, e3⟩ := insertUpd_ok h
    refine ⟨B, hB, ?_, by rw [e1]; omega⟩
    intro x p hp
    rw [e2]
    rw [e3] at hp
    by_cases hed : d = e
    · subst hed
      rw [if_neg hd, fset_self] at hp
      rw [fset_self]
      by_cases hx : j = x
      · subst hx
        rw [List.getElem?_set_self (by rw [hw.orig d hd]; exact hj)] at hp
        cases hp
        right
        refine ⟨_, (mem_updInsert (hw.upd d).keys i j i _).2 (by rw [if_pos rfl]), ?_⟩
        rw [mem_setInsert]; exact .inr rfl
      · rw [List.getElem?_set_ne hx] at hp
        rcases ho x p hp with h4 | ⟨s, hs, hxs⟩
        · exact .inl h4
        · right
          by_cases hpi : p = i
          · subst hpi
            refine ⟨_, (mem_updInsert (hw.upd d).keys p j p _).2 (by rw [if_pos rfl]), ?_⟩
            rw [(mapFind_eq_some (hw.upd d).keys).2 hs, mem_setInsert]
            exact .inl hxs
          · exact ⟨s, (mem_updInsert (hw.upd d).keys i j p _).2 (by rw [if_neg hpi]; exact hs), hxs⟩
    · rw [fset_ne _ _ hed]
      have : (m.orig d)[x]? = some p := by
        split at hp
        · exact hp
        · rwa [fset_ne _ _ hed] at hp
      exact ho x p this
  · obtain ⟨e1, e2, e3⟩ := step_same h
      (by rintro e n rfl; exact hn) (fun e n he => h1 ⟨e, n, he⟩) (fun e n he => h2 ⟨e, n, he⟩)
      (fun e i j he => h3 ⟨e, i, j, he⟩)
    refine ⟨B, hB, ?_, by rw [e3]; omega⟩
    intro x p hp
    rw [e1] at hp
    rw [e2]
    exact ho x p hp

/-- One call preserves that updated cells have larger numbers. -/
theorem step_upward [Zero α] {m m' : Mesh α} {o : Op α} (hw : m.WF) (hn : o.notInit)
    (hup : o.upward) (h : m.step o = ok m') {d : Dim} (hu : m.Upward d) : m'.Upward d := by
  by_cases h1 : ∃ e k, o = .append e k
  · obtain ⟨e, k, rfl⟩ := h1
    obtain ⟨A, hA, rfl⟩ := AMesh.exists_conc hw
    simp only [step, AMesh.append_conc hA, ok_bind] at h
    cases h
    exact hu
  by_cases h2 : ∃ e i, o = .remove e i
  · obtain ⟨e, i, rfl⟩ := h2
    obtain ⟨A, hA, rfl⟩ := AMesh.exists_conc hw
    by_cases hi : i < A.num e
    · simp only [step, AMesh.remove_conc hA e hi] at h
      cases h
      intro p s hp x hx
      have hp' : (p, s) ∈ fset A.upd e (updRemove (A.upd e) (A.num e) i) d := hp
      by_cases hed : d = e
      · subst hed
        rw [fset_self, mem_updRemove hi (hA.upd d)] at hp'
        obtain ⟨_, t, ht, rfl⟩ := hp'
        have hx' := ((mem_alignSet hi ((hA.upd d).val_lt _ ht)).1 hx).2
        have := hu _ _ ht _ hx'
        unfold oldIndex at this
        split at this <;> split at this <;> omega
      · rw [fset_ne _ _ hed] at hp'
        exact hu p s hp' x hx
    · simp only [step, AMesh.remove_conc_abort e hi] at h
      cases h
  by_cases h3 : ∃ e i j, o = .insertUpd e i j
  · obtain ⟨e, i, j, rfl⟩ := h3
    obtain ⟨hi, hj, e1, e2, e3⟩ := insertUpd_ok h
    intro p s hp x hx
    rw [e2] at hp
    by_cases hed : d = e
    · subst hed
      rw [fset_self, mem_updInsert (hw.upd d).keys] at hp
      split at hp
      · rename_i hpi
        subst hpi
        subst hp
        rw [mem_setInsert] at hx
        rcases hx with hx | rfl
        · cases hf : mapFind (m.upd d) p with
          | none => rw [hf] at hx; cases hx
          | some t =>
            rw [hf] at hx
            exact hu p t ((mapFind_eq_some (hw.upd d).keys).1 hf) x hx
        · exact hup
      · exact hu p s hp x hx
    · rw [fset_ne _ _ hed] at hp
      exact hu p s hp x hx
  · obtain ⟨e1, e2, e3⟩ := step_same h
      (by rintro e n rfl; exact hn) (fun e n he => h1 ⟨e, n, he⟩) (fun e n he => h2 ⟨e, n, he⟩)
      (fun e i j he => h3 ⟨e, i, j, he⟩)
    intro p s hp x hx
    rw [e2] at hp
    exact hu p s hp x hx

theorem run_orig [Zero α] {ops : List (Op α)} {m m' : Mesh α} (hw : m.WF)
    (hn : ∀ o ∈ ops, o.notInit) (h : m.run ops = ok m') {d : Dim} (hd : d ≠ .d0) {B : Nat}
    (hB : B ≤ UINT_MAX) (ho : m.OrigOk d B) (hb : m.num d + (ops.map Op.load).sum ≤ B) :
    ∃ B', m'.OrigOk d B' ∧ m'.num d ≤ B' := by
  induction ops generalizing m B with
  | nil => cases h; exact ⟨B, ho, by simpa using hb⟩
  | cons o os ih =>
    rw [Mesh.run, bind_eq_ok] at h
    obtain ⟨m1, h1, h2⟩ := h
    simp only [List.map_cons, List.sum_cons] at hb
    have hno := hn o (by simp)
    obtain ⟨B', hB', ho', hb'⟩ := step_orig hw hno h1 hd hB ho (by omega)
    exact ih (step_wf_of_ok hw o (notInit_of hno) h1) (fun o ho => hn o (by simp [ho])) h2 hB' ho'
      (by omega)

theorem run_upward [Zero α] {ops : List (Op α)} {m m' : Mesh α} (hw : m.WF)
    (hn : ∀ o ∈ ops, o.notInit) (hup : ∀ o ∈ ops, o.upward) (h : m.run ops = ok m') {d : Dim}
    (hu : m.Upward d) : m'.Upward d ∧ m'.WF := by
  induction ops generalizing m with
  | nil => cases h; exact ⟨hu, hw⟩
  | cons o os ih =>
    rw [Mesh.run, bind_eq_ok] at h
    obtain ⟨m1, h1, h2⟩ := h
    have hno := hn o (by simp)
    exact ih (step_wf_of_ok hw o (notInit_of hno) h1) (fun o ho => hn o (by simp [ho]))
      (fun o ho => hup o (by simp [ho])) h2 (step_upward hw hno (hup o (by simp)) h1 hu)

theorem acyclic_of_upward {m : Mesh α} (hw : m.WF) {d : Dim} (hu : m.Upward d) : m.Acyclic d := by
  have key : ∀ a b, Relation.TransGen (m.Child d) a b → a < b := by
    intro a b hab
    induction hab with
    | single hc =>
      obtain ⟨s, hs, hx⟩ := (child_iff hw).1 hc
      exact hu _ _ hs _ hx
    | tail _ hc ih =>
      obtain ⟨s, hs, hx⟩ := (child_iff hw).1 hc
      exact Nat.lt_trans ih (hu _ _ hs _ hx)
  intro c hc
  exact absurd (key c c hc) (by omega)

theorem hasOriginal_of {m : Mesh α} {d : Dim} {x p : Nat} (h : m.original d x = ok p) :
    m.hasOriginal d x = ok (decide (p < m.num d)) := by
  unfold hasOriginal; rw [h]; rfl

/-- The loop of `MeshCell2DRoots`. -/
theorem rootLoop_spec {m : Mesh α} (hw : m.WF) {d : Dim} (hd : d ≠ .d0) {B : Nat}
    (ho : m.OrigOk d B) (hb : m.num d ≤ B) (hu : m.Upward d) (c : Nat) :
    c < m.num d → ∃ r, (∀ fuel, c < fuel → m.rootLoop d fuel c = ok r) ∧
      m.hasOriginal d r = ok false ∧ m.Descends d r c := by
  induction c using Nat.strong_induction_on with
  | _ c ih =>
  intro hc
  have hlen := hw.orig d hd
  have horig : m.original d c = ok ((m.orig d)[c]'(by omega)) := by
    unfold original
    rw [assert_true hc, ok_bind, List.getElem?_eq_getElem (by omega)]
  have hget : (m.orig d)[c]? = some ((m.orig d)[c]'(by omega)) := List.getElem?_eq_getElem _
  generalize (m.orig d)[c]'(by omega) = p at horig hget
  have hh := hasOriginal_of horig
  by_cases hp : p < m.num d
  · rw [decide_eq_true hp] at hh
    rcases ho c p hget with h1 | ⟨s, hs, hx⟩
    · omega
    · obtain ⟨r, h1, h2, h3⟩ := ih p (hu _ _ hs _ hx) hp
      refine ⟨r, ?_, h2, h3.tail ((child_iff hw).2 ⟨s, hs, hx⟩)⟩
      intro fuel hf
      obtain ⟨fuel, rfl⟩ : ∃ f, fuel = f + 1 := ⟨fuel - 1, by omega⟩
      have := hu _ _ hs _ hx
      simp only [rootLoop, hh, ok_bind, if_true, horig]
      exact h1 fuel (by omega)
  · rw [decide_eq_false hp] at hh
    refine ⟨c, ?_, hh, .refl⟩
    intro fuel hf
    obtain ⟨fuel, rfl⟩ : ∃ f, fuel = f + 1 := ⟨fuel - 1, by omega⟩
    simp [rootLoop, hh]

end Mesh
end Verif
