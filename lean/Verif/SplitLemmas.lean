import Verif.SplitModel
import Verif.SplitSpec
import Verif.NeighLemmas

/-
Helper lemmas: the split of a polygon on the mesh of plain rows.
-/
namespace Verif

open Res

namespace AMesh

variable {α : Type} {A : AMesh α}

theorem setRows_self (A : AMesh α) (l : Lst) : A.setRows l (A.rows l) = A := by
  cases A
  simp only [setRows, AMesh.mk.injEq, true_and]
  funext l'
  unfold fset
  split
  · rename_i h; rw [h]
  · rfl

theorem setRow_self {l : Lst} {i : Nat} {r : List Nat} (hr : (A.rows l)[i]? = some r) :
    A.setRow l i r = A := by
  unfold setRow
  have : (A.rows l).set i r = A.rows l := by
    obtain ⟨h, rfl⟩ := List.getElem?_eq_some_iff.1 hr
    exact List.set_getElem_self h
  rw [this, setRows_self]

theorem setRow_row {l : Lst} {i : Nat} {r : List Nat} (hi : i < (A.rows l).length) :
    ((A.setRow l i r).rows l)[i]? = some r := by
  rw [setRow_rows _ _ _ _ _ _ hi]; simp

/-- A loop that rewrites one row entry by entry. -/
theorem foldRow_conc {l : Lst} {i : Nat} {r g : List Nat} (F : Mesh α → Nat → Res (Mesh α))
    (hr : (A.rows l)[i]? = some r) (hg : g.length = r.length)
    (hF : ∀ k, ∀ hk : k < g.length, ∀ r' : List Nat, r'.length = r.length → r'[k]? = r[k]? →
      F (A.setRow l i r').conc k = ok (A.setRow l i (r'.set k g[k])).conc) :
    foldRes F A.conc (List.range r.length) = ok (A.setRow l i g).conc := by
  have gen : ∀ n, n ≤ r.length → foldRes F A.conc (List.range n) =
      ok (A.setRow l i (g.take n ++ r.drop n)).conc := by
    intro n
    induction n with
    | zero => intro _; simp [setRow_self hr]
    | succ n ih =>
      intro hn
      rw [foldRes_range_succ, ih (by omega), ok_bind, hF n (by omega) _ (by simp; omega)]
      · congr 3
        apply List.ext_getElem
        · simp; omega
        · intro j h1 h2
          simp only [List.length_set, List.length_append, List.length_take, List.length_drop] at h1
          rw [List.getElem_set]
          by_cases hj : n = j
          · subst hj
            rw [if_pos rfl, List.getElem_append_left (by simp; omega)]
            simp
          · rw [if_neg hj]
            by_cases hjn : j < n
            · rw [List.getElem_append_left (by simp; omega),
                List.getElem_append_left (by simp; omega)]
              simp
            · rw [List.getElem_append_right (by simp; omega),
                List.getElem_append_right (by simp; omega)]
              simp only [List.length_take, List.getElem_drop]
              congr 1; omega
      · rw [List.getElem?_append_right (by simp)]
        simp [Nat.min_eq_left (show n ≤ g.length by omega)]
  have := gen r.length (Nat.le_refl _)
  rwa [← hg, List.take_length, hg, List.drop_eq_nil_of_le (by omega), List.append_nil] at this

/-- Replace `c` by `new` in a list. -/
def repl (c new : Nat) (r : List Nat) : List Nat := r.map fun y => if y = c then new else y

theorem hasEntry_conc (h : A.Ok) {l : Lst} {i k : Nat} {r : List Nat} (hr : (A.rows l)[i]? = some r)
    (hk : k < r.length) : A.conc.hasEntry l i k = ok (decide (r[k] < A.num l.target)) := by
  unfold Mesh.hasEntry
  rw [entry_conc h hr]
  simp only [agetD, List.getElem?_eq_getElem hk, ok_bind]
  rfl

theorem replaceNeighbours_conc (h : A.Ok) {l : Lst} {x c new : Nat} {r : List Nat}
    (hr : (A.rows l)[x]? = some r) (hc : c < A.num l.target) (hn : new < A.num l.target) :
    A.conc.replaceNeighbours l x c new = ok (A.setRow l x (repl c new r)).conc := by
  have hx := lt_of_getElem? hr
  unfold Mesh.replaceNeighbours
  rw [rowSize_conc h hr, ok_bind]
  apply foldRow_conc _ hr (by simp [repl])
  intro k hk r' hl hk'
  have hkr : k < r.length := by simpa [repl] using hk
  have hkr' : k < r'.length := by omega
  have hB : (A.setRow l x r').Ok := ok_setRow h l x r'
  have hBr : ((A.setRow l x r').rows l)[x]? = some r' := setRow_row hx
  have he : r'[k] = r[k] := by
    rw [List.getElem?_eq_getElem hkr', List.getElem?_eq_getElem hkr] at hk'
    simpa using hk'
  rw [hasEntry_conc hB hBr hkr', entry_conc hB hBr]
  simp only [agetD, List.getElem?_eq_getElem hkr', ok_bind]
  have hset : r'.set k r'[k] = r' := List.set_getElem_self hkr'
  by_cases hlt : r'[k] < A.num l.target
  · rw [if_pos (decide_eq_true (show r'[k] < (A.setRow l x r').num l.target from hlt))]
    by_cases hec : r'[k] = c
    · rw [if_pos hec, insertEntry_conc hB hBr hkr' hn, setRow_setRow]
      simp only [repl, List.getElem_map]
      rw [if_pos (by rw [← he]; exact hec)]
    · rw [if_neg hec]
      simp only [repl, List.getElem_map]
      rw [if_neg (by rw [← he]; exact hec), ← he, hset]
  · rw [if_neg (by rw [decide_eq_true_iff]; exact hlt)]
    simp only [repl, List.getElem_map]
    rw [if_neg (by rw [← he]; intro hh; rw [hh] at hlt; exact hlt hc), ← he, hset]

/-- Change the rows of some cells. -/
def mapRows (A : AMesh α) (l : Lst) (f : Nat → List Nat → List Nat) : AMesh α :=
  A.setRows l ((A.rows l).mapIdx f)

theorem ok_mapRows (h : A.Ok) (l : Lst) (f : Nat → List Nat → List Nat) : (A.mapRows l f).Ok :=
  ok_setRows h (by simpa using h.rows l)

theorem repl_repl {c new : Nat} (hne : new ≠ c) (r : List Nat) :
    repl c new (repl c new r) = repl c new r := by
  simp only [repl, List.map_map]
  apply List.map_congr_left
  intro y _
  simp only [Function.comp]
  by_cases h : y = c
  · simp [h, hne]
  · simp [h]

/-- The loop over the vertices or edges of the new cell. -/
theorem replaceAround_conc (h : A.Ok) {l b : Lst} {c new : Nat} {xs : List Nat}
    (hlb : b ≠ l) (hxs : (A.rows b)[new]? = some xs) (hx : ∀ x ∈ xs, x < A.num l.owner)
    (hne : new ≠ c) (hc : c < A.num l.target) (hn : new < A.num l.target) :
    A.conc.replaceAround l b c new =
      ok (A.mapRows l fun x r => if x ∈ xs then repl c new r else r).conc := by
  unfold Mesh.replaceAround
  rw [rowSize_conc h hxs, ok_bind]
  have gen : ∀ n, n ≤ xs.length → foldRes (fun (m : Mesh α) v => do
      let x ← m.entry b new v
      m.replaceNeighbours l x c new) A.conc (List.range n) =
      ok (A.mapRows l fun x r => if x ∈ xs.take n then repl c new r else r).conc := by
    intro n
    induction n with
    | zero =>
      intro _
      simp only [List.range_zero, foldRes_nil, List.take_zero, List.not_mem_nil, if_false]
      unfold mapRows
      have : (A.rows l).mapIdx (fun _ r => r) = A.rows l := by
        apply List.ext_getElem <;> simp
      rw [this, setRows_self]
    | succ n ih =>
      intro hn'
      rw [foldRes_range_succ, ih (by omega), ok_bind]
      generalize hB : A.mapRows l (fun x r => if x ∈ xs.take n then repl c new r else r) = B
      have hBok : B.Ok := by rw [← hB]; exact ok_mapRows h l _
      have hBb : (B.rows b)[new]? = some xs := by
        rw [← hB]; unfold mapRows; rw [setRows_rows_ne _ _ hlb]; exact hxs
      have hnl : n < xs.length := by omega
      have hBn : ∀ d, B.num d = A.num d := by intro d; rw [← hB]; rfl
      rw [entry_conc hBok hBb]
      simp only [agetD, List.getElem?_eq_getElem hnl, ok_bind]
      have hxn := hx _ (List.getElem_mem hnl)
      obtain ⟨r, hr⟩ := getElem?_row hBok (l := l) (j := xs[n]) (by rw [hBn]; exact hxn)
      rw [replaceNeighbours_conc hBok hr (by rw [hBn]; exact hc) (by rw [hBn]; exact hn)]
      congr 2
      unfold setRow
      rw [← hB] at hr ⊢
      unfold mapRows at hr ⊢
      rw [setRows_rows_self] at hr ⊢
      rw [setRows_setRows]
      congr 1
      apply List.ext_getElem
      · simp
      · intro j h1 h2
        simp only [List.length_set, List.length_mapIdx] at h1
        rw [List.getElem_set, List.getElem_mapIdx]
        have htake : xs.take (n + 1) = xs.take n ++ [xs[n]] := by
          rw [List.take_succ_eq_append_getElem]
        by_cases hj : xs[n] = j
        · subst hj
          rw [if_pos rfl, List.getElem_mapIdx, if_pos (htake ▸ List.mem_append_right _ (List.mem_singleton_self _))]
          have hl : xs[n] < (A.rows l).length := h1
          rw [List.getElem?_eq_getElem (by simpa using hl), List.getElem_mapIdx] at hr
          simp only [Option.some.injEq] at hr
          rw [← hr]
          split
          · rw [repl_repl hne]
          · rfl
        · rw [if_neg hj, List.getElem_mapIdx]
          have : (j ∈ xs.take (n + 1)) ↔ j ∈ xs.take n := by
            rw [htake]
            simp only [List.mem_append, List.mem_singleton]
            constructor
            · rintro (h | h)
              · exact h
              · exact absurd h.symm hj
            · exact Or.inl
          simp only [this]
  have := gen xs.length (Nat.le_refl _)
  rwa [List.take_length] at this

/-- The row of polyhedra that the new cell gets. -/
def inherit (n3 : Nat) (old par : List Nat) : List Nat :=
  List.zipWith (fun o y => if y < n3 then y else o) (vresize old par.length UINT_MAX) par

theorem inheritCell3Ds_conc (h : A.Ok) {c new : Nat} {par old : List Nat}
    (hp : (A.rows .nb23)[c]? = some par) (ho : (A.rows .nb23)[new]? = some old) (hne : new ≠ c) :
    A.conc.inheritCell3Ds c new =
      ok (if par.length = 0 then A else A.setRow .nb23 new (inherit (A.num .d3) old par)).conc := by
  have hnew := lt_of_getElem? ho
  unfold Mesh.inheritCell3Ds
  rw [rowSize_conc h hp, ok_bind]
  by_cases h0 : par.length = 0
  · rw [if_pos h0, if_pos h0]
  · rw [if_neg h0, if_neg h0, resizeRowOf_conc h ho (by simp), ok_bind]
    have hB : (A.setRow .nb23 new (vresize old par.length (Lst.fillOne .nb23))).Ok := ok_setRow h _ _ _
    have hBr : ((A.setRow .nb23 new (vresize old par.length (Lst.fillOne .nb23))).rows .nb23)[new]? =
        some (vresize old par.length (Lst.fillOne .nb23)) := setRow_row hnew
    have := foldRow_conc (g := inherit (A.num .d3) old par) (fun (m : Mesh α) k => do
      let has ← m.hasEntry .nb23 c k
      if has then do
        let y ← m.entry .nb23 c k
        m.insertEntry .nb23 new k y
      else ok m) hBr (by simp [inherit]) (by
        intro k hk r' hl hk'
        rw [setRow_setRow, setRow_setRow]
        have hkp : k < par.length := by
          simp [inherit] at hk
          omega
        have hC : (A.setRow .nb23 new r').Ok := ok_setRow h _ _ _
        have hCc : ((A.setRow .nb23 new r').rows .nb23)[c]? = some par := by
          rw [setRow_rows _ _ _ _ _ _ hnew, if_neg (by simp [Ne.symm hne])]; exact hp
        have hCn : ((A.setRow .nb23 new r').rows .nb23)[new]? = some r' := setRow_row hnew
        have hkr : k < r'.length := by rw [hl]; simpa using hkp
        rw [hasEntry_conc hC hCc hkp, entry_conc hC hCc]
        simp only [agetD, List.getElem?_eq_getElem hkp, ok_bind]
        have hgk : (inherit (A.num .d3) old par)[k] = if par[k] < A.num .d3 then par[k] else r'[k] := by
          simp only [inherit, List.getElem_zipWith]
          have hkv : k < (vresize old par.length (Lst.fillOne .nb23)).length := by simpa using hkp
          rw [List.getElem?_eq_getElem hkr, List.getElem?_eq_getElem hkv] at hk'
          simp only [Option.some.injEq] at hk'
          rw [hk']
          rfl
        rw [hgk]
        by_cases hlt : par[k] < A.num .d3
        · rw [if_pos (by rw [decide_eq_true_iff]; exact hlt), if_pos hlt, insertEntry_conc hC hCn hkr hlt, setRow_setRow]
        · rw [if_neg (by rw [decide_eq_true_iff]; exact hlt), if_neg hlt, List.set_getElem_self hkr])
    rw [length_vresize, setRow_setRow] at this
    exact this

theorem insertPairsFrom_conc {i : Nat} {ps : List (Nat × Nat)} {k : Nat} {A : AMesh α} (h : A.Ok)
    {rv re : List Nat} (hv : (A.rows .vert2)[i]? = some rv) (he : (A.rows .edge2)[i]? = some re)
    (hkv : k + ps.length = rv.length) (hke : k + ps.length = re.length)
    (hp : ∀ p ∈ ps, p.1 < A.num .d0 ∧ p.2 < A.num .d1) :
    A.conc.insertPairsFrom i k ps =
      ok ((A.setRow .vert2 i (rv.take k ++ ps.map Prod.fst)).setRow .edge2 i
        (re.take k ++ ps.map Prod.snd)).conc := by
  induction ps generalizing k A rv re with
  | nil =>
    simp only [Mesh.insertPairsFrom, List.map_nil, List.append_nil]
    rw [List.take_of_length_le (by simp at hkv; omega), List.take_of_length_le (by simp at hke; omega),
      setRow_self hv, setRow_self he]
  | cons p ps ih =>
    obtain ⟨v, e⟩ := p
    obtain ⟨h1, h2⟩ := hp (v, e) (by simp)
    have hvl := lt_of_getElem? hv
    have hel := lt_of_getElem? he
    simp only [List.length_cons] at hkv hke
    simp only [Mesh.insertPairsFrom]
    rw [insertEntry_conc h hv (by omega) h1, ok_bind]
    have hB := ok_setRow h .vert2 i (rv.set k v)
    have heB : ((A.setRow .vert2 i (rv.set k v)).rows .edge2)[i]? = some re := by
      rw [setRow_rows _ _ _ _ _ _ hvl]; simpa using he
    rw [insertEntry_conc hB heB (by omega) h2, ok_bind]
    have hC := ok_setRow hB .edge2 i (re.set k e)
    have hel' : i < ((A.setRow .vert2 i (rv.set k v)).rows .edge2).length := lt_of_getElem? heB
    have hvC : (((A.setRow .vert2 i (rv.set k v)).setRow .edge2 i (re.set k e)).rows .vert2)[i]? =
        some (rv.set k v) := by
      rw [setRow_rows _ _ _ _ _ _ hel', if_neg (by simp)]
      exact setRow_row hvl
    rw [ih hC hvC (setRow_row hel') (by simp; omega) (by simp; omega)
      fun p hp' => hp p (by simp [hp'])]
    have t1 : (rv.set k v).take (k + 1) = rv.take k ++ [v] := by
      rw [List.take_set, List.take_succ_eq_append_getElem (by omega),
        List.set_append_right _ _ (by simp)]
      simp [Nat.min_eq_left (show k ≤ rv.length by omega)]
    have t2 : (re.set k e).take (k + 1) = re.take k ++ [e] := by
      rw [List.take_set, List.take_succ_eq_append_getElem (by omega),
        List.set_append_right _ _ (by simp)]
      simp [Nat.min_eq_left (show k ≤ re.length by omega)]
    rw [t1, t2, List.append_assoc, List.append_assoc]
    congr 2
    simp only [setRow, setRows, AMesh.mk.injEq, true_and, List.map_cons, List.singleton_append]
    funext l'
    unfold fset
    cases l' <;> simp

theorem addVerticesAndEdges_conc (h : A.Ok) {i : Nat} {ps : List (Nat × Nat)} (hi : i < A.num .d2)
    (hp : ∀ p ∈ ps, p.1 < A.num .d0 ∧ p.2 < A.num .d1) :
    A.conc.addVerticesAndEdges i ps =
      ok ((A.setRow .vert2 i (ps.map Prod.fst)).setRow .edge2 i (ps.map Prod.snd)).conc := by
  obtain ⟨rv, hv⟩ := getElem?_row h (l := .vert2) hi
  obtain ⟨re, he⟩ := getElem?_row h (l := .edge2) hi
  have hvl := lt_of_getElem? hv
  have hel := lt_of_getElem? he
  unfold Mesh.addVerticesAndEdges
  rw [resizeRowOf_conc h hv (by simp), ok_bind]
  have hB := ok_setRow h .vert2 i (vresize rv ps.length (Lst.fillOne .vert2))
  have heB : ((A.setRow .vert2 i (vresize rv ps.length (Lst.fillOne .vert2))).rows .edge2)[i]? =
      some re := by
    rw [setRow_rows _ _ _ _ _ _ hvl]; simpa using he
  have hel' := lt_of_getElem? heB
  rw [resizeRowOf_conc hB heB (by simp), ok_bind]
  have hC := ok_setRow hB .edge2 i (vresize re ps.length (Lst.fillOne .edge2))
  rw [insertPairsFrom_conc hC (rv := vresize rv ps.length (Lst.fillOne .vert2))
    (by rw [setRow_rows _ _ _ _ _ _ hel', if_neg (by simp)]; exact setRow_row hvl)
    (setRow_row hel') (by simp) (by simp) hp]
  congr 2
  simp only [setRow, setRows, AMesh.mk.injEq, true_and, List.take_zero, List.nil_append]
  funext l'
  unfold fset
  cases l' <;> simp

/-- One round of `SplitCell2D`; `k` is the marker and `par` the list of polyhedra of the cell. -/
def splitA (A : AMesh α) (c new k : Nat) (par : List Nat) (sub : List (Nat × Nat)) : AMesh α :=
  { A with
    mark := fset A.mark .d2 ((A.mark .d2).set new k)
    act := fset A.act .d2 ((A.act .d2).set new true)
    upd := fset A.upd .d2 (updInsert (A.upd .d2) c new)
    orig := fset A.orig .d2 ((A.orig .d2).set new c)
    rows := fun l => match l with
      | .vert2 => (A.rows .vert2).set new (sub.map Prod.fst)
      | .edge2 => (A.rows .edge2).set new (sub.map Prod.snd)
      | .nb02 => (A.rows .nb02).mapIdx fun x r => if x ∈ sub.map Prod.fst then repl c new r else r
      | .nb12 => (A.rows .nb12).mapIdx fun x r => if x ∈ sub.map Prod.snd then repl c new r else r
      | .nb23 => (A.rows .nb23).set new (inherit (A.num .d3) [] par)
      | l => A.rows l }

theorem ok_splitA (h : A.Ok) {c new k : Nat} {par : List Nat} {sub : List (Nat × Nat)}
    (hc : c < A.num .d2) (hn : new < A.num .d2) : (A.splitA c new k par sub).Ok where
  coord := h.coord
  ext := h.ext
  mark := by
    intro d
    by_cases hd : d = .d2
    · subst hd; simpa [splitA] using h.mark .d2
    · simpa [splitA, fset_ne _ _ hd] using h.mark d
  act := by
    intro d
    by_cases hd : d = .d2
    · subst hd; simpa [splitA] using h.act .d2
    · simpa [splitA, fset_ne _ _ hd] using h.act d
  orig0 := by
    simpa [splitA, fset] using h.orig0
  orig := by
    intro d hd0
    by_cases hd : d = .d2
    · subst hd; simpa [splitA] using h.orig .d2 (by simp)
    · simpa [splitA, fset_ne _ _ hd] using h.orig d hd0
  upd := by
    intro d
    by_cases hd : d = .d2
    · subst hd
      simpa [splitA] using updOk_updInsert (h.upd .d2) hc hn
    · simpa [splitA, fset_ne _ _ hd] using h.upd d
  ids := h.ids
  ids_nodup := h.ids_nodup
  props := h.props
  rows := by
    intro l
    have := h.rows l
    cases l <;> simpa [splitA] using this

private def setMarkA (B : AMesh α) (new k : Nat) : AMesh α :=
  { B with mark := fset B.mark .d2 ((B.mark .d2).set new k) }

private def setStateA (B : AMesh α) (new k : Nat) : AMesh α :=
  { setMarkA B new k with act := fset B.act .d2 ((B.act .d2).set new true) }

private def setUpdA (B : AMesh α) (c new k : Nat) : AMesh α :=
  { setStateA B new k with
    upd := fset B.upd .d2 (updInsert (B.upd .d2) c new)
    orig := fset B.orig .d2 ((B.orig .d2).set new c) }

theorem splitOne_conc (h : A.Ok) {c new k : Nat} {par : List Nat} {sub : List (Nat × Nat)}
    (hc : c < A.num .d2) (hn : new < A.num .d2) (hne : new ≠ c) (hk : (A.mark .d2)[c]? = some k)
    (hp : (A.rows .nb23)[c]? = some par) (ho : (A.rows .nb23)[new]? = some [])
    (hs : ∀ p ∈ sub, p.1 < A.num .d0 ∧ p.2 < A.num .d1) :
    A.conc.splitOne c new sub = ok (A.splitA c new k par sub).conc := by
  unfold Mesh.splitOne
  rw [addVerticesAndEdges_conc h hn hs, ok_bind]
  have hB := ok_setRow (ok_setRow h .vert2 new (sub.map Prod.fst)) .edge2 new (sub.map Prod.snd)
  generalize hBe : (A.setRow .vert2 new (sub.map Prod.fst)).setRow .edge2 new (sub.map Prod.snd) = B
    at hB
  have hBn : B.num = A.num := by rw [← hBe]; rfl
  have hBm : B.mark = A.mark := by rw [← hBe]; rfl
  have e1 : B.conc.marker .d2 c = ok k := by
    unfold Mesh.marker
    show (do assert (c < B.num .d2); vget (B.mark .d2) c) = _
    rw [hBn, hBm, assert_true hc, ok_bind]
    exact vget_eq_ok.2 hk
  rw [e1, ok_bind]
  have e2 : B.conc.setMark .d2 new k =
      ok (setMarkA B new k).conc := by
    unfold Mesh.setMark
    show (do assert (new < B.num .d2); let l ← vset (B.mark .d2) new k; _) = _
    rw [assert_true (by rw [hBn]; exact hn), ok_bind,
      vset_of_lt _ (by rw [hB.mark, hBn]; exact hn), ok_bind]
    rfl
  rw [e2, ok_bind]
  have e3 : ((setMarkA B new k).conc).setAct .d2
      new true = ok (setStateA B new k).conc := by
    unfold Mesh.setAct
    show (do assert (new < B.num .d2); let l ← vset (B.act .d2) new true; _) = _
    rw [assert_true (by rw [hBn]; exact hn), ok_bind,
      vset_of_lt _ (by rw [hB.act, hBn]; exact hn), ok_bind]
    rfl
  rw [e3, ok_bind]
  have e4 : ((setStateA B new k).conc).insertUpd .d2 c new =
      ok (setUpdA B c new k).conc := by
    rw [Mesh.insertUpd_eq]
    show (do assert (c < B.num .d2); assert (new < B.num .d2); _) = _
    rw [assert_true (by rw [hBn]; exact hc), assert_true (by rw [hBn]; exact hn), ok_bind, ok_bind,
      if_neg (by simp)]
    show (do let o ← vset (B.orig .d2) new c; _) = _
    rw [vset_of_lt _ (by rw [hB.orig _ (by simp), hBn]; exact hn), ok_bind]
    rfl
  rw [e4, ok_bind]
  generalize hCe : (setUpdA B c new k) = C
  have hCn : C.num = A.num := by rw [← hCe]; exact hBn
  have hCrows : C.rows = B.rows := by rw [← hCe]; rfl
  have hvl : new < (A.rows .vert2).length := by rw [h.rows]; exact hn
  have hel : new < (A.rows .edge2).length := by rw [h.rows]; exact hn
  have hBrows : ∀ l, B.rows l = if l = .edge2 then (A.rows .edge2).set new (sub.map Prod.snd)
      else if l = .vert2 then (A.rows .vert2).set new (sub.map Prod.fst) else A.rows l := by
    intro l
    rw [← hBe]
    simp only [setRow, setRows, fset]
    cases l <;> simp
  have hC : C.Ok := by
    rw [← hCe]
    refine ⟨hB.coord, hB.ext, ?_, ?_, ?_, ?_, ?_, hB.ids, hB.ids_nodup, hB.props, hB.rows⟩
    · intro d
      by_cases hd : d = .d2
      · subst hd; simpa [setUpdA, setStateA, setMarkA] using hB.mark .d2
      · simpa [setUpdA, setStateA, setMarkA, fset_ne _ _ hd] using hB.mark d
    · intro d
      by_cases hd : d = .d2
      · subst hd; simpa [setUpdA, setStateA, setMarkA] using hB.act .d2
      · simpa [setUpdA, setStateA, setMarkA, fset_ne _ _ hd] using hB.act d
    · simpa [setUpdA, setStateA, setMarkA, fset] using hB.orig0
    · intro d hd0
      by_cases hd : d = .d2
      · subst hd; simpa [setUpdA, setStateA, setMarkA] using hB.orig .d2 (by simp)
      · simpa [setUpdA, setStateA, setMarkA, fset_ne _ _ hd] using hB.orig d hd0
    · intro d
      by_cases hd : d = .d2
      · subst hd
        simpa [setUpdA, setStateA, setMarkA] using updOk_updInsert (hB.upd .d2) (by rw [hBn]; exact hc) (by rw [hBn]; exact hn)
      · simpa [setUpdA, setStateA, setMarkA, fset_ne _ _ hd] using hB.upd d
  have hCv : (C.rows .vert2)[new]? = some (sub.map Prod.fst) := by
    rw [hCrows, hBrows]; simp [hvl]
  rw [replaceAround_conc (b := .vert2) hC (by simp) hCv
    (by
      rintro x hx
      obtain ⟨p, hp', rfl⟩ := List.mem_map.1 hx
      rw [hCn]; exact (hs p hp').1) hne (by rw [hCn]; exact hc) (by rw [hCn]; exact hn), ok_bind]
  have hD := ok_mapRows hC .nb02 (fun x r => if x ∈ sub.map Prod.fst then repl c new r else r)
  have hDe : ((C.mapRows .nb02 fun x r => if x ∈ sub.map Prod.fst then repl c new r else r).rows
      .edge2)[new]? = some (sub.map Prod.snd) := by
    unfold mapRows
    rw [setRows_rows_ne _ _ (by simp), hCrows, hBrows]; simp [hel]
  rw [replaceAround_conc (b := .edge2) hD (by simp) hDe
    (by
      rintro x hx
      obtain ⟨p, hp', rfl⟩ := List.mem_map.1 hx
      show _ < C.num _
      rw [hCn]; exact (hs p hp').2) hne (by show _ < C.num _; rw [hCn]; exact hc)
      (by show _ < C.num _; rw [hCn]; exact hn), ok_bind]
  have hE := ok_mapRows hD .nb12 (fun x r => if x ∈ sub.map Prod.snd then repl c new r else r)
  generalize hEe : (C.mapRows .nb02 fun x r => if x ∈ sub.map Prod.fst then repl c new r else r).mapRows
    .nb12 (fun x r => if x ∈ sub.map Prod.snd then repl c new r else r) = E at hE
  have hEr : E.rows .nb23 = A.rows .nb23 := by
    rw [← hEe]
    unfold mapRows
    rw [setRows_rows_ne _ _ (by simp), setRows_rows_ne _ _ (by simp), hCrows, hBrows]
    simp
  rw [inheritCell3Ds_conc hE (by rw [hEr]; exact hp) (by rw [hEr]; exact ho) hne]
  have hnl : new < (A.rows .nb23).length := lt_of_getElem? ho
  have hEn : E.num = A.num := by rw [← hEe]; exact hCn
  have key : (if par.length = 0 then E else E.setRow .nb23 new (inherit (E.num .d3) [] par)) =
      E.setRow .nb23 new (inherit (A.num .d3) [] par) := by
    rw [hEn]
    split
    · rename_i h0
      have : par = [] := List.eq_nil_of_length_eq_zero h0
      subst this
      rw [setRow_self]
      rw [hEr]; simpa [inherit] using ho
    · rfl
  rw [key]
  congr 2
  rw [← hEe, ← hCe, ← hBe]
  simp only [setUpdA, setStateA, setMarkA, setRow, setRows, mapRows, splitA, AMesh.mk.injEq, true_and]
  funext l
  cases l <;> simp [fset]

/-- The loop over the sub-cells. -/
def splitAll (A : AMesh α) (c k : Nat) (par : List Nat) : Nat → List (List (Nat × Nat)) → AMesh α
  | _, [] => A
  | new, s :: ss => splitAll (A.splitA c new k par s) c k par (new + 1) ss

theorem splitAll_num (A : AMesh α) (c k : Nat) (par : List Nat) (new : Nat)
    (ss : List (List (Nat × Nat))) : (A.splitAll c k par new ss).num = A.num := by
  induction ss generalizing A new with
  | nil => rfl
  | cons s ss ih => rw [splitAll, ih]; rfl

theorem splitFrom_conc {c k : Nat} {par : List Nat} {ss : List (List (Nat × Nat))} {new : Nat}
    {A : AMesh α} (h : A.Ok) (hc : c < new) (hn : new + ss.length = A.num .d2)
    (hk : (A.mark .d2)[c]? = some k) (hp : (A.rows .nb23)[c]? = some par)
    (ho : ∀ j, new ≤ j → j < A.num .d2 → (A.rows .nb23)[j]? = some [])
    (hs : ∀ s ∈ ss, ∀ p ∈ s, p.1 < A.num .d0 ∧ p.2 < A.num .d1) :
    A.conc.splitFrom c new ss = ok (A.splitAll c k par new ss).conc ∧
      (A.splitAll c k par new ss).Ok := by
  induction ss generalizing A new with
  | nil => exact ⟨rfl, h⟩
  | cons s ss ih =>
    simp only [List.length_cons] at hn
    rw [Mesh.splitFrom, splitAll, splitOne_conc h (by omega) (by omega) (by omega) hk hp
      (ho new (Nat.le_refl _) (by omega)) (hs s (by simp)), ok_bind]
    apply ih (ok_splitA h (by omega) (by omega)) (by omega)
    · show _ = A.num .d2
      omega
    · show (fset A.mark .d2 ((A.mark .d2).set new k) .d2)[c]? = some k
      rw [fset_self, List.getElem?_set_ne (by omega), hk]
    · show ((A.rows .nb23).set new _)[c]? = some par
      rw [List.getElem?_set_ne (by omega), hp]
    · intro j h1 h2
      show ((A.rows .nb23).set new _)[j]? = some []
      rw [List.getElem?_set_ne (by omega), ho j (by omega) h2]
    · intro s' hs' p hp'
      exact hs s' (by simp [hs']) p hp'

/-! Fields after the loop. -/

section fields

variable (c k : Nat) (par : List Nat)

theorem splitAll_frame (A : AMesh α) (new : Nat) (ss : List (List (Nat × Nat))) :
    (A.splitAll c k par new ss).dimension = A.dimension ∧ (A.splitAll c k par new ss).coord = A.coord ∧
    (A.splitAll c k par new ss).ext = A.ext ∧ (A.splitAll c k par new ss).ids = A.ids ∧
    (A.splitAll c k par new ss).props = A.props ∧
    (∀ d, d ≠ .d2 → (A.splitAll c k par new ss).mark d = A.mark d ∧
      (A.splitAll c k par new ss).act d = A.act d ∧ (A.splitAll c k par new ss).upd d = A.upd d ∧
      (A.splitAll c k par new ss).orig d = A.orig d) ∧
    ∀ l, l ≠ .vert2 → l ≠ .edge2 → l ≠ .nb02 → l ≠ .nb12 → l ≠ .nb23 →
      (A.splitAll c k par new ss).rows l = A.rows l := by
  induction ss generalizing A new with
  | nil => simp [splitAll]
  | cons s ss ih =>
    rw [splitAll]
    obtain ⟨h1, h2, h3, h4, h5, h6, h7⟩ := ih (A.splitA c new k par s) (new + 1)
    refine ⟨h1, h2, h3, h4, h5, ?_, ?_⟩
    · intro d hd
      obtain ⟨a1, a2, a3, a4⟩ := h6 d hd
      rw [a1, a2, a3, a4]
      simp [splitA, fset_ne _ _ hd]
    · intro l l1 l2 l3 l4 l5
      rw [h7 l l1 l2 l3 l4 l5]
      cases l <;> first | rfl | contradiction

theorem splitAll_mark (A : AMesh α) (new : Nat) (ss : List (List (Nat × Nat)))
    (hl : new + ss.length ≤ (A.mark .d2).length) (i : Nat) :
    ((A.splitAll c k par new ss).mark .d2)[i]? =
      if new ≤ i ∧ i < new + ss.length then some k else (A.mark .d2)[i]? := by
  induction ss generalizing A new with
  | nil => rw [if_neg (by simp)]; rfl
  | cons s ss ih =>
    simp only [List.length_cons] at hl ⊢
    rw [splitAll, ih _ _ (by simp [splitA]; omega)]
    simp only [splitA, fset_self]
    by_cases h1 : new + 1 ≤ i ∧ i < new + 1 + ss.length
    · rw [if_pos h1, if_pos (by omega)]
    · rw [if_neg h1]
      by_cases h2 : new = i
      · subst h2
        rw [if_pos (by omega), List.getElem?_set_self (by omega)]
      · rw [if_neg (by omega), List.getElem?_set_ne h2]

theorem splitAll_act (A : AMesh α) (new : Nat) (ss : List (List (Nat × Nat)))
    (hl : new + ss.length ≤ (A.act .d2).length) (i : Nat) :
    ((A.splitAll c k par new ss).act .d2)[i]? =
      if new ≤ i ∧ i < new + ss.length then some true else (A.act .d2)[i]? := by
  induction ss generalizing A new with
  | nil => rw [if_neg (by simp)]; rfl
  | cons s ss ih =>
    simp only [List.length_cons] at hl ⊢
    rw [splitAll, ih _ _ (by simp [splitA]; omega)]
    simp only [splitA, fset_self]
    by_cases h1 : new + 1 ≤ i ∧ i < new + 1 + ss.length
    · rw [if_pos h1, if_pos (by omega)]
    · rw [if_neg h1]
      by_cases h2 : new = i
      · subst h2
        rw [if_pos (by omega), List.getElem?_set_self (by omega)]
      · rw [if_neg (by omega), List.getElem?_set_ne h2]

theorem splitAll_orig (A : AMesh α) (new : Nat) (ss : List (List (Nat × Nat)))
    (hl : new + ss.length ≤ (A.orig .d2).length) (i : Nat) :
    ((A.splitAll c k par new ss).orig .d2)[i]? =
      if new ≤ i ∧ i < new + ss.length then some c else (A.orig .d2)[i]? := by
  induction ss generalizing A new with
  | nil => rw [if_neg (by simp)]; rfl
  | cons s ss ih =>
    simp only [List.length_cons] at hl ⊢
    rw [splitAll, ih _ _ (by simp [splitA]; omega)]
    simp only [splitA, fset_self]
    by_cases h1 : new + 1 ≤ i ∧ i < new + 1 + ss.length
    · rw [if_pos h1, if_pos (by omega)]
    · rw [if_neg h1]
      by_cases h2 : new = i
      · subst h2
        rw [if_pos (by omega), List.getElem?_set_self (by omega)]
      · rw [if_neg (by omega), List.getElem?_set_ne h2]

theorem splitAll_nb23 (A : AMesh α) (new : Nat) (ss : List (List (Nat × Nat)))
    (hl : new + ss.length ≤ (A.rows .nb23).length) (i : Nat) :
    ((A.splitAll c k par new ss).rows .nb23)[i]? =
      if new ≤ i ∧ i < new + ss.length then some (inherit (A.num .d3) [] par)
      else (A.rows .nb23)[i]? := by
  induction ss generalizing A new with
  | nil => rw [if_neg (by simp)]; rfl
  | cons s ss ih =>
    simp only [List.length_cons] at hl ⊢
    rw [splitAll, ih _ _ (by simp [splitA]; omega)]
    simp only [splitA]
    by_cases h1 : new + 1 ≤ i ∧ i < new + 1 + ss.length
    · rw [if_pos h1, if_pos (by omega)]
    · rw [if_neg h1]
      by_cases h2 : new = i
      · subst h2
        rw [if_pos (by omega), List.getElem?_set_self (by omega)]
      · rw [if_neg (by omega), List.getElem?_set_ne h2]

theorem splitAll_vert2 (A : AMesh α) (new : Nat) (ss : List (List (Nat × Nat)))
    (hl : new + ss.length ≤ (A.rows .vert2).length) :
    (∀ i s, ss[i]? = some s →
      ((A.splitAll c k par new ss).rows .vert2)[new + i]? = some (s.map Prod.fst)) ∧
    ∀ i, i < new → ((A.splitAll c k par new ss).rows .vert2)[i]? = (A.rows .vert2)[i]? := by
  induction ss generalizing A new with
  | nil => simp [splitAll]
  | cons s ss ih =>
    simp only [List.length_cons] at hl
    obtain ⟨h1, h2⟩ := ih (A.splitA c new k par s) (new + 1) (by simp [splitA]; omega)
    rw [splitAll]
    constructor
    · intro i t ht
      cases i with
      | zero =>
        rw [h2 (new + 0) (by omega)]
        simp only [List.getElem?_cons_zero, Option.some.injEq] at ht
        subst ht
        simp only [splitA]
        exact List.getElem?_set_self (by omega)
      | succ i =>
        rw [show new + (i + 1) = new + 1 + i by omega]
        exact h1 i t (by simpa using ht)
    · intro i hi
      rw [h2 i (by omega)]
      simp only [splitA]
      rw [List.getElem?_set_ne (by omega)]

theorem splitAll_edge2 (A : AMesh α) (new : Nat) (ss : List (List (Nat × Nat)))
    (hl : new + ss.length ≤ (A.rows .edge2).length) :
    (∀ i s, ss[i]? = some s →
      ((A.splitAll c k par new ss).rows .edge2)[new + i]? = some (s.map Prod.snd)) ∧
    ∀ i, i < new → ((A.splitAll c k par new ss).rows .edge2)[i]? = (A.rows .edge2)[i]? := by
  induction ss generalizing A new with
  | nil => simp [splitAll]
  | cons s ss ih =>
    simp only [List.length_cons] at hl
    obtain ⟨h1, h2⟩ := ih (A.splitA c new k par s) (new + 1) (by simp [splitA]; omega)
    rw [splitAll]
    constructor
    · intro i t ht
      cases i with
      | zero =>
        rw [h2 (new + 0) (by omega)]
        simp only [List.getElem?_cons_zero, Option.some.injEq] at ht
        subst ht
        simp only [splitA]
        exact List.getElem?_set_self (by omega)
      | succ i =>
        rw [show new + (i + 1) = new + 1 + i by omega]
        exact h1 i t (by simpa using ht)
    · intro i hi
      rw [h2 i (by omega)]
      simp only [splitA]
      rw [List.getElem?_set_ne (by omega)]

theorem heir_cons (new : Nat) (s : List Nat) (ss : List (List Nat)) (x : Nat) :
    heir c new (s :: ss) x = if x ∈ s then new else heir c (new + 1) ss x := by
  unfold heir
  rw [List.findIdx?_cons]
  by_cases h : x ∈ s
  · simp [h]
  · simp only [h, decide_false, if_false, Bool.false_eq_true]
    cases ss.findIdx? fun s => decide (x ∈ s) with
    | none => rfl
    | some j => simp only [Option.map_some]; omega

theorem repl_heir {new : Nat} (hne : new ≠ c) (s : List Nat) (ss : List (List Nat)) (x : Nat)
    (r : List Nat) :
    (if x ∈ s then repl c new r else r).map (fun y => if y = c then heir c (new + 1) ss x else y) =
      r.map fun y => if y = c then heir c new (s :: ss) x else y := by
  rw [heir_cons]
  by_cases h : x ∈ s
  · simp only [if_pos h, repl, List.map_map]
    apply List.map_congr_left
    intro y _
    simp only [Function.comp]
    by_cases hy : y = c
    · simp [hy, hne]
    · simp [hy]
  · simp only [if_neg h]

theorem splitAll_nb02 (A : AMesh α) (new : Nat) (hc : c < new) (ss : List (List (Nat × Nat))) (x : Nat)
    (r : List Nat) (hr : (A.rows .nb02)[x]? = some r) :
    ((A.splitAll c k par new ss).rows .nb02)[x]? =
      some (r.map fun y => if y = c then heir c new (ss.map (List.map Prod.fst)) x else y) := by
  induction ss generalizing A new r with
  | nil =>
    rw [splitAll, hr]
    have : ∀ y, (if y = c then heir c new (([] : List (List (Nat × Nat))).map (List.map Prod.fst)) x
      else y) = y := by
      intro y; split
      · rename_i h; rw [h]; rfl
      · rfl
    simp only [this, List.map_id']
  | cons s ss ih =>
    rw [splitAll, ih _ (new + 1) (by omega)
      (if x ∈ s.map Prod.fst then repl c new r else r) (by simp [splitA, hr]), List.map_cons,
      repl_heir c (by omega)]

theorem splitAll_nb12 (A : AMesh α) (new : Nat) (hc : c < new) (ss : List (List (Nat × Nat))) (x : Nat)
    (r : List Nat) (hr : (A.rows .nb12)[x]? = some r) :
    ((A.splitAll c k par new ss).rows .nb12)[x]? =
      some (r.map fun y => if y = c then heir c new (ss.map (List.map Prod.snd)) x else y) := by
  induction ss generalizing A new r with
  | nil =>
    rw [splitAll, hr]
    have : ∀ y, (if y = c then heir c new (([] : List (List (Nat × Nat))).map (List.map Prod.snd)) x
      else y) = y := by
      intro y; split
      · rename_i h; rw [h]; rfl
      · rfl
    simp only [this, List.map_id']
  | cons s ss ih =>
    rw [splitAll, ih _ (new + 1) (by omega)
      (if x ∈ s.map Prod.snd then repl c new r else r) (by simp [splitA, hr]), List.map_cons,
      repl_heir c (by omega)]

theorem mapFind_updInsert {u : UpdMap} (hk : (u.map Prod.fst).Nodup) (i j x : Nat) :
    mapFind (updInsert u i j) x =
      if x = i then some (setInsert ((mapFind u i).getD []) j) else mapFind u x := by
  have hk' : ((updInsert u i j).map Prod.fst).Nodup := by
    rw [updInsert_keys]
    split
    · rename_i h
      rw [Option.isNone_iff_eq_none, mapFind_eq_none] at h
      rw [List.nodup_append]
      refine ⟨hk, by simp, ?_⟩
      rintro a ha b hb rfl
      simp only [List.mem_singleton] at hb
      subst hb
      obtain ⟨p, hp, rfl⟩ := List.mem_map.1 ha
      exact h p.2 hp
    · exact hk
  apply Option.ext
  intro s
  rw [mapFind_eq_some hk', mem_updInsert hk]
  by_cases hx : x = i
  · simp only [if_pos hx, Option.some.injEq]
    exact eq_comm
  · simp only [if_neg hx]
    rw [mapFind_eq_some hk]

theorem splitAll_upd (A : AMesh α) (h : A.Ok) (new : Nat) (ss : List (List (Nat × Nat)))
    (hc : c < new) (hl : new + ss.length = A.num .d2) :
    (∀ x, x ≠ c → mapFind ((A.splitAll c k par new ss).upd .d2) x = mapFind (A.upd .d2) x) ∧
    ∀ j, j ∈ (mapFind ((A.splitAll c k par new ss).upd .d2) c).getD [] ↔
      j ∈ (mapFind (A.upd .d2) c).getD [] ∨ new ≤ j ∧ j < new + ss.length := by
  induction ss generalizing A new with
  | nil =>
    simp only [splitAll, implies_true, List.length_nil, Nat.add_zero, true_and]
    intro j
    constructor
    · exact Or.inl
    · rintro (h | h)
      · exact h
      · omega
  | cons s ss ih =>
    simp only [List.length_cons] at hl ⊢
    obtain ⟨h1, h2⟩ := ih (A.splitA c new k par s) (ok_splitA h (by omega) (by omega)) (new + 1)
      (by omega) (by show _ = A.num .d2; omega)
    rw [splitAll]
    have hu : (A.splitA c new k par s).upd .d2 = updInsert (A.upd .d2) c new := by
      simp [splitA]
    constructor
    · intro x hx
      rw [h1 x hx, hu, mapFind_updInsert (h.upd .d2).keys, if_neg hx]
    · intro j
      rw [h2, hu, mapFind_updInsert (h.upd .d2).keys, if_pos rfl]
      simp only [Option.getD_some, mem_setInsert]
      constructor
      · rintro ((h | h) | h)
        · exact Or.inl h
        · right; omega
        · right; omega
      · rintro (h | h)
        · exact Or.inl (Or.inl h)
        · by_cases hj : j = new
          · exact Or.inl (Or.inr hj)
          · right; omega

end fields

end AMesh

variable {α : Type}

theorem marker_congr {m m' : Mesh α} {d : Dim} {i j : Nat} (h : i < m.num d) (h' : j < m'.num d)
    (e : (m'.mark d)[j]? = (m.mark d)[i]?) : m'.marker d j = m.marker d i := by
  simp only [Mesh.marker, vget, assert_true h, assert_true h', e]

theorem active_congr {m m' : Mesh α} {d : Dim} {i j : Nat} (h : i < m.num d) (h' : j < m'.num d)
    (e : (m'.act d)[j]? = (m.act d)[i]?) : m'.active d j = m.active d i := by
  simp only [Mesh.active, vget, assert_true h, assert_true h', e]

theorem original_congr {m m' : Mesh α} {d : Dim} {i j : Nat} (h : i < m.num d) (h' : j < m'.num d)
    (e : (m'.orig d)[j]? = (m.orig d)[i]?) : m'.original d j = m.original d i := by
  simp only [Mesh.original, assert_true h, assert_true h', e]

theorem updated_congr {m m' : Mesh α} {d : Dim} {i j : Nat} (h : i < m.num d) (h' : j < m'.num d)
    (e : mapFind (m'.upd d) j = mapFind (m.upd d) i) : m'.updated d j = m.updated d i := by
  simp only [Mesh.updated, assert_true h, assert_true h', e]

theorem coordinates_congr {m m' : Mesh α} {i : Nat} (h : m'.num = m.num) (e : m'.coord = m.coord) :
    m'.coordinates i = m.coordinates i := by
  unfold Mesh.coordinates
  rw [h, e]

theorem extremes_congr {m m' : Mesh α} {i : Nat} (h : m'.num = m.num) (e : m'.ext = m.ext) :
    m'.extremes i = m.extremes i := by
  unfold Mesh.extremes
  rw [h, e]

theorem propSize_congr {m m' : Mesh α} {d : Dim} {i p : Nat} (h : m'.num = m.num)
    (e : m'.ids = m.ids) (e' : m'.props = m.props) : m'.propSize d i p = m.propSize d i p := by
  unfold Mesh.propSize
  rw [h, e, e']

theorem propValue_congr {m m' : Mesh α} {d : Dim} {i p k : Nat} (h : m'.num = m.num)
    (e : m'.ids = m.ids) (e' : m'.props = m.props) : m'.propValue d i p k = m.propValue d i p k := by
  unfold Mesh.propValue Mesh.propSize
  rw [h, e, e']

theorem AMesh.row_eq_ok {A : AMesh α} (h : A.Ok) {l : Lst} {i : Nat} {r : List Nat}
    (hr : A.conc.row l i = ok r) : (A.rows l)[i]? = some r := by
  by_cases hi : i < A.num l.owner
  · obtain ⟨r', hr'⟩ := AMesh.getElem?_row h hi
    rw [AMesh.row_conc h hr'] at hr
    cases hr
    exact hr'
  · unfold Mesh.row at hr
    rw [show A.conc.num = A.num from rfl, assert_false hi] at hr
    cases hr

theorem heir_of_mem {c first : Nat} {subs : List (List Nat)} {x j : Nat} {s : List Nat}
    (hs : subs[j]? = some s) (hx : x ∈ s) :
    ∃ i t, i ≤ j ∧ subs[i]? = some t ∧ x ∈ t ∧ heir c first subs x = first + i := by
  induction subs generalizing first j with
  | nil => simp at hs
  | cons u us ih =>
    rw [AMesh.heir_cons]
    by_cases hu : x ∈ u
    · exact ⟨0, u, by omega, rfl, hu, by rw [if_pos hu]; rfl⟩
    · rw [if_neg hu]
      cases j with
      | zero =>
        simp only [List.getElem?_cons_zero, Option.some.injEq] at hs
        subst hs
        exact absurd hx hu
      | succ j =>
        obtain ⟨i, t, h1, h2, h3, h4⟩ := ih (first := first + 1) (by simpa using hs)
        exact ⟨i + 1, t, by omega, by simpa using h2, h3, by rw [h4]; omega⟩

end Verif
