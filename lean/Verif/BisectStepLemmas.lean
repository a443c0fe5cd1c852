import Verif.BisectLemmas
import Mathlib.Tactic.IntervalCases

/-
Helper lemmas: the split of one triangle from the middle of a side to the opposite vertex.
-/
namespace Verif

open Res

variable {α : Type}

theorem entry_of_row {m : Mesh α} (h : m.WF) {l : Lst} {i k v : Nat} {r : List Nat}
    (hr : m.row l i = ok r) (hk : r[k]? = some v) : m.entry l i k = ok v := by
  obtain ⟨A, hA, rfl⟩ := AMesh.exists_conc h
  obtain ⟨hlt, rfl⟩ := List.getElem?_eq_some_iff.1 hk
  rw [AMesh.entry_conc hA (AMesh.row_eq_ok hA hr)]
  unfold agetD
  simp [hlt]

theorem rowSize_of_row {m : Mesh α} (h : m.WF) {l : Lst} {i : Nat} {r : List Nat}
    (hr : m.row l i = ok r) : m.rowSize l i = ok r.length := by
  obtain ⟨A, hA, rfl⟩ := AMesh.exists_conc h
  exact AMesh.rowSize_conc hA (AMesh.row_eq_ok hA hr)

theorem hasEntry_of_row {m : Mesh α} (h : m.WF) {l : Lst} {i k v : Nat} {r : List Nat}
    (hr : m.row l i = ok r) (hk : r[k]? = some v) :
    m.hasEntry l i k = ok (decide (v < m.num l.target)) := by
  unfold Mesh.hasEntry
  rw [entry_of_row h hr hk, ok_bind]

/-- The two neighbours of the new edge are entered. -/
theorem insertTwo_spec {m : Mesh α} (h : m.WF) {e a b x y : Nat} (he : m.row .nb12 e = ok [x, y])
    (ha : a < m.num .d2) (hb : b < m.num .d2) :
    ∃ m', (do let m ← m.insertEntry .nb12 e 0 a; m.insertEntry .nb12 e 1 b) = ok m' ∧ m'.WF ∧
      m'.num = m.num ∧ (∀ i, m'.coordinates i = m.coordinates i) ∧
      (∀ i, m'.extremes i = m.extremes i) ∧ (∀ d i, m'.active d i = m.active d i) ∧
      (∀ d i, m'.marker d i = m.marker d i) ∧ (∀ d i, m'.original d i = m.original d i) ∧
      (∀ d i, m'.updated d i = m.updated d i) ∧
      (∀ l i, ¬ (l = .nb12 ∧ i = e) → m'.row l i = m.row l i) ∧ m'.row .nb12 e = ok [a, b] := by
  obtain ⟨A, hA, rfl⟩ := AMesh.exists_conc h
  have hr := AMesh.row_eq_ok hA he
  have hl := AMesh.lt_of_getElem? hr
  have o1 := AMesh.ok_setRow hA .nb12 e [a, y]
  have r1 : ((A.setRow .nb12 e [a, y]).rows .nb12)[e]? = some [a, y] := AMesh.setRow_row hl
  have o2 := AMesh.ok_setRow o1 .nb12 e [a, b]
  refine ⟨_, ?_, AMesh.wf_conc o2, rfl, fun _ => rfl, fun _ => rfl, fun _ _ => rfl, fun _ _ => rfl,
    fun _ _ => rfl, fun _ _ => rfl, ?_, ?_⟩
  · rw [AMesh.insertEntry_conc hA hr (by simp) ha, ok_bind]
    show (A.setRow .nb12 e [a, y]).conc.insertEntry .nb12 e 1 b = _
    rw [AMesh.insertEntry_conc o1 r1 (by simp) hb]
    rfl
  · intro l i hli
    rw [AMesh.setRow_setRow]
    by_cases hi : i < A.num l.owner
    · obtain ⟨r, hr⟩ := AMesh.getElem?_row hA hi
      rw [AMesh.row_conc hA hr]
      apply AMesh.row_conc (AMesh.ok_setRow hA _ _ _)
      rw [AMesh.setRow_rows _ _ _ _ _ _ hl, if_neg hli]
      exact hr
    · unfold Mesh.row
      rw [assert_false (show ¬ i < A.conc.num l.owner from hi),
        assert_false (show ¬ i < (A.setRow .nb12 e [a, b]).conc.num l.owner from hi)]
      rfl
  · rw [AMesh.setRow_setRow]
    exact AMesh.row_conc (AMesh.ok_setRow hA _ _ _) (AMesh.setRow_row hl)

/-- The triangle `t` with the vertices `a, b, o` and the sides `a b`, `f = b o`, `g = o a` was split
along a new edge from the point `w` of its side `a b` to the vertex `o`; the halves of the side are
`ha` at `a` and `hb` at `b`. -/
structure TriSplit (m m' : Mesh α) (t w a b o ha hb f g : Nat) : Prop where
  wf : m'.WF
  num0 : m'.num .d0 = m.num .d0
  num1 : m'.num .d1 = m.num .d1 + 1
  num2 : m'.num .d2 = m.num .d2 + 2
  coordinates : ∀ i, i < m.num .d0 → m'.coordinates i = m.coordinates i
  extremes : ∀ i, i < m.num .d1 → m'.extremes i = m.extremes i
  extremesNew : m'.extremes (m.num .d1) = ok (w, o)
  active0 : ∀ i, i < m.num .d0 → m'.active .d0 i = m.active .d0 i
  active1 : ∀ i, i < m.num .d1 → m'.active .d1 i = m.active .d1 i
  active1New : m'.active .d1 (m.num .d1) = ok true
  active2 : ∀ i, i < m.num .d2 → i ≠ t → m'.active .d2 i = m.active .d2 i
  inactive : m'.active .d2 t = ok false
  active2New : ∀ k, k < 2 → m'.active .d2 (m.num .d2 + k) = ok true
  marker : ∀ d i, i < m.num d → m'.marker d i = m.marker d i
  marker1New : m'.marker .d1 (m.num .d1) = ok 0
  marker2New : ∀ k, k < 2 → m'.marker .d2 (m.num .d2 + k) = m.marker .d2 t
  updated : ∀ i, i < m.num .d2 → i ≠ t → m'.updated .d2 i = m.updated .d2 i
  updatedOld : ∃ u, m'.updated .d2 t = ok (some u) ∧ m.num .d2 ∈ u ∧ m.num .d2 + 1 ∈ u
  updatedNew : ∀ k, k < 2 → m'.updated .d2 (m.num .d2 + k) = ok none
  original : ∀ i, i < m.num .d2 → m'.original .d2 i = m.original .d2 i
  originalNew : ∀ k, k < 2 → m'.original .d2 (m.num .d2 + k) = ok t
  vertices : ∀ i, i < m.num .d2 → m'.row .vert2 i = m.row .vert2 i
  edges : ∀ i, i < m.num .d2 → m'.row .edge2 i = m.row .edge2 i
  vertices0 : m'.row .vert2 (m.num .d2) = ok [o, a, w]
  edges0 : m'.row .edge2 (m.num .d2) = ok [g, ha, m.num .d1]
  vertices1 : m'.row .vert2 (m.num .d2 + 1) = ok [w, b, o]
  edges1 : m'.row .edge2 (m.num .d2 + 1) = ok [hb, f, m.num .d1]
  neighbours : ∀ x r, x < m.num .d1 → m.row .nb12 x = ok r →
    m'.row .nb12 x = ok (r.map fun y => if y = t then
      (if x = g ∨ x = ha then m.num .d2 else if x = hb ∨ x = f then m.num .d2 + 1 else t) else y)
  neighboursNew : m'.row .nb12 (m.num .d1) = ok [m.num .d2 + 1, m.num .d2]

variable {K : Type} [Field K] [LinearOrder K] [IsStrictOrderedRing K]

/-- What `SplitPolygon_NewVertexTo` does to a triangle: the checks, then the split. -/
theorem splitNewVertexTo_eq (G : GeoCfg K) (sqrt : K → K) (tol2D : K) {m : Mesh K} (h : m.WF)
    {t i w a b o e f g h0 h1 : Nat} {dir : Bool} (rotation : M3 K) (translation : V3 K)
    {vs es : List Nat} (tri : IsTri m t vs es) (hi : i < 3)
    (va : vs[i]? = some a) (vb : vs[(i + 1) % 3]? = some b) (vo : vs[(i + 2) % 3]? = some o)
    (ee : es[i]? = some e) (ef : es[(i + 1) % 3]? = some f) (eg : es[(i + 2) % 3]? = some g)
    (hw : w < m.num .d0) (hh0 : h0 < m.num .d1) (hh1 : h1 < m.num .d1)
    (hf : f < m.num .d1) (hg : g < m.num .d1) :
    ∃ m', TriSplit m m' t w a b o (if dir then h0 else h1) (if dir then h1 else h0) f g ∧
      G.splitNewVertexTo sqrt tol2D m t 3 ((i + 2) % 3) i rotation translation w [h0, h1] dir = (do
        let good0 ← G.isAreaPositive sqrt tol2D m [o, a, w] rotation translation
        if !good0 then ok (m, none)
        else do
          let good1 ← G.isAreaPositive sqrt tol2D m [w, b, o] rotation translation
          if !good1 then ok (m, none)
          else do
            let p ← m.point w
            let q ← m.point o
            if G.isValueZero ((q.sub p).norm sqrt) G.tol1D then ok (m, none)
            else ok (m', some (m.num .d1, [m.num .d2, m.num .d2 + 1]))) := by
  have ht : t < m.num .d2 := lt_of_row tri.vertices
  have hw1 : walkTo 3 i 3 ((i + 2) % 3) = ok [(i + 2) % 3] := by
    interval_cases i <;> decide
  have hw2 : walkTo 3 ((i + 2) % 3) 3 (i + 1) = ok [(i + 1) % 3] := by
    interval_cases i <;> decide
  have hlt : ∀ {k v}, vs[k]? = some v → v < m.num .d0 := fun hk =>
    tri.lt _ (List.mem_of_getElem? hk)
  obtain ⟨m1, hK, wf1, n1, nd, xN, aN, kN, rN, hrun⟩ :=
    newEdge_spec h w o hw (hlt vo)
  obtain ⟨⟨x1, k1⟩, s1, hrun⟩ := bind_eq_ok.1 hrun
  obtain ⟨x2, s2, hrun⟩ := bind_eq_ok.1 hrun
  obtain ⟨x3, s3, hrun⟩ := bind_eq_ok.1 hrun
  obtain ⟨x4, s4, hrun⟩ := bind_eq_ok.1 hrun
  obtain ⟨x5, s5, hrun⟩ := bind_eq_ok.1 hrun
  cases hrun
  have tv := (hK.rows .vert2 t ht).trans tri.vertices
  have te := (hK.rows .edge2 t ht).trans tri.edges
  set ha := if dir then h0 else h1 with hha
  set hb := if dir then h1 else h0 with hhb
  have v0 : vget [h0, h1] (if dir = true then 0 else 1) = ok ha := by
    cases dir <;> simp [vget, hha]
  have v1 : vget [h0, h1] (if dir = true then 1 else 0) = ok hb := by
    cases dir <;> simp [vget, hhb]
  have hha' : ha < m.num .d1 := by rw [hha]; cases dir <;> assumption
  have hhb' : hb < m.num .d1 := by rw [hhb]; cases dir <;> assumption
  have hz : ∀ s ∈ [[(o, g), (a, ha), (w, m.num .d1)], [(w, hb), (b, f), (o, m.num .d1)]],
      ∀ p ∈ s, p.1 < m1.num .d0 ∧ p.2 < m1.num .d1 := by
    rw [nd _ (by simp), n1]
    have q1 := hlt va
    have q2 := hlt vb
    have q3 := hlt vo
    intro s hs p hp
    simp only [List.mem_cons, List.not_mem_nil, or_false] at hs
    rcases hs with rfl | rfl <;>
      (simp only [List.mem_cons, List.not_mem_nil, or_false] at hp
       rcases hp with rfl | rfl | rfl <;> constructor <;> (dsimp only; omega))
  obtain ⟨y, hy, wfy, others, parent, sub, -, rep⟩ := c39_split_partial m1 wf1 t
    (by rw [nd _ (by simp)]; exact ht)
    [[(o, g), (a, ha), (w, m.num .d1)], [(w, hb), (b, f), (o, m.num .d1)]] hz
  have n2 : m1.num .d2 = m.num .d2 := nd _ (by simp)
  have hl : ((List.range 2).map (m1.num .d2 + ·)) = [m.num .d2, m.num .d2 + 1] := by
    rw [n2]; rfl
  change m1.splitCell2D t _ = ok (y, (List.range 2).map (m1.num .d2 + ·)) at hy
  rw [hl] at hy
  have hn : y.num = (fun d => if d = .d2 then m.num .d2 + 2 else m1.num d) := by
    funext d
    by_cases hd : d = .d2
    · subst hd; rw [others.num2, n2]; rfl
    · rw [others.num d hd, if_neg hd]
  have hvr : vresize ([] : List Nat) 2 Lst.nb12.fillOne = [Lst.nb12.fillOne, Lst.nb12.fillOne] := by
    decide
  have hNr := rep _ _ (rN.trans (by rw [hvr]))
  obtain ⟨z, hz1, wfz, zn, zc, zx, za, zm, zo, zu, zr, zN⟩ := insertTwo_spec wfy hNr
    (a := m.num .d2 + 1) (b := m.num .d2) (by rw [hn]; simp) (by rw [hn]; simp)
  obtain ⟨z', hz2, hz3⟩ := bind_eq_ok.1 hz1
  refine ⟨z, ?_, ?_⟩
  rotate_left
  · unfold GeoCfg.splitNewVertexTo
    rw [if_neg (by decide), hw1, ok_bind, hw2, ok_bind]
    simp only [mapRes, entry_of_row h tri.vertices va, entry_of_row h tri.vertices vb,
      entry_of_row h tri.vertices vo, ok_bind, List.cons_append, List.nil_append]
    congr 1
    funext good0
    split
    · rfl
    · congr 1
      funext good1
      split
      · rfl
      · congr 1
        funext p
        congr 1
        funext q
        split
        · rfl
        · rw [s1, ok_bind]
          dsimp only
          rw [s2, ok_bind, s3, ok_bind, s4, ok_bind, s5, ok_bind]
          simp only [entry_of_row wf1 te ef, entry_of_row wf1 te eg, ok_bind]
          rw [v0, ok_bind, v1, ok_bind]
          simp only [List.cons_append, List.nil_append, List.zip_cons_cons, List.zip_nil_right]
          rw [hy, ok_bind]
          dsimp only
          rw [show vget [m.num .d2, m.num .d2 + 1] 1 = ok (m.num .d2 + 1) from rfl, ok_bind, hz2,
            ok_bind, show vget [m.num .d2, m.num .d2 + 1] 0 = ok (m.num .d2) from rfl, ok_bind,
            hz3, ok_bind]
  have s0 := sub 0 _ rfl
  have s1 := sub 1 _ rfl
  rw [n2] at s0 s1
  have y1 : y.num .d1 = m.num .d1 + 1 := by rw [others.num _ (by simp), n1]
  have y0 : y.num .d0 = m.num .d0 := by rw [others.num _ (by simp), nd _ (by simp)]
  have lt1 : ∀ {i}, i < m.num .d1 → i < m1.num .d1 := by intro i hi; omega
  have lt0 : ∀ {i}, i < m.num .d0 → i < m1.num .d0 := by
    intro i hi; rw [nd _ (by simp)]; exact hi
  have lt2 : ∀ {i}, i < m.num .d2 → i < m1.num .d2 := by
    intro i hi; rw [nd _ (by simp)]; exact hi
  have hlt1 : m.num .d1 < m1.num .d1 := by omega
  constructor
  · exact wfz
  · rw [zn, y0]
  · rw [zn, y1]
  · rw [zn, hn]; simp
  · intro i hi; rw [zc, others.coordinates i (lt0 hi), hK.coordinates i hi]
  · intro i hi; rw [zx, others.extremes i (lt1 hi), hK.extremes i hi]
  · rw [zx, others.extremes _ hlt1, xN]
  · intro i hi; rw [za, others.active .d0 i (lt0 hi) (by simp), hK.active .d0 i hi]
  · intro i hi; rw [za, others.active .d1 i (lt1 hi) (by simp), hK.active .d1 i hi]
  · rw [za, others.active .d1 _ hlt1 (by simp), aN]
  · intro i hi hne
    rw [za, others.active .d2 i (lt2 hi) (by simpa using hne), hK.active .d2 i hi]
  · rw [za]; exact parent.inactive
  · intro k hk
    rw [za]
    interval_cases k
    · exact s0.active
    · exact s1.active
  · intro d i hi
    rw [zm, others.marker d i (lt_of_lt_of_le hi (hK.num d)), hK.marker d i hi]
  · rw [zm, others.marker .d1 _ hlt1, kN]
  · intro k hk
    rw [zm]
    interval_cases k
    · rw [← hK.marker .d2 t ht]; exact s0.marker
    · rw [← hK.marker .d2 t ht]; exact s1.marker
  · intro i hi hne
    rw [zu, others.updated .d2 i (lt2 hi) (by simpa using hne), hK.updated .d2 i hi]
  · obtain ⟨old, new, -, h2, h3⟩ := parent.updated
    rw [n2] at h3
    have q0 := (h3 (m.num .d2)).2 (Or.inr ⟨le_refl _, by simp⟩)
    have q1 := (h3 (m.num .d2 + 1)).2 (Or.inr ⟨by omega, by simp⟩)
    cases new with
    | none => simp at q0
    | some u => exact ⟨u, by rw [zu]; exact h2, q0, q1⟩
  · intro k hk
    rw [zu]
    interval_cases k
    · exact s0.updated
    · exact s1.updated
  · intro i hi
    rw [zo, others.original .d2 i (lt2 hi), hK.original i hi]
  · intro k hk
    rw [zo]
    interval_cases k
    · exact s0.original
    · exact s1.original
  · intro i hi
    rw [zr _ _ (by simp), others.rows .vert2 i (lt2 hi) (by simp) (by simp), hK.rows .vert2 i hi]
  · intro i hi
    rw [zr _ _ (by simp), others.rows .edge2 i (lt2 hi) (by simp) (by simp), hK.rows .edge2 i hi]
  · rw [zr _ _ (by simp)]; exact s0.vertices
  · rw [zr _ _ (by simp)]; exact s0.edges
  · rw [zr _ _ (by simp)]; exact s1.vertices
  · rw [zr _ _ (by simp)]; exact s1.edges
  · intro x r hx hr
    have hx' : x ≠ m.num .d1 := by omega
    rw [zr _ _ (by simpa using hx'), rep x r ((hK.rows .nb12 x hx).trans hr)]
    congr 1
    apply List.map_congr_left
    intro u _
    by_cases hu : u = t
    · rw [if_pos hu, if_pos hu, n2]
      simp only [List.map_cons, List.map_nil, AMesh.heir_cons, List.mem_cons, List.not_mem_nil,
        or_false, hx']
      rfl
    · rw [if_neg hu, if_neg hu]
  · exact zN

/-- What `SplitPolygon_NewVertexTo` does to a triangle: nothing, or the split. -/
theorem splitNewVertexTo_spec (G : GeoCfg K) (sqrt : K → K) (tol2D : K) {m m' : Mesh K} (h : m.WF)
    {t i w a b o e f g h0 h1 : Nat} {dir : Bool} {rotation : M3 K} {translation : V3 K}
    {vs es : List Nat} {res : Option (Nat × List Nat)} (tri : IsTri m t vs es) (hi : i < 3)
    (va : vs[i]? = some a) (vb : vs[(i + 1) % 3]? = some b) (vo : vs[(i + 2) % 3]? = some o)
    (ee : es[i]? = some e) (ef : es[(i + 1) % 3]? = some f) (eg : es[(i + 2) % 3]? = some g)
    (hw : w < m.num .d0) (hh0 : h0 < m.num .d1) (hh1 : h1 < m.num .d1)
    (hf : f < m.num .d1) (hg : g < m.num .d1)
    (run : G.splitNewVertexTo sqrt tol2D m t 3 ((i + 2) % 3) i rotation translation w [h0, h1] dir
      = ok (m', res)) :
    (res = none ∧ m' = m) ∨
    (res = some (m.num .d1, [m.num .d2, m.num .d2 + 1]) ∧
      TriSplit m m' t w a b o (if dir then h0 else h1) (if dir then h1 else h0) f g) := by
  obtain ⟨m1, hs, heq⟩ := splitNewVertexTo_eq G sqrt tol2D (dir := dir) h rotation translation tri hi va vb
    vo ee ef eg hw hh0 hh1 hf hg
  rw [heq] at run
  obtain ⟨good0, -, run⟩ := bind_eq_ok.1 run
  cases good0 with
  | false => left; simp at run; exact ⟨run.2.symm, run.1.symm⟩
  | true =>
    simp only [Bool.not_true, Bool.false_eq_true, if_false] at run
    obtain ⟨good1, -, run⟩ := bind_eq_ok.1 run
    cases good1 with
    | false => left; simp at run; exact ⟨run.2.symm, run.1.symm⟩
    | true =>
      simp only [Bool.not_true, Bool.false_eq_true, if_false] at run
      obtain ⟨p, -, run⟩ := bind_eq_ok.1 run
      obtain ⟨q, -, run⟩ := bind_eq_ok.1 run
      split at run
      · left; simp at run; exact ⟨run.2.symm, run.1.symm⟩
      · right
        cases run
        exact ⟨rfl, hs⟩

end Verif
