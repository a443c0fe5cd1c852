import Verif.MetisLemmas

/-
Helper lemmas for the connected components of a partition and for renumbering.
-/
namespace Verif

open Res Relation

/-! ### Splitting the vertices by label -/

/-- The vertices below `k` with label `p`. -/
def verts (part : List Nat) (k p : Nat) : List Nat :=
  (List.range k).filter fun v => part[v]? == some p

theorem mem_verts {part : List Nat} {k p v : Nat} :
    v ∈ verts part k p ↔ v < k ∧ part[v]? = some p := by
  simp [verts]

theorem nodup_verts (part : List Nat) (k p : Nat) : (verts part k p).Nodup :=
  List.nodup_range.filter _

theorem verts_succ (part : List Nat) (k p : Nat) : verts part (k + 1) p =
    verts part k p ++ if part[k]? = some p then [k] else [] := by
  unfold verts
  rw [List.range_succ, List.filter_append]
  congr 1
  by_cases h : part[k]? = some p <;> simp [h]

theorem umapFind_eq_none {m : UMap} {k : Nat} (h : k ∉ m.map (·.1)) : umapFind m k = none := by
  induction m with
  | nil => rfl
  | cons p m ih =>
    obtain ⟨a, b⟩ := p
    simp only [List.map_cons, List.mem_cons, not_or] at h
    rw [umapFind, if_neg (Ne.symm h.1), ih h.2]

theorem splitParts_spec (part : List Nat) (m : Nat) (hm : ∀ x ∈ part, x ≤ m) : ∀ k,
    k ≤ part.length →
    foldRes (splitParts part) (List.replicate (m + 1) [], List.replicate (m + 1) [])
      (List.range k) = ok ((List.range (m + 1)).map (verts part k),
        (List.range (m + 1)).map fun p => (verts part k p).zipIdx) := by
  intro k
  induction k with
  | zero =>
    intro _
    simp only [List.range_zero, foldRes_nil]
    congr 2 <;>
    · apply List.ext_getElem
      · simp
      · intro i h1 h2; simp [verts]
  | succ k ih =>
    intro hk
    have hkl : k < part.length := by omega
    have hle : part[k] ≤ m := hm _ (List.getElem_mem hkl)
    rw [List.range_succ, foldRes_append, ih (by omega), ok_bind, foldRes_cons]
    unfold splitParts
    rw [vget_of_lt hkl]
    simp only [ok_bind]
    rw [pushBack_eq _ (by simp; omega)]
    simp only [ok_bind]
    rw [vget_of_lt (by simp; omega)]
    simp only [ok_bind]
    rw [vset_of_lt _ (by simp; omega)]
    simp only [ok_bind, foldRes_nil, List.getElem_map, List.getElem_range]
    congr 2
    · apply List.ext_getElem
      · simp
      · intro i h1 h2
        rw [List.getElem_set]
        simp only [List.getElem_map, List.getElem_range, verts_succ, List.getElem?_eq_getElem hkl,
          Option.some.injEq]
        by_cases h : part[k] = i
        · subst h; simp
        · simp [h]
    · apply List.ext_getElem
      · simp
      · intro i h1 h2
        rw [List.getElem_set]
        simp only [List.getElem_map, List.getElem_range, verts_succ, List.getElem?_eq_getElem hkl,
          Option.some.injEq]
        by_cases h : part[k] = i
        · subst h
          have hnone : umapFind (verts part k part[k]).zipIdx k = none := by
            apply umapFind_eq_none
            rw [List.zipIdx_map_fst]
            intro h; have := (mem_verts.1 h).1; omega
          simp [umapInsert, hnone, List.zipIdx_append]
        · simp [h]

/-! ### Relabelling the components of one part -/

theorem relabel_spec {vs : List Nat} {label n : Nat} (hvs : ∀ v ∈ vs, v < n) (comp : List Nat) :
    ∀ fixed : List Nat, fixed.length = n → (∀ x ∈ comp, x < vs.length) →
    ∃ fixed', relabel vs label fixed comp = ok fixed' ∧ fixed'.length = n ∧
      (∀ x ∈ comp, ∀ u : Nat, vs[x]? = some u → fixed'[u]? = some label) ∧
      ∀ u : Nat, (∀ x ∈ comp, vs[x]? ≠ some u) → fixed'[u]? = fixed[u]? := by
  induction comp with
  | nil => intro fixed hf _; exact ⟨fixed, rfl, hf, by simp, by simp⟩
  | cons x comp ih =>
    intro fixed hf hx
    have hxl : x < vs.length := hx x (by simp)
    have hv : vs[x] < n := hvs _ (List.getElem_mem hxl)
    have hset : ∀ u : Nat, (fixed.set vs[x] label)[u]? = if u = vs[x] then some label else fixed[u]? := by
      intro u
      rw [List.getElem?_set]
      by_cases hu : vs[x] = u
      · subst hu; simp [hf, hv]
      · rw [if_neg hu, if_neg (fun h => hu h.symm)]
    obtain ⟨f', h1, h2, h3, h4⟩ := ih (fixed.set vs[x] label) (by simpa using hf)
      (fun y hy => hx y (by simp [hy]))
    refine ⟨f', ?_, h2, ?_, ?_⟩
    · unfold relabel at h1 ⊢
      rw [foldRes_cons, vat_of_getElem? (List.getElem?_eq_getElem hxl), ok_bind,
        vset_of_lt _ (by omega), ok_bind, h1]
    · intro y hy u hu
      rcases List.mem_cons.1 hy with rfl | hy
      · by_cases hex : ∃ z ∈ comp, vs[z]? = some u
        · obtain ⟨z, hz, hzu⟩ := hex
          exact h3 z hz u hzu
        · rw [h4 u (fun z hz hzu => hex ⟨z, hz, hzu⟩), hset]
          rw [List.getElem?_eq_getElem hxl] at hu
          simp only [Option.some.injEq] at hu
          rw [if_pos hu.symm]
      · exact h3 y hy u hu
    · intro u hu
      rw [h4 u (fun z hz => hu z (by simp [hz])), hset, if_neg]
      intro h
      exact hu x (by simp) (by rw [List.getElem?_eq_getElem hxl, h])

theorem relabelAll_spec {vs : List Nat} {n : Nat} (hvs : ∀ v ∈ vs, v < n) (hnd : vs.Nodup)
    (comps : List (List Nat)) : ∀ (fixed : List Nat) (M : Nat), fixed.length = n →
    comps.flatten.Nodup → (∀ x ∈ comps.flatten, x < vs.length) →
    ∃ fixed', foldRes (fun (s : List Nat × Nat) comp => do
        let fixed ← relabel vs (s.2 + 1) s.1 comp
        ok (fixed, s.2 + 1)) (fixed, M) comps = ok (fixed', M + comps.length) ∧
      fixed'.length = n ∧
      (∀ (i : Nat) (c : List Nat), comps[i]? = some c → ∀ x ∈ c, ∀ u : Nat, vs[x]? = some u →
        fixed'[u]? = some (M + 1 + i)) ∧
      ∀ u : Nat, (∀ x ∈ comps.flatten, vs[x]? ≠ some u) → fixed'[u]? = fixed[u]? := by
  induction comps with
  | nil => intro fixed M hf _ _; exact ⟨fixed, rfl, hf, by simp, by simp⟩
  | cons c comps ih =>
    intro fixed M hf hd hx
    rw [List.flatten_cons] at hd
    obtain ⟨hd1, hd2, hd3⟩ := List.nodup_append.1 hd
    obtain ⟨f1, h1, h2, h3, h4⟩ := relabel_spec (label := M + 1) hvs c fixed hf
      (fun x hx' => hx x (by simp [hx']))
    obtain ⟨f2, h5, h6, h7, h8⟩ := ih f1 (M + 1) h2 hd2 (fun x hx' => hx x (by
      rw [List.flatten_cons]; exact List.mem_append_right _ hx'))
    refine ⟨f2, ?_, h6, ?_, ?_⟩
    · rw [foldRes_cons]
      simp only [h1, ok_bind]
      rw [h5]; simp only [List.length_cons]
      congr 2; omega
    · intro i c' hi x hxc u hu
      cases i with
      | zero =>
        simp only [List.getElem?_cons_zero, Option.some.injEq] at hi
        subst hi
        rw [h8 u, h3 x hxc u hu]
        intro y hy hyu
        have : y = x := (List.getElem?_inj (List.getElem?_eq_some_iff.1 hyu).1 hnd).1 (hyu.trans hu.symm)
        subst this
        exact hd3 y hxc y hy rfl
      | succ i =>
        rw [List.getElem?_cons_succ] at hi
        rw [h7 i c' hi x hxc u hu]
        congr 1; omega
    · intro u hu
      rw [h8 u (fun x hx' => hu x (by rw [List.flatten_cons]; exact List.mem_append_right _ hx')),
        h4 u (fun x hx' => hu x (by rw [List.flatten_cons]; exact List.mem_append_left _ hx'))]

/-! ### The induced graph of one part -/

theorem sub_isMap (l : List Nat) (h : l.Nodup) : UMap.IsMap l.zipIdx := by
  unfold UMap.IsMap
  rw [List.zipIdx_map_fst]; exact h

theorem zipIdx_snd (l : List Nat) : l.zipIdx.map (·.2) = List.range l.length := by
  apply List.ext_getElem
  · simp
  · intro i h1 h2; simp

/-- Reachability inside the part with label `p`. -/
theorem reach_sub {G H : Graph} {part : List Nat} {n p : Nat} (hG : G.InRange)
    (hn : G.length = n) (hH : H.length = (verts part n p).length) (hHr : H.InRange)
    (hm : ∀ u fu w fw, (u, fu) ∈ (verts part n p).zipIdx → (w, fw) ∈ (verts part n p).zipIdx →
      mult H fu fw = mult G u w) {x y : Nat}
    (hx : x < (verts part n p).length) (hy : y < (verts part n p).length) :
    Reach H x y ↔ ReflTransGen (fun a b => Edge G a b ∧ part[a]? = part[b]?)
      (verts part n p)[x] (verts part n p)[y] := by
  have hedge : ∀ (i j : Nat) (hi : i < (verts part n p).length) (hj : j < (verts part n p).length),
      Edge H i j ↔ Edge G (verts part n p)[i] (verts part n p)[j] := by
    intro i j hi hj
    rw [edge_iff_mult, edge_iff_mult, hm (verts part n p)[i] i (verts part n p)[j] j]
    · rw [List.mem_zipIdx_iff_getElem?]; simp [hi]
    · rw [List.mem_zipIdx_iff_getElem?]; simp [hj]
  have hlab : ∀ (i : Nat) (hi : i < (verts part n p).length),
      part[(verts part n p)[i]]? = some p := fun i hi =>
    (mem_verts.1 (List.getElem_mem hi)).2
  constructor
  · intro h
    revert hy
    induction h with
    | refl => intro _; exact ReflTransGen.refl
    | @tail b c hb hbc ih =>
      intro hc
      have hbl : b < (verts part n p).length := by rw [← hH]; exact hbc.lt_left
      refine ReflTransGen.tail (ih hbl) ⟨(hedge b c hbl hc).1 hbc, ?_⟩
      rw [hlab b hbl, hlab c hc]
  · intro h
    suffices hs : ∀ w, ReflTransGen (fun a b => Edge G a b ∧ part[a]? = part[b]?)
        (verts part n p)[x] w → ∃ j, ∃ hj : j < (verts part n p).length,
          w = (verts part n p)[j] ∧ Reach H x j by
      obtain ⟨j, hj, hjw, hr⟩ := hs _ h
      have : y = j := (List.Nodup.getElem_inj_iff (nodup_verts part n p)).1 hjw
      rw [this]; exact hr
    intro w hw
    induction hw with
    | refl => exact ⟨x, hx, rfl, ReflTransGen.refl⟩
    | @tail b c _ hbc ih =>
      obtain ⟨j, hj, rfl, hr⟩ := ih
      have hc : c ∈ verts part n p := by
        rw [mem_verts]
        refine ⟨by rw [← hn]; exact hG _ _ hbc.1, ?_⟩
        rw [← hbc.2, hlab j hj]
      obtain ⟨k, hk, rfl⟩ := List.getElem_of_mem hc
      exact ⟨k, hk, rfl, ReflTransGen.tail hr ((hedge j k hj hk).2 hbc.1)⟩

/-- State of the loop over the parts after the parts below `p`. -/
structure PInv (G : Graph) (part : List Nat) (m p : Nat) (s : List Nat × Nat) : Prop where
  length : s.1.length = part.length
  max : m ≤ s.2
  le : ∀ (u x : Nat), s.1[u]? = some x → x ≤ s.2
  later : ∀ (u x : Nat), part[u]? = some x → p ≤ x → s.1[u]? = some x
  own : ∀ (u x y : Nat), part[u]? = some x → x < p → s.1[u]? = some y → y = x ∨ m < y
  classes : ∀ (u w x : Nat), part[u]? = some x → x < p → w < part.length →
    (s.1[u]? = s.1[w]? ↔ part[u]? = part[w]? ∧
      ReflTransGen (fun a b => Edge G a b ∧ part[a]? = part[b]?) u w ∧
      ReflTransGen (fun a b => Edge G a b ∧ part[a]? = part[b]?) w u)

theorem component_step {G : Graph} {part : List Nat} {m p fuel : Nat} (hG : G.InRange)
    (hn : G.length = part.length) (hm : ∀ x ∈ part, x ≤ m) (hp : p ≤ m)
    (hf : G.length ≤ fuel) {s : List Nat × Nat} (h : PInv G part m p s) :
    ∃ s', componentStep G fuel ((List.range (m + 1)).map (verts part part.length))
        ((List.range (m + 1)).map fun p => (verts part part.length p).zipIdx) s p = ok s' ∧
      PInv G part m (p + 1) s' := by
  obtain ⟨F, M⟩ := s
  have hFl : F.length = part.length := h.length
  have hmM : m ≤ M := h.max
  generalize hV : verts part part.length p = V
  have hVmem : ∀ v, v ∈ V ↔ v < part.length ∧ part[v]? = some p := fun v => by
    rw [← hV]; exact mem_verts
  have hVnd : V.Nodup := hV ▸ nodup_verts _ _ _
  obtain ⟨H, hH, hHl, hHr, hHm, _⟩ := c17_sub_graph G V.zipIdx (sub_isMap V hVnd)
    (fun q hq => by
      have : q.1 ∈ V := List.fst_mem_of_mem_zipIdx hq
      rw [hn]; exact ((hVmem _).1 this).1)
    (by rw [zipIdx_snd]; simp)
  have hHl' : H.length = V.length := by simpa using hHl
  have hVle : V.length ≤ part.length := by
    rw [← hV, verts]
    exact (List.length_filter_le _ _).trans (by simp)
  obtain ⟨comps, hc, hperm, hne, hcomp⟩ := c16_components H hHr fuel (by omega)
  have hcnd : comps.flatten.Nodup := hperm.nodup_iff.2 List.nodup_range
  have hcl : ∀ x, x ∈ comps.flatten ↔ x < V.length := fun x => by
    rw [hperm.mem_iff, List.mem_range, hHl']
  have hdrop : (comps.drop 1).flatten.Nodup := by
    cases comps with
    | nil => simp
    | cons c comps => rw [List.flatten_cons] at hcnd; exact (List.nodup_append.1 hcnd).2.1
  have hdropmem : ∀ x ∈ (comps.drop 1).flatten, x < V.length := by
    intro x hx
    rw [← hcl]
    cases comps with
    | nil => simp at hx
    | cons c comps => rw [List.flatten_cons]; exact List.mem_append_right _ hx
  obtain ⟨F', h1, h2, h3, h4⟩ := relabelAll_spec (n := part.length)
    (fun v hv => ((hVmem v).1 hv).1) hVnd (comps.drop 1) F M hFl hdrop hdropmem
  -- the label of a vertex of this part
  have hlabel : ∀ (i : Nat) (c : List Nat), comps[i]? = some c → ∀ x ∈ c, ∀ u : Nat,
      V[x]? = some u → F'[u]? = some (if i = 0 then p else M + i) := by
    intro i c hi x hx u hu
    cases i with
    | zero =>
      rw [if_pos rfl, h4 u]
      · have hu' := (hVmem u).1 (List.mem_of_getElem? hu)
        exact h.later u p hu'.2 (Nat.le_refl _)
      · intro y hy hyu
        have hyx : y = x := (List.getElem?_inj (List.getElem?_eq_some_iff.1 hyu).1 hVnd).1
          (hyu.trans hu.symm)
        subst hyx
        cases comps with
        | nil => simp at hi
        | cons c' comps =>
          simp only [List.getElem?_cons_zero, Option.some.injEq] at hi
          subst hi
          rw [List.flatten_cons] at hcnd
          exact (List.nodup_append.1 hcnd).2.2 y hx y (by simpa using hy) rfl
    | succ i =>
      rw [h3 i c (by rw [List.getElem?_drop, Nat.add_comm]; exact hi) x hx u hu]
      rw [if_neg (by omega)]
      congr 1; omega
  have hfind : ∀ u : Nat, part[u]? = some p → ∃ (x i : Nat) (c : List Nat),
      V[x]? = some u ∧ comps[i]? = some c ∧ x ∈ c := by
    intro u hu
    have hul := (List.getElem?_eq_some_iff.1 hu).1
    obtain ⟨x, hx⟩ := List.mem_iff_getElem?.1 ((hVmem u).2 ⟨hul, hu⟩)
    obtain ⟨c, hc, hxc⟩ := List.mem_flatten.1 ((hcl x).2 (List.getElem?_eq_some_iff.1 hx).1)
    obtain ⟨i, hi⟩ := List.mem_iff_getElem?.1 hc
    exact ⟨x, i, c, hx, hi, hxc⟩
  have hother : ∀ u : Nat, part[u]? ≠ some p → F'[u]? = F[u]? := by
    intro u hu
    apply h4
    intro x hx hxu
    exact hu ((hVmem u).1 (List.mem_of_getElem? hxu)).2
  have hilt : ∀ (i : Nat) (c : List Nat), comps[i]? = some c → i < comps.length :=
    fun i c hi => (List.getElem?_eq_some_iff.1 hi).1
  refine ⟨(F', M + (comps.drop 1).length), ?_, h2, ?_, ?_, ?_, ?_, ?_⟩
  · unfold componentStep
    rw [vget_of_lt (by simp; omega)]
    simp only [List.getElem_map, List.getElem_range, ok_bind, hV]
    rw [hH, ok_bind, hc, ok_bind]
    by_cases hlt : comps.length < 2
    · rw [if_pos hlt]
      have hnil : comps.drop 1 = [] := List.drop_eq_nil_iff.2 (by omega)
      rw [hnil] at h1 ⊢
      exact h1
    · rw [if_neg hlt, vget_of_lt (by simp; omega)]
      simp only [List.getElem_map, List.getElem_range, ok_bind, hV]
      exact h1
  · show m ≤ M + _; omega
  · intro u x hx
    show x ≤ M + (comps.drop 1).length
    by_cases hu : part[u]? = some p
    · obtain ⟨y, i, c, hy, hi, hyc⟩ := hfind u hu
      have hh := hlabel i c hi y hyc u hy
      have hilt' := hilt i c hi
      simp only at hx
      rw [hx] at hh
      simp only [Option.some.injEq] at hh
      rw [List.length_drop, hh]
      split <;> omega
    · simp only [hother u hu] at hx
      have := h.le u x hx
      simp only at this; omega
  · intro u x hux hx
    have hne : part[u]? ≠ some p := by rw [hux]; simp; omega
    simp only [hother u hne]
    exact h.later u x hux (by omega)
  · intro u x y hux hx hy
    simp only at hy
    by_cases hu : part[u]? = some p
    · obtain ⟨z, i, c, hz, hi, hzc⟩ := hfind u hu
      have hh := hlabel i c hi z hzc u hz
      rw [hy] at hh
      rw [hux] at hu
      simp only [Option.some.injEq] at hh hu
      rw [hh]
      split
      · left; omega
      · right; omega
    · rw [hother u hu] at hy
      refine h.own u x y hux ?_ hy
      rw [hux] at hu
      simp only [ne_eq, Option.some.injEq] at hu
      omega
  · intro u w x hux hx hw
    simp only
    by_cases hu : part[u]? = some p
    · obtain ⟨z, i, c, hz, hi, hzc⟩ := hfind u hu
      have hlu := hlabel i c hi z hzc u hz
      by_cases hwp : part[w]? = some p
      · obtain ⟨z', i', c', hz', hi', hzc'⟩ := hfind w hwp
        have hlw := hlabel i' c' hi' z' hzc' w hz'
        rw [hlu, hlw]
        have h5 : (some (if i = 0 then p else M + i) = some (if i' = 0 then p else M + i')) ↔
            i = i' := by
          simp only [Option.some.injEq]
          constructor
          · intro hh; split at hh <;> split at hh <;> omega
          · rintro rfl; rfl
        have h6 : i = i' ↔ z' ∈ c := by
          constructor
          · rintro rfl; rw [hi] at hi'; cases hi'; exact hzc'
          · intro hmem
            by_contra hne'
            have hpw := (List.nodup_flatten.1 hcnd).2
            rw [List.pairwise_iff_getElem] at hpw
            obtain ⟨h7, h8⟩ := List.getElem?_eq_some_iff.1 hi
            obtain ⟨h9, h10⟩ := List.getElem?_eq_some_iff.1 hi'
            rcases Nat.lt_or_gt_of_ne hne' with h' | h'
            · have := hpw i i' h7 h9 h'
              rw [h8, h10] at this
              exact this hmem hzc'
            · have := hpw i' i h9 h7 h'
              rw [h8, h10] at this
              exact this hzc' hmem
        rw [h5, h6, hcomp c (List.mem_of_getElem? hi) z hzc z']
        obtain ⟨hzl, hzu⟩ := List.getElem?_eq_some_iff.1 hz
        obtain ⟨hzl', hzw⟩ := List.getElem?_eq_some_iff.1 hz'
        subst hV
        rw [reach_sub hG hn hHl' hHr hHm hzl hzl', reach_sub hG hn hHl' hHr hHm hzl' hzl, hzu, hzw]
        rw [hu, hwp]; simp
      · have hFw := hother w hwp
        rw [hlu, hFw, hu]
        constructor
        · intro hh
          exfalso
          obtain ⟨y, hy⟩ : ∃ y, part[w]? = some y := ⟨part[w], by simp [hw]⟩
          have hyp : y ≠ p := fun h => hwp (by rw [hy, h])
          rcases Nat.lt_or_gt_of_ne hyp with hlt | hgt
          · have hle := h.le w _ hh.symm
            have hown := h.own w y _ hy hlt hh.symm
            simp only at hle
            split at hle <;> split at hown <;> omega
          · have := h.later w y hy (by omega)
            simp only at this
            rw [this] at hh
            simp only [Option.some.injEq] at hh
            have hym : y ≤ m := hm y (List.mem_of_getElem? hy)
            split at hh <;> omega
        · rintro ⟨hh, _⟩; exact absurd hh.symm hwp
    · rw [hother u hu]
      have hxp : x < p := by
        rw [hux] at hu
        simp only [ne_eq, Option.some.injEq] at hu
        omega
      by_cases hwp : part[w]? = some p
      · obtain ⟨z', i', c', hz', hi', hzc'⟩ := hfind w hwp
        have hlw := hlabel i' c' hi' z' hzc' w hz'
        rw [hlw]
        constructor
        · intro hh
          exfalso
          have hle := h.le u _ hh
          have hown := h.own u x _ hux hxp hh
          simp only at hle
          split at hle <;> split at hown <;> omega
        · rintro ⟨hh, _⟩
          exact absurd (hh.trans hwp) hu
      · rw [hother w hwp]
        exact h.classes u w x hux hxp hw

theorem components_fold {G : Graph} {part : List Nat} {m fuel : Nat} (hG : G.InRange)
    (hn : G.length = part.length) (hm : ∀ x ∈ part, x ≤ m) (hf : G.length ≤ fuel) : ∀ p,
    p ≤ m + 1 →
    ∃ s', foldRes (componentStep G fuel ((List.range (m + 1)).map (verts part part.length))
        ((List.range (m + 1)).map fun p => (verts part part.length p).zipIdx)) (part, m)
        (List.range p) = ok s' ∧ PInv G part m p s' := by
  intro p
  induction p with
  | zero =>
    intro _
    refine ⟨(part, m), rfl, rfl, Nat.le_refl _, fun u x hx => hm x (List.mem_of_getElem? hx),
      fun u x hx _ => hx, by omega, by omega⟩
  | succ p ih =>
    intro hp
    obtain ⟨s1, h1, hI⟩ := ih (by omega)
    obtain ⟨s2, h2, hI2⟩ := component_step hG hn hm (by omega : p ≤ m) hf hI
    exact ⟨s2, by rw [List.range_succ (n := p), foldRes_append, h1, ok_bind, foldRes_cons, h2]; rfl, hI2⟩

/-! ### Renumbering -/

/-- What the reordering loop does with `rounds` rounds to go. -/
theorem reorder_spec : ∀ (rounds control base : Nat) (part : List Nat), base ≤ control →
    (∀ x ∈ part, base ≤ x ∧ x < control + rounds) → (∀ y, base ≤ y → y < control → y ∈ part) →
    ∃ (f : Nat → Nat) (top : Nat), reorderLoop rounds control part = part.map f ∧
      (∀ x ∈ part, ∀ y ∈ part, x < y → f x < f y) ∧
      ∀ z, z ∈ part.map f ↔ base ≤ z ∧ z < top := by
  intro rounds
  induction rounds with
  | zero =>
    intro control base part hb hr hp
    refine ⟨id, control, by simp [reorderLoop], fun x _ y _ h => h, fun z => ?_⟩
    rw [List.map_id]
    exact ⟨fun h => hr z h, fun h => hp z h.1 h.2⟩
  | succ rounds ih =>
    intro control base part hb hr hp
    rw [reorderLoop]
    by_cases hc : control ∈ part
    · rw [if_pos hc]
      refine ih (control + 1) base part (by omega) (fun x hx => ⟨(hr x hx).1, ?_⟩) fun y h1 h2 => ?_
      · have := (hr x hx).2; omega
      · by_cases h : y = control
        · rw [h]; exact hc
        · exact hp y h1 (by omega)
    · rw [if_neg hc]
      have hne : ∀ x ∈ part, x ≠ control := fun x hx h => hc (h ▸ hx)
      obtain ⟨f, top, h1, h2, h3⟩ := ih control base
        (part.map fun p => if control < p then p - 1 else p) hb
        (fun x hx => by
          obtain ⟨y, hy, rfl⟩ := List.mem_map.1 hx
          have := hr y hy
          have := hne y hy
          split <;> omega)
        (fun y h1 h2 => List.mem_map.2 ⟨y, hp y h1 h2, by rw [if_neg (by omega)]⟩)
      refine ⟨fun x => f (if control < x then x - 1 else x), top, ?_, ?_, ?_⟩
      · rw [h1, List.map_map]; rfl
      · intro x hx y hy hxy
        refine h2 _ (List.mem_map.2 ⟨x, hx, rfl⟩) _ (List.mem_map.2 ⟨y, hy, rfl⟩) ?_
        have := hne x hx
        have := hne y hy
        split <;> split <;> omega
      · intro z
        rw [← h3 z, List.map_map]; rfl

end Verif
