import Verif.MetisLemmas2
import Mathlib.Data.List.Perm.Subperm
import Mathlib.Data.List.Dedup

/-
Properties C19 to C22 and C42: networks in METIS format and partitions.
-/
namespace Verif

open Res Relation

/-- A network with five vertices used in the examples: a triangle 0 1 2, and an edge 3 4, every edge
in both directions. -/
def exampleNetwork : Csr Nat := ⟨[0, 2, 4, 6, 7, 8], [1, 2, 0, 2, 0, 1, 4, 3]⟩

theorem exampleNetwork_ok : Network exampleNetwork 5 :=
  ⟨Csr.wf_ofRows [[1, 2], [0, 2], [0, 1], [4], [3]], by decide⟩

/-! ### C19 -/

/-- C19: the METIS format of an adjacency list is well-formed and converts back to the same list,
for every adjacency list. -/
theorem c19_round_trip (G : Graph) : ∃ c, toMetis G = ok c ∧ c.WF G.length ∧ fromMetis c = ok G :=
  ⟨_, toMetis_eq G, Csr.wf_ofRows G, fromMetis_eq G⟩

/-- C19, other direction: every network in METIS format converts to an adjacency list with as many
rows as vertices, and that converts back to the same offsets and columns. -/
theorem c19_round_trip_network (c : Csr Nat) (n : Nat) (h : c.WF n) :
    ∃ G, fromMetis c = ok G ∧ G.length = n ∧ toMetis G = ok c := by
  obtain ⟨G, hG, rfl⟩ := Csr.exists_rows_of_wf h
  exact ⟨G, fromMetis_eq G, hG, toMetis_eq G⟩

/-- C19, meaning of the format: vertex `w` is listed after vertex `v` exactly when some column
between the offsets of `v` names `w`. -/
theorem c19_edges (c : Csr Nat) (n : Nat) (h : c.WF n) (G : Graph) (hG : fromMetis c = ok G)
    (v w : Nat) : Edge G v w ↔ ∃ k, NetEdge c k v w := by
  obtain ⟨G', _, rfl⟩ := Csr.exists_rows_of_wf h
  rw [fromMetis_eq, ok.injEq] at hG
  subst hG
  exact exists_netEdge.symm

example : toMetis [[1], [], [0, 1]] = ok ⟨[0, 1, 1, 3], [1, 0, 1]⟩ ∧
    fromMetis ⟨[0, 1, 1, 3], [1, 0, 1]⟩ = ok [[1], [], [0, 1]] ∧ toMetis [] = ok ⟨[0], []⟩ ∧
    Edge [[1], [], [0, 1]] 2 1 ∧ NetEdge ⟨[0, 1, 1, 3], [1, 0, 1]⟩ 2 2 1 ∧
    (⟨[0, 1, 1, 3], [1, 0, 1]⟩ : Csr Nat).WF 3 :=
  ⟨by decide, by decide, by decide, ⟨_, rfl, by decide⟩, ⟨1, 3, by decide⟩,
    Csr.wf_ofRows [[1], [], [0, 1]]⟩

/-! ### C20 -/

/-- C20: `PartitionCheckConstraints` on a network with one constraint flag per column returns a
partition of the same vertices in which the two ends of every constrained edge have different
labels, in which vertices with equal labels had equal labels before, and in which only vertices that
are named by a constrained column may have changed their label. -/
theorem c20_constraints (c : Csr Nat) (n : Nat) (hc : Network c n) (hn : 0 < n)
    (part : List Nat) (hp : part.length = n) (constrained : List Bool)
    (hl : constrained.length = c.el.length) :
    ∃ part', partitionCheckConstraints c constrained part = ok part' ∧ part'.length = n ∧
      (∀ k v w, NetEdge c k v w → constrained[k]? = some true → v ≠ w → part'[v]? ≠ part'[w]?) ∧
      (∀ u w, u < n → w < n → part'[u]? = part'[w]? → part[u]? = part[w]?) ∧
      ∀ w, (∀ k v, NetEdge c k v w → constrained[k]? ≠ some true) → part'[w]? = part[w]? := by
  by_cases h0 : constrained.length = 0
  · refine ⟨part, by rw [partitionCheckConstraints, if_pos h0], hp, ?_, fun _ _ _ _ h => h,
      fun _ _ => rfl⟩
    intro k v w _ h
    have := (List.getElem?_eq_some_iff.1 h).1
    omega
  · obtain ⟨G, hG, rfl⟩ := Csr.exists_rows_of_wf hc.1
    obtain ⟨hr, _⟩ := inRange_of_network hc
    have hne : part ≠ [] := by rintro rfl; simp at hp; omega
    obtain ⟨m, hm, hle, _⟩ := maxElement_eq hne
    have hI : CInv n constrained part [] (part, m, 0) :=
      ⟨hp, rfl, fun u x hx => hle x (List.mem_of_getElem? hx), by simp, fun _ _ _ _ h => h,
        fun _ => Or.inl rfl⟩
    obtain ⟨s, hs, hI'⟩ := cinv_fold (edgeList G) [] _ hI
      (fun e he => by
        have := mem_edgeList.1 he
        exact ⟨hG ▸ this.lt_left, hG ▸ hr _ _ this⟩)
      (by rw [hl, length_edgeList]; simp [Csr.ofRows])
    rw [List.nil_append] at hI'
    refine ⟨s.1, ?_, hI'.length, ?_, hI'.old, ?_⟩
    · rw [partitionCheckConstraints, if_neg h0, hm, ok_bind, constraints_fold, hs]; rfl
    · intro k v w hk hkc hvw
      exact hI'.sep k v w (netEdge_iff.1 hk) hkc hvw
    · intro w hw
      rcases hI'.keep w with h | ⟨i, v, hi, hic⟩
      · exact h
      · exact absurd hic (hw i v (netEdge_iff.2 hi))

/-- C20, no constraint vector: the partition is returned unchanged. -/
theorem c20_no_constraints (c : Csr Nat) (part : List Nat) :
    partitionCheckConstraints c [] part = ok part := rfl

example : Network exampleNetwork 5 ∧
    partitionCheckConstraints exampleNetwork
      [true, true, true, true, true, true, false, false] [1, 1, 1, 2, 2] =
      ok [1, 3, 4, 2, 2] ∧ exampleNetwork.el.length = 8 ∧ NetEdge exampleNetwork 3 1 2 :=
  ⟨exampleNetwork_ok, by decide, by decide, ⟨2, 4, by decide⟩⟩

/-! ### C21 -/

/-- C21: `PartitionCheckConnectedComponents` returns a partition of the same vertices whose classes
are exactly the (strongly) connected components of the old classes: two vertices have the same new
label if and only if they had the same old label and are connected in both directions along edges
that stay inside one old label. -/
theorem c21_components (c : Csr Nat) (n : Nat) (hc : Network c n) (hn : 0 < n)
    (part : List Nat) (hp : part.length = n) (fuel : Nat) (hf : n ≤ fuel) :
    ∃ part', partitionCheckComponents c fuel part = ok part' ∧ part'.length = n ∧
      ∀ u w, u < n → w < n → (part'[u]? = part'[w]? ↔
        part[u]? = part[w]? ∧ PartReach c part u w ∧ PartReach c part w u) := by
  obtain ⟨G, hG, rfl⟩ := Csr.exists_rows_of_wf hc.1
  obtain ⟨hr, _⟩ := inRange_of_network hc
  have hne : part ≠ [] := by rintro rfl; simp at hp; omega
  obtain ⟨m, hm, hle, _⟩ := maxElement_eq hne
  obtain ⟨s, hs, hI⟩ := components_fold hr (hG.trans hp.symm) hle (by omega : G.length ≤ fuel)
    (m + 1) (Nat.le_refl _)
  refine ⟨s.1, ?_, hI.length.trans hp, ?_⟩
  · unfold partitionCheckComponents
    rw [hm, ok_bind]
    have hoff : usub (Csr.ofRows G).off.length 1 = part.length := by
      simp [usub, hG, hp]
    rw [hoff, splitParts_spec part m hle part.length (Nat.le_refl _)]
    simp only [ok_bind]
    rw [fromMetis_eq, ok_bind, hs]; rfl
  · intro u w hu hw
    have hul : u < part.length := by omega
    have := hI.classes u w part[u] (by simp [hul]) (by
      have := hle _ (List.getElem_mem hul); omega) (by omega)
    rw [this]
    unfold PartReach
    simp only [exists_netEdge]

/-- C21 in the words of the property: vertices with equal new labels are connected to each other by
paths whose vertices all carry that same new label. -/
theorem c21_connected (c : Csr Nat) (n : Nat) (hc : Network c n) (hn : 0 < n)
    (part : List Nat) (hp : part.length = n) (fuel : Nat) (hf : n ≤ fuel) (part' : List Nat)
    (h : partitionCheckComponents c fuel part = ok part') (u w : Nat) (hu : u < n) (hw : w < n)
    (he : part'[u]? = part'[w]?) : part[u]? = part[w]? ∧ PartReach c part' u w := by
  obtain ⟨q, hq, hql, hcl⟩ := c21_components c n hc hn part hp fuel hf
  rw [hq, ok.injEq] at h
  subst h
  obtain ⟨h1, h2, h3⟩ := (hcl u w hu hw).1 he
  refine ⟨h1, ?_⟩
  -- every vertex on a path from `u` to `w` has the label of `u`
  have key : ∀ x, PartReach c part u x → PartReach c part x w →
      x < n ∧ q[u]? = q[x]? ∧ PartReach c q u x := by
    intro x hx
    induction hx with
    | refl => exact fun _ => ⟨hu, rfl, ReflTransGen.refl⟩
    | @tail a b ha hab ih =>
      intro hbw
      obtain ⟨hal, hqa, hra⟩ := ih (ReflTransGen.head hab hbw)
      obtain ⟨k, x, y, _, _, _, _, hk⟩ := hab.1
      have hbl : b < n := hc.2 b (List.mem_of_getElem? hk)
      have hub : PartReach c part u b := ReflTransGen.tail ha hab
      have hlab : part[u]? = part[b]? := by
        have : part[u]? = part[a]? := ((hcl u a hu hal).1 hqa).1
        rw [this, hab.2]
      have hqb : q[u]? = q[b]? := (hcl u b hu hbl).2 ⟨hlab, hub, ReflTransGen.trans hbw h3⟩
      exact ⟨hbl, hqb, ReflTransGen.tail hra ⟨hab.1, hqa.symm.trans hqb⟩⟩
  exact (key w h2 ReflTransGen.refl).2.2

example : Network exampleNetwork 5 ∧
    partitionCheckComponents exampleNetwork 5 [0, 0, 1, 1, 0] = ok [2, 2, 3, 1, 0] :=
  ⟨exampleNetwork_ok, by decide⟩

/-! ### C22 -/

/-- What METIS promises: a part number below `numberParts` for every vertex. -/
structure MetisAnswer.Valid (a : MetisAnswer) (numberElements numberParts : Nat) : Prop where
  length : a.part.length = numberElements
  lt : ∀ p ∈ a.part, p < numberParts

/-- C22: with at least two parts and a METIS answer that cuts some edge, `NetworkPartition` returns
one label per vertex; vertices have equal labels exactly when METIS put them in the same part; the
order of the parts is kept; and the labels used are exactly the numbers of a gap-free range that
starts at 0 if the master process is used and at 1 otherwise. -/
theorem c22_contiguous (numberElements numberParts masterWeight : Nat) (a : MetisAnswer)
    (he : 0 < numberElements) (hp : 2 ≤ numberParts) (ha : a.Valid numberElements numberParts)
    (ho : a.objval ≠ 0) :
    ∃ r, networkPartition numberElements numberParts masterWeight (some a) = ok r ∧
      r.length = numberElements ∧
      (∀ (u w x y x' y' : Nat), a.part[u]? = some x → a.part[w]? = some y → r[u]? = some x' →
        r[w]? = some y' → (x' = y' ↔ x = y) ∧ (x' < y' ↔ x < y)) ∧
      ∃ top, (if masterWeight > 0 then 0 else 1) < top ∧ top ≤ numberParts + 1 ∧
        ∀ z, z ∈ r ↔ (if masterWeight > 0 then 0 else 1) ≤ z ∧ z < top := by
  generalize hb : (if masterWeight > 0 then 0 else 1) = base
  have hbb : base = 0 ∨ base = 1 := by rw [← hb]; split <;> simp
  let part := a.part.map (· + base)
  have hpart : (if masterWeight > 0 then a.part else a.part.map (· + 1)) = part := by
    show _ = a.part.map (· + base)
    rw [← hb]; split <;> simp
  obtain ⟨f, top, h1, h2, h3⟩ := reorder_spec numberParts base base part (Nat.le_refl _)
    (fun x hx => by
      obtain ⟨y, hy, rfl⟩ := List.mem_map.1 hx
      have := ha.lt y hy
      omega)
    (by omega)
  have hmono : ∀ x ∈ a.part, ∀ y ∈ a.part, x < y → f (x + base) < f (y + base) :=
    fun x hx y hy h => h2 _ (List.mem_map.2 ⟨x, hx, rfl⟩) _ (List.mem_map.2 ⟨y, hy, rfl⟩)
      (by omega)
  have hlen : part.length = numberElements := by simp [part, ha.length]
  refine ⟨part.map f, ?_, by simpa using hlen, ?_, ?_⟩
  · unfold networkPartition
    rw [assert, if_pos (by omega), ok_bind, assert, if_pos (by omega), ok_bind]
    rw [if_neg (by omega), hb]
    simp only [ho, if_false]
    rw [hpart, h1]
  · intro u w x y x' y' hu hw hu' hw'
    simp only [part, List.map_map, List.getElem?_map, hu, hw, Option.map_some, Function.comp,
      Option.some.injEq] at hu' hw'
    have hx := List.mem_of_getElem? hu
    have hy := List.mem_of_getElem? hw
    rw [← hu', ← hw']
    rcases Nat.lt_trichotomy x y with h | h | h
    · have := hmono x hx y hy h; omega
    · subst h; omega
    · have := hmono y hy x hx h; omega
  · have hpos : 0 < (part.map f).length := by simp [hlen, he]
    have hmem := (h3 _).1 (List.getElem_mem hpos)
    refine ⟨top, by omega, ?_, h3⟩
    -- at most as many labels as parts
    by_contra hgt
    have hcard : (List.range' base (numberParts + 1)).Subperm (part.map f).dedup := by
      apply List.subperm_of_subset List.nodup_range'
      intro z hz
      rw [List.mem_range'_1] at hz
      rw [List.mem_dedup, h3]; omega
    have hcard' : (part.map f).dedup.Subperm ((List.range numberParts).map fun x => f (x + base)) := by
      apply List.subperm_of_subset (List.nodup_dedup _)
      intro z hz
      rw [List.mem_dedup] at hz
      simp only [part, List.map_map, List.mem_map, Function.comp] at hz
      obtain ⟨x, hx, rfl⟩ := hz
      exact List.mem_map.2 ⟨x, List.mem_range.2 (ha.lt x hx), rfl⟩
    have := hcard.length_le.trans hcard'.length_le
    simp at this

example : (⟨3, [4, 1, 1, 4, 2]⟩ : MetisAnswer).Valid 5 6 ∧
    networkPartition 5 6 1 (some ⟨3, [4, 1, 1, 4, 2]⟩) = ok [2, 0, 0, 2, 1] ∧
    networkPartition 5 6 0 (some ⟨3, [4, 1, 1, 4, 2]⟩) = ok [3, 1, 1, 3, 2] :=
  ⟨⟨by decide, by decide⟩, by decide, by decide⟩

/-! ### C42 -/

/-- C42, part that holds: with at least two parts and METIS available, no element is given to the
master process (label 0) unless the master process is used, whatever METIS answers; the labels
are between the first process and the number of parts.

Missing from the full statement: one single part, and a library built without METIS, see the
violations below. -/
theorem c42_master_partial (numberElements numberParts masterWeight : Nat) (a : MetisAnswer)
    (he : 0 < numberElements) (hp : 2 ≤ numberParts) (ha : a.Valid numberElements numberParts) :
    ∃ r, networkPartition numberElements numberParts masterWeight (some a) = ok r ∧
      r.length = numberElements ∧
      ∀ z ∈ r, (if masterWeight > 0 then 0 else 1) ≤ z ∧ z ≤ numberParts := by
  by_cases ho : a.objval = 0
  · generalize hb : (if masterWeight > 0 then 0 else 1) = base
    have hbb : base = 0 ∨ base = 1 := by rw [← hb]; split <;> simp
    obtain ⟨f, top, h1, h2, h3⟩ := reorder_spec numberParts base base
      (List.replicate numberElements base) (Nat.le_refl _)
      (fun x hx => by rw [List.eq_of_mem_replicate hx]; omega) (by omega)
    have hfb : f base = base := by
      have hm : f base ∈ (List.replicate numberElements base).map f :=
        List.mem_map.2 ⟨base, List.mem_replicate.2 ⟨by omega, rfl⟩, rfl⟩
      have hr := (h3 _).1 hm
      have h4 : base ∈ (List.replicate numberElements base).map f := (h3 base).2 (by omega)
      obtain ⟨x, hx, hfx⟩ := List.mem_map.1 h4
      rw [List.eq_of_mem_replicate hx] at hfx
      exact hfx
    refine ⟨(List.replicate numberElements base).map f, ?_, by simp, ?_⟩
    · unfold networkPartition
      rw [assert, if_pos (by omega), ok_bind, assert, if_pos (by omega), ok_bind]
      rw [if_neg (by omega), hb]
      simp only [ho, if_true]
      rw [h1]
    · intro z hz
      obtain ⟨x, hx, rfl⟩ := List.mem_map.1 hz
      rw [List.eq_of_mem_replicate hx, hfb]
      omega
  · obtain ⟨r, h1, h2, _, top, _, h5, h6⟩ := c22_contiguous numberElements numberParts masterWeight
      a he hp ha ho
    exact ⟨r, h1, h2, fun z hz => ⟨((h6 z).1 hz).1, by have := ((h6 z).1 hz).2; omega⟩⟩

/-- C42 fails for one part: although the master process is not used, `resize` does not change the
elements that exist already and everything stays with process 0. -/
theorem c42_one_part_violated : ∃ numberElements r, 0 < numberElements ∧
    networkPartition numberElements 1 0 none = ok r ∧ 0 ∈ r ∧ r.length = numberElements :=
  ⟨3, [0, 0, 0], by decide, by decide, by decide, by decide⟩

/-- C42 fails without METIS in the same way. -/
theorem c42_no_metis_violated : ∃ numberElements numberParts r, 0 < numberElements ∧
    2 ≤ numberParts ∧ networkPartition numberElements numberParts 0 none = ok r ∧ 0 ∈ r :=
  ⟨3, 2, [0, 0, 0], by decide, by decide, by decide, by decide⟩

example : (⟨0, [0, 0, 1]⟩ : MetisAnswer).Valid 3 2 ∧
    networkPartition 3 2 0 (some ⟨0, [0, 0, 1]⟩) = ok [1, 1, 1] ∧
    networkPartition 3 2 5 (some ⟨0, [0, 0, 1]⟩) = ok [0, 0, 0] :=
  ⟨⟨by decide, by decide⟩, by decide, by decide⟩

end Verif
