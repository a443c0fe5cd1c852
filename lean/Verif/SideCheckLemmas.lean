import Verif.SideCheckSpec
import Verif.BisectStepLemmas
import Verif.MetisLemmas

/-
Lemmas for the test if an edge is to be split.
-/
namespace Verif

open Res

variable {K : Type} [Field K] [LinearOrder K] [IsStrictOrderedRing K]

/-- The state after the first `n` neighbours, of which those with `bad` object. -/
structure RoundsOk (r : List Nat) (c : Nat) (bad : Nat → Bool) (v0 onlyNeigh both : SideVerdict) (n : Nat) (s : Rounds) :
    Prop where
  neigh : s.neigh = (r.take n).map (fun d => !bad d) ++ List.replicate (r.length - n) true
  all : s.all = (r.take n).all fun d => !bad d
  here : s.here = !((r.take n).any fun d => decide (d = c) && bad d)
  verdict : s.verdict = if s.all then v0 else if s.here then onlyNeigh else both

theorem take_succ_of {r : List Nat} {n d : Nat} (h : r[n]? = some d) : r.take (n + 1) = r.take n ++ [d] := by
  rw [List.take_add_one, h]
  rfl

theorem replicate_split {r : List Nat} {n : Nat} (h : n < r.length) :
    List.replicate (r.length - n) true = true :: List.replicate (r.length - (n + 1)) true := by
  rw [← List.replicate_succ]
  congr 1
  omega

theorem RoundsOk.skip {r : List Nat} {c : Nat} {bad : Nat → Bool} {v0 onlyNeigh both : SideVerdict} {n d : Nat}
    {s : Rounds} (h : RoundsOk r c bad v0 onlyNeigh both n s) (hd : r[n]? = some d) (hb : bad d = false) :
    RoundsOk r c bad v0 onlyNeigh both (n + 1) s := by
  have hn : n < r.length := (List.getElem?_eq_some_iff.1 hd).1
  refine ⟨?_, ?_, ?_, h.verdict⟩
  · rw [h.neigh, take_succ_of hd, replicate_split hn]
    simp [hb]
  · rw [h.all, take_succ_of hd]
    simp [hb]
  · rw [h.here, take_succ_of hd]
    simp [hb]

theorem RoundsOk.judge {r : List Nat} {c : Nat} {bad : Nat → Bool} {v0 onlyLocal onlyNeigh both : SideVerdict} {n d : Nat}
    {s : Rounds} (h : RoundsOk r c bad v0 onlyNeigh both n s) (hd : r[n]? = some d) :
    ∃ s', s.judge onlyLocal onlyNeigh both c d n (!bad d) = ok s' ∧ RoundsOk r c bad v0 onlyNeigh both (n + 1) s' := by
  have hn : n < r.length := (List.getElem?_eq_some_iff.1 hd).1
  have hset : vset s.neigh n (!bad d) =
      ok ((r.take (n + 1)).map (fun d => !bad d) ++ List.replicate (r.length - (n + 1)) true) := by
    have hl : ((r.take n).map fun d => !bad d).length = n := by simp; omega
    unfold vset
    rw [if_pos (by rw [h.neigh]; simp; omega), h.neigh, replicate_split hn, take_succ_of hd]
    congr 1
    rw [List.set_append_right _ _ (by omega), hl]
    simp
  have hall := h.all
  have hhere := h.here
  have hv := h.verdict
  unfold Rounds.judge
  rw [hset, ok_bind]
  refine ⟨_, rfl, ?_⟩
  cases hb : bad d with
  | false =>
    refine ⟨?_, ?_, ?_, ?_⟩
    · simp
    · rw [take_succ_of hd]; simp [hb, hall]
    · rw [take_succ_of hd]; simp [hb, hhere]
    · simpa using hv
  | true =>
    by_cases hc : d = c
    · subst hc
      refine ⟨?_, ?_, ?_, ?_⟩
      · simp
      · rw [take_succ_of hd]; simp [hb]
      · rw [take_succ_of hd]; simp [hb]
      · simp
    · refine ⟨?_, ?_, ?_, ?_⟩
      · simp [hc]
      · rw [take_succ_of hd]; simp [hb]
      · rw [take_succ_of hd]; simp [hb, hc, hhere]
      · cases hs : s.here <;> simp [hc, hs]

/-- A loop of rounds each of which skips or judges. -/
theorem rounds_loop {r : List Nat} {c : Nat} {bad : Nat → Bool} {v0 onlyNeigh both : SideVerdict}
    {f : Rounds → Nat → Res Rounds}
    (hf : ∀ n d s, r[n]? = some d → RoundsOk r c bad v0 onlyNeigh both n s →
      ∃ s', f s n = ok s' ∧ RoundsOk r c bad v0 onlyNeigh both (n + 1) s') :
    ∃ s, foldRes f ⟨v0, true, true, List.replicate r.length true⟩ (List.range r.length) = ok s ∧
      RoundsOk r c bad v0 onlyNeigh both r.length s := by
  have key : ∀ n, n ≤ r.length →
      ∃ s, foldRes f ⟨v0, true, true, List.replicate r.length true⟩ (List.range n) = ok s ∧
        RoundsOk r c bad v0 onlyNeigh both n s := by
    intro n
    induction n with
    | zero => intro _; exact ⟨_, rfl, by simp, by simp, by simp, by simp⟩
    | succ n ih =>
      intro hn
      obtain ⟨s, hs, hok⟩ := ih (by omega)
      obtain ⟨s', hs', hok'⟩ := hf n r[n] s (List.getElem?_eq_getElem (by omega)) hok
      refine ⟨s', ?_, hok'⟩
      rw [List.range_succ, foldRes_append, hs, ok_bind, foldRes_cons, hs', ok_bind, foldRes_nil]
  exact key _ le_rfl

/-- What the state says about the neighbours at the end. -/
theorem RoundsOk.answers {r : List Nat} {c num : Nat} {bad : Nat → Bool} {objects : Nat → Prop}
    {v0 onlyNeigh both : SideVerdict} {s : Rounds} (h : RoundsOk r c bad v0 onlyNeigh both r.length s)
    (hb : ∀ d ∈ r, bad d = true ↔ d < num ∧ objects d) : SideAnswers num r c objects s.here s.all s.neigh := by
  have h1 := h.neigh
  have h2 := h.all
  have h3 := h.here
  rw [List.take_length] at h1 h2 h3
  rw [Nat.sub_self, List.replicate_zero, List.append_nil] at h1
  refine ⟨?_, ?_, by simp [h1], ?_⟩
  · rw [h3]
    simp only [Bool.not_eq_false', List.any_eq_true, Bool.and_eq_true, decide_eq_true_eq]
    constructor
    · rintro ⟨d, hd, rfl, hbd⟩
      exact ⟨hd, (hb d hd).1 hbd⟩
    · rintro ⟨hd, hbd⟩
      exact ⟨c, hd, rfl, (hb c hd).2 hbd⟩
  · rw [h2]
    simp only [List.all_eq_false]
    constructor
    · rintro ⟨d, hd, hbd⟩
      exact ⟨d, hd, (hb d hd).1 (by simpa using hbd)⟩
    · rintro ⟨d, hd, hbd⟩
      exact ⟨d, hd, by simp [(hb d hd).2 hbd]⟩
  · intro k d hk
    rw [h1, List.getElem?_map, hk, ← hb d (List.mem_of_getElem? hk)]
    simp

/-- The number and the length of the edges of a polygon on a line. -/
theorem alignedLoop {m : Mesh K} (h : m.WF) {d : Nat} {es : List Nat} {ls : List K} {lengths : List (List K)}
    {aligned : List Nat} {line : Nat} (he : m.row .edge2 d = ok es) (hl : lengths[d]? = some ls)
    (hlen : ls.length = es.length) (ha : ∀ x ∈ es, x < aligned.length) :
    foldRes (alignedRound m d lengths aligned line) (0, 0) (List.range es.length) =
      ok ((onLine es ls aligned line).length, ((onLine es ls aligned line).map Prod.snd).sum) := by
  have key : ∀ n, n ≤ es.length → foldRes (alignedRound m d lengths aligned line) (0, 0) (List.range n) =
      ok ((onLine (es.take n) (ls.take n) aligned line).length,
        ((onLine (es.take n) (ls.take n) aligned line).map Prod.snd).sum) := by
    intro n
    induction n with
    | zero => intro _; simp [onLine]
    | succ n ih =>
      intro hn
      have hx : es[n]? = some es[n] := List.getElem?_eq_getElem (by omega)
      have hlx : ls[n]? = some ls[n] := List.getElem?_eq_getElem (by omega)
      have hax : aligned[es[n]]? = some (aligned[es[n]]'(ha _ (by simp))) := List.getElem?_eq_getElem _
      have hsplit : onLine (es.take (n + 1)) (ls.take (n + 1)) aligned line =
          onLine (es.take n) (ls.take n) aligned line ++
            if aligned[es[n]]'(ha _ (by simp)) = line then [(es[n], ls[n])] else [] := by
        unfold onLine
        rw [List.take_add_one, List.take_add_one, hx, hlx]
        simp only [Option.toList_some]
        rw [List.zip_append (by simp; omega), List.filter_append]
        congr 1
        simp only [List.zip_cons_cons, List.zip_nil_right, List.filter_cons, List.filter_nil, hax, Option.some.injEq,
          decide_eq_true_eq]
      rw [List.range_succ, foldRes_append, ih (by omega), ok_bind, foldRes_cons, hsplit]
      unfold alignedRound
      rw [entry_of_row h he hx, ok_bind, vat_of_getElem? hax, ok_bind]
      by_cases hc : aligned[es[n]]'(ha _ (by simp)) = line
      · rw [if_pos hc, if_pos hc, vget_eq_ok.2 hl, ok_bind, vget_eq_ok.2 hlx]
        simp
      · rw [if_neg hc, if_neg hc]
        simp
  have := key es.length le_rfl
  rwa [List.take_length, List.take_of_length_le (by omega)] at this

open Classical in
theorem qualityLoop {g : GeoCfg K} {m : Mesh K} (h : m.WF) {e c : Nat} {r : List Nat} (hr : m.row .nb12 e = ok r)
    {length weight : K} {quality : List K} (hq : ∀ d ∈ r, d < m.num .d2 → d < quality.length) (v0 : SideVerdict) :
    ∃ s, foldRes (g.qualityRound m e c length weight quality) ⟨v0, true, true, List.replicate r.length true⟩
        (List.range r.length) = ok s ∧
      RoundsOk r c (fun d => decide (d < m.num .d2 ∧ TooShort g length weight quality d)) v0 .onlyNeighQuality .bothQuality
        r.length s := by
  refine rounds_loop fun n d s hd hok => ?_
  unfold GeoCfg.qualityRound
  rw [hasEntry_of_row h hr hd, ok_bind]
  by_cases hlt : d < m.num .d2
  · have hlt' : d < m.num Lst.nb12.target := hlt
    have hqd : quality[d]? = some (quality[d]'(hq d (List.mem_of_getElem? hd) hlt)) := List.getElem?_eq_getElem _
    rw [decide_eq_true hlt', entry_of_row h hr hd]
    simp only [Bool.not_true, Bool.false_eq_true, if_false, ok_bind]
    rw [vget_eq_ok.2 hqd, ok_bind]
    obtain ⟨s', h1, h2⟩ := hok.judge (onlyLocal := .onlyLocalQuality) hd
    refine ⟨s', ?_, h2⟩
    rw [← h1]
    congr 1
    have : TooShort g length weight quality d ↔ g.isValueGreaterOrEqual (1 / 2 * length)
        (weight * quality[d]'(hq d (List.mem_of_getElem? hd) hlt)) g.tol1D = false := by
      unfold TooShort
      rw [hqd]
      simp
    rw [this]
    cases g.isValueGreaterOrEqual (1 / 2 * length) (weight * quality[d]'(hq d (List.mem_of_getElem? hd) hlt)) g.tol1D <;>
      simp [hlt]
  · have hlt' : ¬ d < m.num Lst.nb12.target := hlt
    rw [decide_eq_false hlt']
    exact ⟨s, rfl, hok.skip hd (by simp [hlt])⟩

open Classical in
theorem alignLoop {g : GeoCfg K} {m : Mesh K} (h : m.WF) {e c : Nat} {r : List Nat} (hr : m.row .nb12 e = ok r)
    {length weight : K} {quality : List K} {lengths : List (List K)} {aligned : List Nat} {line : Nat}
    (hD : DataThere m r lengths quality aligned) (v0 : SideVerdict) :
    ∃ s, foldRes (g.alignRound m e c length weight lengths aligned line)
        ⟨v0, true, true, List.replicate r.length true⟩ (List.range r.length) = ok s ∧
      RoundsOk r c (fun d => decide (d < m.num .d2 ∧ Unbalanced g m length weight lengths aligned line d)) v0
        .onlyNeighAligned .bothAligned r.length s := by
  refine rounds_loop fun n d s hd hok => ?_
  have hmem := List.mem_of_getElem? hd
  unfold GeoCfg.alignRound
  rw [hasEntry_of_row h hr hd, ok_bind]
  by_cases hlt : d < m.num .d2
  · have hlt' : d < m.num Lst.nb12.target := hlt
    obtain ⟨es, ls, he, hl, hlen⟩ := hD.lengths d hmem hlt
    rw [decide_eq_true hlt', entry_of_row h hr hd]
    simp only [Bool.not_true, Bool.false_eq_true, if_false, ok_bind]
    rw [rowSize_of_row h he, ok_bind, alignedLoop h he hl hlen (hD.lines d hmem hlt es he), ok_bind]
    obtain ⟨s', h1, h2⟩ := hok.judge (onlyLocal := .onlyLocalAligned) hd
    refine ⟨s', ?_, h2⟩
    rw [← h1]
    have : Unbalanced g m length weight lengths aligned line d ↔ g.isValueGreaterOrEqual (1 / 2 * length)
        (weight * ((onLine es ls aligned line).map Prod.snd).sum / (((onLine es ls aligned line).length + 1 : Nat) : K))
        g.tol1D = false := by
      unfold Unbalanced
      rw [he, hl]
      simp
    simp only [this]
    congr 1
    cases g.isValueGreaterOrEqual (1 / 2 * length)
        (weight * ((onLine es ls aligned line).map Prod.snd).sum / (((onLine es ls aligned line).length + 1 : Nat) : K))
        g.tol1D <;> simp [hlt]
  · have hlt' : ¬ d < m.num Lst.nb12.target := hlt
    rw [decide_eq_false hlt']
    exact ⟨s, rfl, hok.skip hd (by simp [hlt])⟩

/-- The verdict at the end. -/
theorem RoundsOk.verdict_cases {r : List Nat} {c num : Nat} {bad : Nat → Bool} {objects : Nat → Prop}
    {v0 onlyNeigh both : SideVerdict} {s : Rounds} (h : RoundsOk r c bad v0 onlyNeigh both r.length s)
    (ha : SideAnswers num r c objects s.here s.all s.neigh) :
    (s.all = true → s.verdict = v0) ∧
      (s.all = false → (c ∈ r ∧ c < num ∧ objects c → s.verdict = both) ∧
        (¬ (c ∈ r ∧ c < num ∧ objects c) → s.verdict = onlyNeigh)) := by
  have hv := h.verdict
  refine ⟨fun h1 => by rw [hv, h1]; rfl, fun h1 => ⟨fun h2 => ?_, fun h2 => ?_⟩⟩
  · rw [hv, h1, ha.local_iff.2 h2]
    rfl
  · have : s.here = true := by
      rw [← Bool.not_eq_false, ha.local_iff]
      exact h2
    rw [hv, h1, this]
    rfl

end Verif
