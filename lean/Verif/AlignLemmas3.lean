import Verif.AlignLemmas2

/-!
# Lemmas for the lines of the edges of a polyhedron: the loop over the vertices
-/

namespace Verif
open Res

variable {K : Type} [Field K] [LinearOrder K] [IsStrictOrderedRing K]

/-- The lists of adjacent vertices and edges of a graph without double edges. -/
structure AdjOK (n : Nat) (edges : List (Nat × Nat)) (A : AdjacencyData) : Prop where
  lenV : A.vertices.length = n
  lenE : A.edges.length = n
  lenM : A.verticesMap.length = n
  len : ∀ (v : Nat) vs es, A.vertices[v]? = some vs → A.edges[v]? = some es → vs.length = es.length
  join : ∀ (v : Nat) vs es, A.vertices[v]? = some vs → A.edges[v]? = some es → ∀ (k : Nat) w e, vs[k]? = some w →
    es[k]? = some e → edges[e]? = some (v, w) ∨ edges[e]? = some (w, v)
  has : ∀ (v : Nat) vs es, A.vertices[v]? = some vs → A.edges[v]? = some es → ∀ (e : Nat) w,
    (edges[e]? = some (v, w) ∨ edges[e]? = some (w, v)) → ∃ k : Nat, vs[k]? = some w ∧ es[k]? = some e
  nodup : ∀ (v : Nat) es, A.edges[v]? = some es → es.Nodup
  find : ∀ (v : Nat) m vs, A.verticesMap[v]? = some m → A.vertices[v]? = some vs → ∀ w k, umapFind m w = some k →
    vs[k]? = some w
  find_none : ∀ (v : Nat) m vs, A.verticesMap[v]? = some m → A.vertices[v]? = some vs → ∀ w, umapFind m w = none →
    w ∉ vs

theorem EdgeGraph.adj {n : Nat} {edges : List (Nat × Nat)} (h : EdgeGraph n edges) :
    ∃ A, connectivityToAdjacency n edges false = ok A ∧ AdjOK n edges A := by
  obtain ⟨A, hA, l1, l2, l3, -, hrow, hmap, -⟩ := c18_entries n edges false fun e he =>
    ⟨(h.range e he).1, (h.range e he).2.1⟩
  refine ⟨A, hA, l1, l2, l3, fun v vs es h1 h2 => (hrow v vs es h1 h2).1, ?_, ?_, ?_, ?_, ?_⟩
  · intro v vs es h1 h2 k w e h3 h4
    simpa using (hrow v vs es h1 h2).2.1 k w e h3 h4
  · intro v vs es h1 h2 e w h3
    exact (hrow v vs es h1 h2).2.2.1 e w (by simpa using h3)
  · intro v es h2
    have hv := (List.getElem?_eq_some_iff.1 h2).1
    obtain ⟨vs, h1⟩ : ∃ vs, A.vertices[v]? = some vs := ⟨_, List.getElem?_eq_getElem (by omega)⟩
    rw [List.nodup_iff_count_le_one]
    intro e
    by_cases he : e ∈ es
    · obtain ⟨k, hk⟩ := List.mem_iff_getElem?.1 he
      have hl := (hrow v _ es h1 h2).1
      have hk' := (List.getElem?_eq_some_iff.1 hk).1
      have hj := (hrow v _ es h1 h2).2.1 k _ e (List.getElem?_eq_getElem (by omega)) hk
      obtain ⟨p, hp⟩ : ∃ p, edges[e]? = some p := by
        rcases hj with hj | hj
        · exact ⟨_, hj⟩
        · exact ⟨_, hj.2⟩
      rw [(hrow v _ es h1 h2).2.2.2 e p hp]
      have := (h.range p (List.mem_of_getElem? hp)).2.2
      by_cases h1 : p.1 = v
      · have : p.2 ≠ v := by omega
        simp [h1, this]
      · rw [if_neg h1]
        split <;> omega
    · rw [List.count_eq_zero_of_not_mem he]
      omega
  · intro v m vs h1 h2 w k hk
    rw [hmap v m vs h1 h2 w] at hk
    split at hk
    · rename_i hm
      obtain rfl := Option.some.inj hk
      rw [List.getElem?_eq_getElem (List.idxOf_lt_length_of_mem hm)]
      simp
    · cases hk
  · intro v m vs h1 h2 w hk
    rw [hmap v m vs h1 h2 w] at hk
    split at hk
    · cases hk
    · assumption

theorem getElem?_ex {α : Type} {l : List α} {i : Nat} (h : i < l.length) : ∃ a, l[i]? = some a :=
  ⟨_, List.getElem?_eq_getElem h⟩

theorem vget_some {α : Type} {l : List α} {i : Nat} {a : α} (h : l[i]? = some a) : vget l i = ok a := by
  unfold vget; rw [h]

variable {g : GeoCfg K} {sqrt : K → K} {points : List (V3 K)} {edges : List (Nat × Nat)} {tangents : List (V3 K)}
  {lengths : List K} {A : AdjacencyData}

/-- The state of the loop after the given edges; the vertices in `cur` are not finished. -/
structure BInv (points : List (V3 K)) (edges : List (Nat × Nat)) (A : AdjacencyData) (st : AlignState K)
    (trace : List Nat) (cur : Nat → Prop) : Prop where
  vlen : st.vertexMarks.length = points.length
  marks : st.edgeMarks = marksOf A.edges trace
  nodup : trace.Nodup
  range : ∀ e ∈ trace, e < edges.length
  queue : ∀ v ∈ st.queue, v < points.length
  ends : ∀ e ∈ trace, ∀ v, (v = (edgeAt edges e).1 ∨ v = (edgeAt edges e).2) →
    st.vertexMarks[v]? = some true ∨ v ∈ st.queue
  visited : ∀ v, st.vertexMarks[v]? = some true → ¬ cur v → ∀ e, e < edges.length →
    (v = (edgeAt edges e).1 ∨ v = (edgeAt edges e).2) → e ∈ trace
  zero : st.vertexMarks[0]? = some true ∨ 0 ∈ st.queue
  group : GroupInv points edges trace st.lines

theorem visit_step (h : AlignInput g points edges tangents lengths) (hs : IsSqrt sqrt) (h0 : 0 ≤ g.minTolerance)
    (hA : AdjOK points.length edges A) {st : AlignState K} {trace : List Nat} {v k e : Nat} {es : List Nat}
    (hI : BInv points edges A st trace (· = v)) (hv : st.vertexMarks[v]? = some true) (hes : A.edges[v]? = some es)
    (he : es[k]? = some e) :
    ∃ st' trace', g.alignVisit sqrt points A tangents lengths v st k = ok st' ∧
      BInv points edges A st' trace' (· = v) ∧ e ∈ trace' ∧ (∀ x ∈ trace, x ∈ trace') ∧
      st'.vertexMarks = st.vertexMarks ∧ st'.queue.length + trace.length = st.queue.length + trace'.length := by
  have hvlt : v < points.length := by rw [← hA.lenE]; exact (List.getElem?_eq_some_iff.1 hes).1
  have hklt := (List.getElem?_eq_some_iff.1 he).1
  obtain ⟨vs, hvs⟩ := getElem?_ex (l := A.vertices) (i := v) (by rw [hA.lenV]; exact hvlt)
  have hlen := hA.len v _ es hvs hes
  have hrow : vget st.edgeMarks v = ok (es.map fun x => decide (x ∈ trace)) := by
    unfold vget
    rw [hI.marks, marksOf, List.getElem?_map, hes]
    rfl
  have hmet : vget (es.map fun x => decide (x ∈ trace)) k = ok (decide (e ∈ trace)) := by
    unfold vget
    rw [List.getElem?_map, he]
    rfl
  unfold GeoCfg.alignVisit
  rw [hrow, ok_bind, hmet, ok_bind]
  by_cases hin : e ∈ trace
  · rw [if_pos (by simpa using hin)]
    exact ⟨st, trace, rfl, hI, hin, fun x hx => hx, rfl, rfl⟩
  · rw [if_neg (by simpa using hin)]
    obtain ⟨w, hw⟩ := getElem?_ex (l := vs) (i := k) (by omega)
    have hj := hA.join v _ es hvs hes k w e hw he
    have hem : e < edges.length := by
      rcases hj with hj | hj <;> exact (List.getElem?_eq_some_iff.1 hj).1
    have hat : edgeAt edges e = (v, w) ∨ edgeAt edges e = (w, v) := by
      rcases hj with hj | hj
      · exact Or.inl (edgeAt_of hj)
      · exact Or.inr (edgeAt_of hj)
    have hr := h.graph.range _ (edgeAt_mem hem)
    have hwlt : w < points.length ∧ v ≠ w := by
      rcases hat with hat | hat <;> rw [hat] at hr
      · exact ⟨hr.2.1, hr.2.2⟩
      · exact ⟨hr.1, Ne.symm hr.2.2⟩
    obtain ⟨hwlt, hvw⟩ := hwlt
    obtain ⟨ws, hws⟩ := getElem?_ex (l := A.vertices) (i := w) (by rw [hA.lenV]; exact hwlt)
    obtain ⟨fs, hwes⟩ := getElem?_ex (l := A.edges) (i := w) (by rw [hA.lenE]; exact hwlt)
    obtain ⟨mw, hwm⟩ := getElem?_ex (l := A.verticesMap) (i := w) (by rw [hA.lenM]; exact hwlt)
    obtain ⟨k', hk1, hk2⟩ := hA.has w _ _ hws hwes e v (by tauto)
    have hfind : ∃ j, umapFind mw v = some j ∧ fs[j]? = some e := by
      cases hf : umapFind mw v with
      | none => exact absurd (List.mem_of_getElem? hk1) (hA.find_none w _ _ hwm hws v hf)
      | some j =>
        refine ⟨j, rfl, ?_⟩
        have h1 := hA.find w _ _ hwm hws v j hf
        have hl := hA.len w _ _ hws hwes
        have hjl := (List.getElem?_eq_some_iff.1 h1).1
        have h2 : fs[j]? = some fs[j] := List.getElem?_eq_getElem (by omega)
        have h3 := hA.join w _ _ hws hwes j v _ h1 h2
        rw [h2]
        congr 1
        rcases h3 with h3 | h3 <;> rcases hj with hj | hj <;>
          exact h.graph.simple _ _ _ _ h3 hj (by simp)
    obtain ⟨j, hf, hje⟩ := hfind
    obtain ⟨s, hs1, hs2⟩ := h.length e _ (show edges[e]? = some (edgeAt edges e) by simp [edgeAt, hem])
    have htan := h.tangent e _ (show edges[e]? = some (edgeAt edges e) by simp [edgeAt, hem])
    obtain ⟨lines', hl1, hl2⟩ := h.insert hs h0 hI.range hem hat hs2 hI.group
    have hother : vget ((marksOf A.edges trace).set v ((es.map fun x => decide (x ∈ trace)).set k true)) w =
        ok (fs.map fun x => decide (x ∈ trace)) := by
      unfold vget
      rw [List.getElem?_set_ne hvw, marksOf, List.getElem?_map, hwes]
      rfl
    have hstep := marks_step (trace := trace) hvw hes hwes (hA.nodup v _ hes) (hA.nodup w _ hwes) he hje (by
      intro x r hx hm
      obtain ⟨i, hi⟩ := List.mem_iff_getElem?.1 hm
      have hxl := (List.getElem?_eq_some_iff.1 hx).1
      obtain ⟨xs, hxs⟩ := getElem?_ex (l := A.vertices) (i := x) (by rw [hA.lenV, ← hA.lenE]; exact hxl)
      have hl := hA.len x _ _ hxs hx
      have hil := (List.getElem?_eq_some_iff.1 hi).1
      have := hA.join x _ _ hxs hx i _ e (List.getElem?_eq_getElem (by omega)) hi
      rcases this with this | this <;> rcases hj with hj | hj <;> rw [hj] at this <;> simp at this <;> omega)
    have g1 := vget_some hvs
    have g2 := vget_some hw
    have g3 : vget A.edges v = ok es := by unfold vget; rw [hes]
    have g4 : vget es k = ok e := by unfold vget; rw [he]
    have g5 := vget_some hwm
    have g6 : vset st.edgeMarks v ((es.map fun x => decide (x ∈ trace)).set k true) =
        ok ((marksOf A.edges trace).set v ((es.map fun x => decide (x ∈ trace)).set k true)) := by
      rw [hI.marks]
      unfold vset
      rw [if_pos (by rw [marksOf, List.length_map, hA.lenE]; exact hvlt)]
    have g7 : vset (fs.map fun x => decide (x ∈ trace)) j true =
        ok ((fs.map fun x => decide (x ∈ trace)).set j true) := by
      unfold vset
      rw [if_pos (by rw [List.length_map]; exact (List.getElem?_eq_some_iff.1 hje).1)]
    have g8 : vset ((marksOf A.edges trace).set v ((es.map fun x => decide (x ∈ trace)).set k true)) w
        ((fs.map fun x => decide (x ∈ trace)).set j true) = ok (marksOf A.edges (trace ++ [e])) := by
      unfold vset
      rw [if_pos (by rw [List.length_set, marksOf, List.length_map, hA.lenE]; exact hwlt), hstep]
    have g9 : vget tangents e = ok ((corner points (edgeAt edges e).2).sub (corner points (edgeAt edges e).1)) := by
      unfold vget; rw [htan]
    have g10 : vget lengths e = ok s := by unfold vget; rw [hs1]
    simp only [g1, g2, g3, g4, g5, ok_bind, hf, g6, hother, g7, g8, corner_get hvlt, corner_get hwlt, g9, g10, hl1]
    refine ⟨_, trace ++ [e], rfl, ⟨hI.vlen, rfl, ?_, ?_, ?_, ?_, ?_, ?_, hl2⟩, by simp, fun x hx => by simp [hx], rfl,
      by simp only [List.length_append, List.length_singleton]; omega⟩
    · rw [List.nodup_append]
      refine ⟨hI.nodup, by simp, ?_⟩
      intro a ha b hb
      simp only [List.mem_singleton] at hb
      subst hb
      rintro rfl
      exact hin ha
    · intro x hx
      rcases List.mem_append.1 hx with hx | hx
      · exact hI.range x hx
      · simp only [List.mem_singleton] at hx
        exact hx ▸ hem
    · intro x hx
      rcases List.mem_append.1 hx with hx | hx
      · exact hI.queue x hx
      · simp only [List.mem_singleton] at hx
        exact hx ▸ hwlt
    · intro x hx u hu
      rcases List.mem_append.1 hx with hx | hx
      · rcases hI.ends x hx u hu with h1 | h1
        · exact Or.inl h1
        · exact Or.inr (by simp [h1])
      · simp only [List.mem_singleton] at hx
        subst hx
        have : u = v ∨ u = w := by rcases hat with hat | hat <;> rw [hat] at hu <;> tauto
        rcases this with rfl | rfl
        · exact Or.inl hv
        · exact Or.inr (by simp)
    · intro u hu hc x hx hend
      exact List.mem_append_left _ (hI.visited u hu hc x hx hend)
    · rcases hI.zero with h1 | h1
      · exact Or.inl h1
      · exact Or.inr (by simp [h1])

theorem visit_row (h : AlignInput g points edges tangents lengths) (hs : IsSqrt sqrt) (h0 : 0 ≤ g.minTolerance)
    (hA : AdjOK points.length edges A) {v : Nat} {es : List Nat} (hes : A.edges[v]? = some es) (l : List Nat) :
    ∀ {st : AlignState K} {trace : List Nat}, (∀ k ∈ l, k < es.length) → BInv points edges A st trace (· = v) →
      st.vertexMarks[v]? = some true →
      ∃ st' trace', foldRes (g.alignVisit sqrt points A tangents lengths v) st l = ok st' ∧
        BInv points edges A st' trace' (· = v) ∧ (∀ k ∈ l, ∀ e, es[k]? = some e → e ∈ trace') ∧
        (∀ x ∈ trace, x ∈ trace') ∧ st'.queue.length + trace.length = st.queue.length + trace'.length := by
  induction l with
  | nil => intro st trace _ hI _; exact ⟨st, trace, rfl, hI, by simp, fun x hx => hx, rfl⟩
  | cons k l ih =>
    intro st trace hl hI hv
    obtain ⟨st1, t1, e1, I1, m1, s1, v1, q1⟩ := visit_step h hs h0 hA hI hv hes
      (List.getElem?_eq_getElem (hl k (by simp)))
    obtain ⟨st2, t2, e2, I2, m2, s2, q2⟩ := ih (fun x hx => hl x (by simp [hx])) I1 (v1 ▸ hv)
    refine ⟨st2, t2, ?_, I2, ?_, fun x hx => s2 x (s1 x hx), by omega⟩
    · rw [foldRes_cons, e1, ok_bind, e2]
    · intro k' hk' e he
      rcases List.mem_cons.1 hk' with rfl | hk'
      · rw [List.getElem?_eq_getElem (hl k' (by simp))] at he
        exact s2 _ (Option.some.inj he ▸ m1)
      · exact m2 k' hk' e he

theorem align_loop (h : AlignInput g points edges tangents lengths) (hs : IsSqrt sqrt) (h0 : 0 ≤ g.minTolerance)
    (hA : AdjOK points.length edges A) (fuel : Nat) :
    ∀ {st : AlignState K} {trace : List Nat}, BInv points edges A st trace (fun _ => False) →
      edges.length + st.queue.length + 1 ≤ fuel + trace.length →
      ∃ st' trace', g.alignLoop sqrt points A tangents lengths fuel st = ok st' ∧
        BInv points edges A st' trace' (fun _ => False) ∧ st'.queue = [] := by
  induction fuel with
  | zero =>
    intro st trace hI hf
    exfalso
    have : trace.length ≤ edges.length := by
      have := (hI.nodup.subperm fun x hx => List.mem_range.2 (hI.range x hx)).length_le
      simpa using this
    omega
  | succ fuel ih =>
    intro st trace hI hf
    rw [GeoCfg.alignLoop]
    cases hq : st.queue with
    | nil => exact ⟨st, trace, rfl, hI, hq⟩
    | cons v queue =>
      have hvlt : v < points.length := hI.queue v (by simp [hq])
      have hvm : v < st.vertexMarks.length := by rw [hI.vlen]; exact hvlt
      simp only
      rw [vget_of_lt hvm, ok_bind]
      rw [hq, List.length_cons] at hf
      by_cases hm : st.vertexMarks[v] = true
      · have hvt : st.vertexMarks[v]? = some true := by rw [List.getElem?_eq_getElem hvm, hm]
        rw [if_pos hm]
        refine ih (trace := trace) ⟨hI.vlen, hI.marks, hI.nodup, hI.range, ?_, ?_, hI.visited, ?_, hI.group⟩ (by
          simp only; omega)
        · intro x hx
          exact hI.queue x (by simp only at hx; simp [hq, hx])
        · intro x hx u hu
          rcases hI.ends x hx u hu with h1 | h1
          · exact Or.inl h1
          · rw [hq] at h1
            rcases List.mem_cons.1 h1 with rfl | h1
            · exact Or.inl hvt
            · exact Or.inr h1
        · rcases hI.zero with h1 | h1
          · exact Or.inl h1
          · rw [hq] at h1
            rcases List.mem_cons.1 h1 with h1 | h1
            · subst h1
              exact Or.inl hvt
            · exact Or.inr h1
      · rw [if_neg hm]
        obtain ⟨vs, hvs⟩ := getElem?_ex (l := A.vertices) (i := v) (by rw [hA.lenV]; exact hvlt)
        obtain ⟨es, hes⟩ := getElem?_ex (l := A.edges) (i := v) (by rw [hA.lenE]; exact hvlt)
        have hlen := hA.len v _ _ hvs hes
        have g1 := vget_some hvs
        rw [g1, ok_bind]
        have hvt : (st.vertexMarks.set v true)[v]? = some true := by simp [hvm]
        have hset : ∀ u : Nat, st.vertexMarks[u]? = some true → (st.vertexMarks.set v true)[u]? = some true := by
          intro u hu
          rw [List.getElem?_set]
          by_cases huv : v = u
          · subst huv; simp [hvm]
          · rw [if_neg huv, hu]
        obtain ⟨st1, t1, e1, I1, m1, s1, q1⟩ := visit_row h hs h0 hA hes (List.range vs.length)
          (st := { st with vertexMarks := st.vertexMarks.set v true, queue := queue }) (trace := trace)
          (fun k hk => by rw [← hlen]; exact List.mem_range.1 hk)
          ⟨by simpa using hI.vlen, hI.marks, hI.nodup, hI.range, fun x hx => hI.queue x (by simp only at hx; simp [hq, hx]),
            (by
              intro x hx u hu
              rcases hI.ends x hx u hu with h1 | h1
              · exact Or.inl (hset u h1)
              · rw [hq] at h1
                rcases List.mem_cons.1 h1 with rfl | h1
                · exact Or.inl hvt
                · exact Or.inr h1),
            (by
              intro u hu hc x hx hend
              refine hI.visited u ?_ (fun h => h) x hx hend
              rw [← hu]
              exact (List.getElem?_set_ne (Ne.symm hc)).symm),
            (by
              rcases hI.zero with h1 | h1
              · exact Or.inl (hset 0 h1)
              · rw [hq] at h1
                rcases List.mem_cons.1 h1 with h1 | h1
                · subst h1
                  exact Or.inl hvt
                · exact Or.inr h1), hI.group⟩ hvt
        rw [e1, ok_bind]
        refine ih (trace := t1) ⟨I1.vlen, I1.marks, I1.nodup, I1.range, I1.queue, I1.ends, ?_, I1.zero, I1.group⟩ (by
          simp only at q1; omega)
        intro u hu _ x hx hend
        by_cases huv : u = v
        · subst huv
          obtain ⟨p, hp⟩ : ∃ p, edges[x]? = some p := ⟨_, List.getElem?_eq_getElem hx⟩
          rw [edgeAt_of hp] at hend
          obtain ⟨w, hw⟩ : ∃ w, edges[x]? = some (u, w) ∨ edges[x]? = some (w, u) := by
            rcases hend with rfl | rfl
            · exact ⟨p.2, Or.inl hp⟩
            · exact ⟨p.1, Or.inr hp⟩
          obtain ⟨k, hk1, hk2⟩ := hA.has u _ _ hvs hes x w hw
          exact m1 k (List.mem_range.2 (List.getElem?_eq_some_iff.1 hk1).1) x hk2
        · exact I1.visited u hu huv x hx hend

/-- All edges are met and grouped by their lines. -/
theorem align_all (h : AlignInput g points edges tangents lengths) (hs : IsSqrt sqrt) (h0 : 0 ≤ g.minTolerance)
    (hA : AdjOK points.length edges A) {fuel : Nat} (hf : edges.length + 2 ≤ fuel) :
    ∃ st, g.alignLoop sqrt points A tangents lengths fuel
        ⟨List.replicate points.length false, A.vertices.map fun r => List.replicate r.length false, [], [0]⟩ = ok st ∧
      GroupInv points edges (List.range edges.length) st.lines := by
  have hinit : BInv points edges A
      (⟨List.replicate points.length false, A.vertices.map fun r => List.replicate r.length false, [], [0]⟩ :
        AlignState K) [] (fun _ => False) := by
    refine ⟨by simp, ?_, by simp, by simp, ?_, by simp, ?_, by simp, [], by simp, by simp, by simp, .nil⟩
    · apply List.ext_getElem?
      intro i
      simp only [marksOf, List.getElem?_map, List.not_mem_nil, decide_false]
      by_cases hi : i < points.length
      · obtain ⟨vs, h1⟩ := getElem?_ex (l := A.vertices) (i := i) (by rw [hA.lenV]; exact hi)
        obtain ⟨es, h2⟩ := getElem?_ex (l := A.edges) (i := i) (by rw [hA.lenE]; exact hi)
        rw [h1, h2, Option.map_some, Option.map_some, hA.len i _ _ h1 h2, List.map_const']
      · rw [List.getElem?_eq_none (by rw [hA.lenV]; omega), List.getElem?_eq_none (by rw [hA.lenE]; omega)]
        rfl
    · intro v hv
      simp only [List.mem_singleton] at hv
      exact hv ▸ h.graph.pos
    · intro v hv
      simp only [List.getElem?_replicate] at hv
      split at hv <;> simp at hv
  obtain ⟨st, trace, e1, I, hq⟩ := align_loop h hs h0 hA fuel hinit (by simp; omega)
  refine ⟨st, e1, ?_⟩
  have hmarked : ∀ v, Relation.ReflTransGen (fun u w => (u, w) ∈ edges ∨ (w, u) ∈ edges) 0 v →
      st.vertexMarks[v]? = some true := by
    intro v hv
    induction hv with
    | refl => simpa [hq] using I.zero
    | @tail u w _ huw ih =>
      obtain ⟨x, hx, hux, hwx⟩ : ∃ x, x < edges.length ∧ (u = (edgeAt edges x).1 ∨ u = (edgeAt edges x).2) ∧
          (w = (edgeAt edges x).1 ∨ w = (edgeAt edges x).2) := by
        rcases huw with huw | huw <;> obtain ⟨x, hx⟩ := List.mem_iff_getElem?.1 huw <;>
          exact ⟨x, (List.getElem?_eq_some_iff.1 hx).1, by rw [edgeAt_of hx]; simp, by rw [edgeAt_of hx]; simp⟩
      have := I.ends x (I.visited u ih (fun h => h) x hx hux) w hwx
      simpa [hq] using this
  have hall : ∀ e, e ∈ trace ↔ e ∈ List.range edges.length := by
    intro e
    rw [List.mem_range]
    refine ⟨I.range e, fun he => ?_⟩
    exact I.visited (edgeAt edges e).1 (hmarked _ (h.graph.connected _ (h.graph.range _ (edgeAt_mem he)).1))
      (fun h => h) e he (Or.inl rfl)
  obtain ⟨bases, b1, b2, b3, b4⟩ := I.group
  refine ⟨bases, fun b hb => (hall b).1 (b1 b hb), b2, fun e he => b3 e ((hall e).2 he), ?_⟩
  refine forall₂_imp_mem b4 fun b _ l hl => ⟨hl.origin, hl.tangent, hl.length, hl.nodup, fun v => (hl.mem v).trans ?_⟩
  constructor
  · rintro ⟨e, he, h1⟩
    exact ⟨e, (hall e).1 he, h1⟩
  · rintro ⟨e, he, h1⟩
    exact ⟨e, (hall e).2 he, h1⟩

end Verif
