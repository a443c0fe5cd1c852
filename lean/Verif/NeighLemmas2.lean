import Verif.NeighLemmas
import Verif.MeshProps

/-
Helper lemmas on the two neighbour slots of edges in the plane.
-/
namespace Verif

open Res

namespace AMesh

variable {α : Type} {A : AMesh α}

/-- The mesh with two neighbour slots per edge. -/
def withSlots (A : AMesh α) (f : Nat → Bool → Nat) : AMesh α :=
  A.setRows .nb12 ((List.range (A.num .d1)).map fun x => [f x false, f x true])

/-- Write one slot. -/
def slotUpd (f : Nat → Bool → Nat) (ev : Nat × Bool × Nat) : Nat → Bool → Nat :=
  fun y b => if y = ev.1 ∧ b = ev.2.1 then ev.2.2 else f y b

theorem ok_withSlots (h : A.Ok) (f : Nat → Bool → Nat) : (A.withSlots f).Ok :=
  ok_setRows h (by simp [Lst.owner])

theorem withSlots_rows (A : AMesh α) (f : Nat → Bool → Nat) {l : Lst} (hl : l ≠ .nb12) :
    (A.withSlots f).rows l = A.rows l := setRows_rows_ne _ _ hl

theorem withSlots_insert (h : A.Ok) (f : Nat → Bool → Nat) (x : Nat) (b : Bool) (c : Nat)
    (hx : x < A.num .d1) (hc : c < A.num .d2) :
    (A.withSlots f).conc.insertEntry .nb12 x (if b then 1 else 0) c =
      ok (A.withSlots (slotUpd f (x, b, c))).conc := by
  have hr : ((A.withSlots f).rows .nb12)[x]? = some [f x false, f x true] := by
    unfold withSlots
    rw [setRows_rows_self]
    simp [hx]
  rw [insertEntry_conc (ok_withSlots h f) hr (by cases b <;> simp) hc]
  congr 2
  unfold setRow withSlots
  rw [setRows_setRows]
  congr 1
  rw [setRows_rows_self]
  apply List.ext_getElem
  · simp
  · intro i h1 h2
    simp only [List.getElem_set, List.getElem_map, List.getElem_range, slotUpd]
    by_cases hi : x = i
    · subst hi
      cases b <;> simp
    · simp [hi, Ne.symm hi]

theorem foldl_slotUpd_none (evs : List (Nat × Bool × Nat)) (f : Nat → Bool → Nat) (y : Nat) (b : Bool)
    (h : ∀ ev ∈ evs, ¬(ev.1 = y ∧ ev.2.1 = b)) : evs.foldl slotUpd f y b = f y b := by
  induction evs generalizing f with
  | nil => rfl
  | cons ev evs ih =>
    rw [List.foldl_cons, ih _ fun e he => h e (by simp [he])]
    have := h ev (by simp)
    unfold slotUpd
    rw [if_neg fun h' => this ⟨h'.1.symm, h'.2.symm⟩]

theorem foldl_slotUpd_same (evs : List (Nat × Bool × Nat)) (f : Nat → Bool → Nat) (y : Nat) (b : Bool)
    (c : Nat) (h : ∀ ev ∈ evs, ev.1 = y → ev.2.1 = b → ev.2.2 = c) (hf : f y b = c) :
    evs.foldl slotUpd f y b = c := by
  induction evs generalizing f with
  | nil => exact hf
  | cons ev evs ih =>
    rw [List.foldl_cons]
    apply ih _ fun e he => h e (by simp [he])
    unfold slotUpd
    split
    · rename_i h'
      exact h ev (by simp) h'.1.symm h'.2.symm
    · exact hf

theorem foldl_slotUpd_some (evs : List (Nat × Bool × Nat)) (f : Nat → Bool → Nat) (y : Nat) (b : Bool)
    (c : Nat) (h : ∀ ev ∈ evs, ev.1 = y → ev.2.1 = b → ev.2.2 = c)
    (he : (y, b, c) ∈ evs) : evs.foldl slotUpd f y b = c := by
  induction evs generalizing f with
  | nil => cases he
  | cons ev evs ih =>
    rw [List.foldl_cons]
    rcases List.mem_cons.1 he with rfl | he
    · apply foldl_slotUpd_same _ _ _ _ _ fun e he => h e (by simp [he])
      simp [slotUpd]
    · exact ih _ (fun e he => h e (by simp [he])) he

/-- The slot written for side `k` of a polygon with vertices `vs` and edges `es`. -/
def sideEvent (A : AMesh α) (c : Nat) (vs es : List Nat) (k : Nat) : Nat × Bool × Nat :=
  (es.getD k 0,
    decide (A.conc.extremes (es.getD k 0) = ok (vs.getD k 0, vs.getD ((k + 1) % vs.length) 0)), c)

theorem extremes_withSlots (A : AMesh α) (f : Nat → Bool → Nat) (x : Nat) :
    (A.withSlots f).conc.extremes x = A.conc.extremes x := rfl

theorem sideNeighbour_conc (h : A.Ok) (f : Nat → Bool → Nat) (c : Nat) (vs es : List Nat)
    (hv : (A.rows .vert2)[c]? = some vs) (he : (A.rows .edge2)[c]? = some es)
    (hn : vs.Nodup) (h3 : 3 ≤ vs.length) (hl : es.length = vs.length)
    (hj : ∀ (k x a b : Nat), es[k]? = some x → vs[k]? = some a → vs[(k + 1) % vs.length]? = some b →
        A.conc.extremes x = ok (a, b) ∨ A.conc.extremes x = ok (b, a))
    (k : Nat) (hk : k < es.length) :
    (A.withSlots f).conc.sideNeighbour c es.length k =
      ok (A.withSlots (slotUpd f (A.sideEvent c vs es k))).conc := by
  have hB := ok_withSlots h f
  have hc : c < A.num .d2 := by
    have := lt_of_getElem? hv
    rwa [h.rows .vert2] at this
  have hv' : ((A.withSlots f).rows .vert2)[c]? = some vs := by
    rw [withSlots_rows _ _ (by simp), hv]
  have he' : ((A.withSlots f).rows .edge2)[c]? = some es := by
    rw [withSlots_rows _ _ (by simp), he]
  have hkv : k < vs.length := by omega
  have hk1 : (k + 1) % vs.length < vs.length := Nat.mod_lt _ (by omega)
  have hjk : ∀ j, ∀ hj' : j < es.length, A.conc.extremes es[j] =
        ok (vs[j]'(by omega), vs[(j + 1) % vs.length]'(Nat.mod_lt _ (by omega))) ∨
      A.conc.extremes es[j] =
        ok (vs[(j + 1) % vs.length]'(Nat.mod_lt _ (by omega)), vs[j]'(by omega)) := by
    intro j hj'
    have h1 : (j + 1) % vs.length < vs.length := Nat.mod_lt _ (by omega)
    exact hj j _ _ _ (List.getElem?_eq_getElem hj') (List.getElem?_eq_getElem (by omega))
      (List.getElem?_eq_getElem h1)
  have hxlt : ∀ x p, A.conc.extremes x = ok p → x < A.num .d1 := by
    intro x p hx
    by_contra hc
    unfold Mesh.extremes at hx
    rw [assert_false (show ¬x < A.conc.num .d1 from hc)] at hx
    cases hx
  have hinr : ∀ x ∈ es, x < A.num .d1 := by
    intro x hx
    obtain ⟨j, hj', rfl⟩ := List.getElem_of_mem hx
    rcases hjk j hj' with h | h <;> exact hxlt _ _ h
  have hxk : es[k] < A.num .d1 := hinr _ (List.getElem_mem hk)
  have key : ∀ q, ∀ (hq : q < A.num .d1), A.conc.extremes q =
      ok (A.ext[2 * q]'(by rw [h.ext]; omega), A.ext[2 * q + 1]'(by rw [h.ext]; omega)) := by
    intro q hq
    unfold Mesh.extremes
    rw [assert_true (show q < A.conc.num .d1 from hq)]
    show (do
      let _ ← ok PUnit.unit
      let a ← vget A.ext (2 * q)
      let b ← vget A.ext (2 * q + 1)
      ok (a, b)) = _
    rw [vget_of_lt (by rw [h.ext]; omega), vget_of_lt (by rw [h.ext]; omega)]
    rfl
  have hnn : ∀ i j (hi : i < vs.length) (hj : j < vs.length), vs[i] = vs[j] → i = j :=
    fun i j hi hj => (hn.getElem_inj_iff).1
  obtain ⟨p, h1, h2, h3', h4⟩ := findExtLoop_spec A.ext vs[k] vs[(k + 1) % vs.length] es
    (by intro x hx; have := hinr x hx; rw [h.ext]; omega) 0
  have hm : ∀ j, ∀ hj' : j < es.length,
      (A.ext[2 * es[j]]? = some vs[k] ∧ A.ext[2 * es[j] + 1]? = some vs[(k + 1) % vs.length]) ↔
        A.conc.extremes es[j] = ok (vs[k], vs[(k + 1) % vs.length]) := by
    intro j hj'
    have := hinr _ (List.getElem_mem hj')
    rw [key _ this, List.getElem?_eq_getElem (by rw [h.ext]; omega),
      List.getElem?_eq_getElem (by rw [h.ext]; omega)]
    simp
  -- only side `k` joins the two vertices
  have huniq : ∀ j, ∀ hj' : j < es.length,
      A.conc.extremes es[j] = ok (vs[k], vs[(k + 1) % vs.length]) → j = k := by
    intro j hj' hx
    have hj1 : (j + 1) % vs.length < vs.length := Nat.mod_lt _ (by omega)
    rcases hjk j hj' with h | h
    · rw [h] at hx
      simp only [ok.injEq, Prod.mk.injEq] at hx
      exact hnn _ _ _ _ hx.1
    · rw [h] at hx
      simp only [ok.injEq, Prod.mk.injEq] at hx
      have e1 := hnn _ _ _ _ hx.1
      have e2 := hnn _ _ _ _ hx.2
      exfalso
      have hjl : j < vs.length := by omega
      rcases Nat.lt_or_ge (j + 1) vs.length with hh | hh
      · rw [Nat.mod_eq_of_lt hh] at e1
        rcases Nat.lt_or_ge (k + 1) vs.length with hh' | hh'
        · rw [Nat.mod_eq_of_lt hh'] at e2; omega
        · rw [show k + 1 = vs.length by omega, Nat.mod_self] at e2; omega
      · rw [show j + 1 = vs.length by omega, Nat.mod_self] at e1
        rw [← e1] at e2
        rw [Nat.mod_eq_of_lt (by omega)] at e2; omega
  have hfind : (A.withSlots f).conc.findEdgeByExt .edge2 c vs[k] vs[(k + 1) % vs.length] = ok p := by
    unfold Mesh.findEdgeByExt
    rw [row_conc hB he', ok_bind]
    show Mesh.findExtLoop A.ext _ _ 0 es = _
    rw [h1, Nat.zero_add]
  have hpk : p = k ↔ A.conc.extremes es[k] = ok (vs[k], vs[(k + 1) % vs.length]) := by
    constructor
    · intro h; subst h; exact (hm _ hk).1 (h4 hk)
    · intro hx
      rcases Nat.lt_trichotomy p k with hlt | heq | hgt
      · exact huniq p (by omega) ((hm p (by omega)).1 (h4 (by omega)))
      · exact heq
      · exact absurd ((hm k hk).2 hx) (h3' k hgt hk)
  unfold Mesh.sideNeighbour
  rw [entry_conc hB he', entry_conc hB hv', entry_conc hB hv']
  rw [hl]
  simp only [agetD, List.getElem?_eq_getElem hk, List.getElem?_eq_getElem hkv,
    List.getElem?_eq_getElem hk1, ok_bind, hfind]
  have hev : A.sideEvent c vs es k =
      (es[k], decide (A.conc.extremes es[k] = ok (vs[k], vs[(k + 1) % vs.length])), c) := by
    simp [sideEvent, hk, hkv, hk1]
  rw [hev]
  by_cases hb : A.conc.extremes es[k] = ok (vs[k], vs[(k + 1) % vs.length])
  · rw [if_pos (hpk.2 hb), decide_eq_true hb]
    exact withSlots_insert h f es[k] true c hxk hc
  · rw [if_neg fun h' => hb (hpk.1 h'), decide_eq_false hb]
    exact withSlots_insert h f es[k] false c hxk hc

theorem sides_conc (h : A.Ok) (f : Nat → Bool → Nat) (c : Nat) (vs es : List Nat)
    (hv : (A.rows .vert2)[c]? = some vs) (he : (A.rows .edge2)[c]? = some es)
    (hn : vs.Nodup) (h3 : 3 ≤ vs.length) (hl : es.length = vs.length)
    (hj : ∀ (k x a b : Nat), es[k]? = some x → vs[k]? = some a → vs[(k + 1) % vs.length]? = some b →
        A.conc.extremes x = ok (a, b) ∨ A.conc.extremes x = ok (b, a)) :
    foldRes (fun (m : Mesh α) e => m.sideNeighbour c es.length e) (A.withSlots f).conc
      (List.range es.length) =
      ok (A.withSlots (((List.range es.length).map (A.sideEvent c vs es)).foldl slotUpd f)).conc := by
  have gen : ∀ n, n ≤ es.length →
      foldRes (fun (m : Mesh α) e => m.sideNeighbour c es.length e) (A.withSlots f).conc
        (List.range n) =
      ok (A.withSlots (((List.range n).map (A.sideEvent c vs es)).foldl slotUpd f)).conc := by
    intro n
    induction n with
    | zero => intro _; rfl
    | succ n ih =>
      intro hn'
      rw [foldRes_range_succ, ih (by omega), ok_bind,
        sideNeighbour_conc h _ c vs es hv he hn h3 hl hj n (by omega), List.range_succ,
        List.map_append, List.foldl_append]
      rfl
  exact gen _ (Nat.le_refl _)

theorem cells_conc (h : A.Ok) (f : Nat → Bool → Nat) (V E : Nat → List Nat) (act : Nat → Bool)
    (ha : Activity A.conc .d2 act)
    (hp : ∀ c < A.num .d2, act c = true → (A.rows .vert2)[c]? = some (V c) ∧
      (A.rows .edge2)[c]? = some (E c) ∧ (V c).Nodup ∧ 3 ≤ (V c).length ∧
      (E c).length = (V c).length ∧
      ∀ (k x a b : Nat), (E c)[k]? = some x → (V c)[k]? = some a →
        (V c)[(k + 1) % (V c).length]? = some b →
        A.conc.extremes x = ok (a, b) ∨ A.conc.extremes x = ok (b, a)) :
    foldRes (fun (m : Mesh α) c => do
      let a ← m.active .d2 c
      if a then do
        let n ← m.rowSize .edge2 c
        foldRes (fun (m : Mesh α) e => m.sideNeighbour c n e) m (List.range n)
      else ok m) (A.withSlots f).conc (List.range (A.num .d2)) =
    ok (A.withSlots (((List.range (A.num .d2)).flatMap fun c =>
      if act c then (List.range (E c).length).map (A.sideEvent c (V c) (E c)) else []).foldl
        slotUpd f)).conc := by
  have gen : ∀ n, n ≤ A.num .d2 → foldRes (fun (m : Mesh α) c => do
      let a ← m.active .d2 c
      if a then do
        let n ← m.rowSize .edge2 c
        foldRes (fun (m : Mesh α) e => m.sideNeighbour c n e) m (List.range n)
      else ok m) (A.withSlots f).conc (List.range n) =
    ok (A.withSlots (((List.range n).flatMap fun c =>
      if act c then (List.range (E c).length).map (A.sideEvent c (V c) (E c)) else []).foldl
        slotUpd f)).conc := by
    intro n
    induction n with
    | zero => intro _; rfl
    | succ n ih =>
      intro hn
      rw [foldRes_range_succ, ih (by omega), ok_bind]
      have hact : ∀ g, (A.withSlots g).conc.active .d2 n = ok (act n) := fun g => ha n (by
        show n < A.num .d2; omega)
      rw [hact, ok_bind, List.range_succ, List.flatMap_append, List.foldl_append]
      cases hn' : act n with
      | false => simp [hn']
      | true =>
        obtain ⟨p1, p2, p3, p4, p5, p6⟩ := hp n (by omega) hn'
        simp only [if_true]
        rw [rowSize_conc (ok_withSlots h _) (by rw [withSlots_rows _ _ (by simp)]; exact p2),
          ok_bind, sides_conc h _ n (V n) (E n) p1 p2 p3 p4 p5 p6]
        simp [hn']
  exact gen _ (Nat.le_refl _)

theorem initSlots_conc (h : A.Ok) : ∃ f, A.conc.initRowsConst .nb12 2 = (A.withSlots f).conc ∧
    ((∀ r ∈ A.rows .nb12, r = []) → ∀ x < A.num .d1, ∀ b, f x b = UINT_MAX) := by
  have hlen : ∀ (l : List Nat) (n : Nat), l.length = n * 2 →
      ∃ f : Nat → Bool → Nat, Csr.cut (List.replicate n 2) l =
        (List.range n).map (fun x => [f x false, f x true]) ∧
        ∀ x < n, ∀ b, f x b ∈ l := by
    intro l n hl
    refine ⟨fun x b => l.getD (2 * x + if b then 1 else 0) 0, ?_, ?_⟩
    · induction n generalizing l with
      | zero => rfl
      | succ n ih =>
        match l, hl with
        | [], hl => simp at hl
        | [a], hl => simp at hl; omega
        | a :: b :: l, hl =>
          simp only [List.replicate_succ, Csr.cut]
          rw [show (a :: b :: l).drop 2 = l from rfl, ih l (by simp at hl; omega), List.range_succ_eq_map]
          simp [Nat.mul_add, Nat.add_right_comm _ 2]
    · intro x hx b
      have : 2 * x + (if b then 1 else 0) < l.length := by cases b <;> simp <;> omega
      simp [this]
  obtain ⟨f, hf1, hf2⟩ := hlen (vresize (A.conc.lists .nb12).el (A.num .d1 * 2) UINT_MAX)
    (A.num .d1) (by simp)
  refine ⟨f, ?_, ?_⟩
  · unfold Mesh.initRowsConst withSlots
    rw [Csr.initConst_spec _ ((wf_conc h).lists .nb12).first, ← setRows_conc]
    show _ = ({ A.conc with lists := _ } : Mesh α)
    rw [← hf1]
    rfl
  · intro hr x hx b
    have he : (A.conc.lists .nb12).el = [] := by
      show (Csr.ofRows (A.rows .nb12)).el = []
      rw [Csr.ofRows_el]
      simpa using hr
    have := hf2 x hx b
    rw [he] at this
    simp [vresize] at this
    exact this.2

end AMesh
end Verif
