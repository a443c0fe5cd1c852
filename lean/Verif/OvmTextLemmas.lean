import Verif.OvmTextSpec
import Verif.OvmLemmas
import Verif.OffLemmas

/-
Lemmas for the text of OVM meshes.
-/
namespace Verif

open Res

variable {K : Type}

theorem ovmNats_map (f : List Nat) (rest : List (OffWord K)) : ovmNats f.length (f.map .nat ++ rest) = ok f := by
  induction f with
  | nil => rfl
  | cons x f ih => simp only [List.length_cons, List.map_cons, List.cons_append, ovmNats, ovmNat, ok_bind, ih]

theorem ovmCounted_line (f : List Nat) : ovmCounted (faceLine f : List (OffWord K)) = ok f := by
  have := ovmNats_map (K := K) f []
  rw [List.append_nil] at this
  simp only [ovmCounted, faceLine, ovmNat, ok_bind, this]

/-- A part of a text is read. -/
theorem ovmPart_eq {β γ : Type} {pre rest : List (List (OffWord K))} {xs : List β} {line : β → List (OffWord K)}
    {read : List (OffWord K) → Res γ} {g : β → γ} {k n : Nat} (hk : k = pre.length) (hn : n = xs.length)
    (h : ∀ x ∈ xs, read (line x) = ok (g x)) :
    ovmPart (pre ++ [.nat n] :: (xs.map line ++ rest)) k read = ok (xs.map g, k + 1 + n) := by
  subst hk hn
  unfold ovmPart
  have g1 : vget (pre ++ [OffWord.nat xs.length] :: (xs.map line ++ rest)) pre.length = ok [OffWord.nat xs.length] := by
    simp [vget]
  rw [assert_true (by simp), ok_bind, g1, ok_bind]
  simp only [ovmNat, ok_bind]
  rw [assert_true (by simp; omega), ok_bind, mapRes_range_list _ xs g rfl ?_, ok_bind]
  intro i x hx
  have hi := (List.getElem?_eq_some_iff.1 hx).1
  have : (pre ++ [OffWord.nat xs.length] :: (xs.map line ++ rest))[pre.length + 1 + i]? = some (line x) := by
    rw [show pre.length + 1 + i = pre.length + (i + 1) by omega, List.getElem?_append_right (by omega), Nat.add_sub_cancel_left,
      List.getElem?_cons_succ, List.getElem?_append_left (by simpa using hi), List.getElem?_map, hx]
    rfl
  simp only [vget, this, ok_bind, h x (List.mem_of_getElem? hx)]

theorem ovmPart_short {β : Type} {pre rest : List (List (OffWord K))} {read : List (OffWord K) → Res β} {k n : Nat}
    (hk : k = pre.length) (h : rest.length < n) : ovmPart (pre ++ [.nat n] :: rest) k read = abort := by
  subst hk
  unfold ovmPart
  have g1 : vget (pre ++ [OffWord.nat n] :: rest) pre.length = ok [OffWord.nat n] := by simp [vget]
  rw [assert_true (by simp), ok_bind, g1, ok_bind]
  simp only [ovmNat, ok_bind]
  rw [assert_false (by simp; omega)]
  rfl

theorem mapRes_eq_self {α β : Type} {f : α → Res β} {g : α → β} {l : List α} (h : ∀ x ∈ l, f x = ok (g x)) :
    mapRes f l = ok (l.map g) := by
  induction l with
  | nil => rfl
  | cons x l ih =>
    simp only [mapRes, h x (List.mem_cons_self ..), ok_bind, ih fun y hy => h y (List.mem_cons_of_mem _ hy), List.map_cons]

/-- The half edges of a consistent OVM mesh are those of its edges. -/
theorem halfEdges_eq {o : OvmMesh K} (ho : o.Consistent) {E : List (Nat × Nat)} (hE : o.EdgesAre E) :
    (E.flatMap fun e => [(e.1, e.2), (e.2, e.1)]) = o.halfEdges := by
  refine List.ext_getElem? ?_
  intro i
  obtain ⟨h1, h2⟩ := hE
  by_cases hi : i < 2 * o.num1
  · have he : i / 2 < o.num1 := by omega
    have hx := List.getElem?_eq_getElem (show i / 2 < E.length by omega)
    have hy := h2 (i / 2) he
    rw [hx] at hy
    rcases Nat.mod_two_eq_zero_or_one i with h0 | h0
    · have : i = 2 * (i / 2) := by omega
      rw [this, pairs_even, h2 _ he]
    · have : i = 2 * (i / 2) + 1 := by omega
      rw [this, pairs_odd, hx, ho.opposite _ _ _ hy]
      rfl
  · rw [List.getElem?_eq_none (by rw [pairs_length]; omega), List.getElem?_eq_none (by rw [← ho.num1]; omega)]

theorem textToOvm_text {o : OvmMesh K} (ho : o.Consistent) {lines : List (List (OffWord K))} (h : IsOvmText o lines) :
    textToOvm lines = ok o := by
  obtain ⟨E, hE, l0, l1, l2, l3, l4, rest, rfl⟩ := h
  have hh := halfEdges_eq ho hE
  generalize hL : l0 :: l1 :: [OffWord.nat o.num0] :: (o.points.map pointLine ++ (l2 :: [.nat o.num1] ::
    (E.map (fun e => [.nat e.1, .nat e.2]) ++ (l3 :: [.nat o.num2] :: (o.faces.map (fun c => faceLine (c.map Prod.snd)) ++
      (l4 :: [.nat o.num3] :: (o.solids.map (fun s => faceLine s.1) ++ rest))))))) = L
  have p1 : ovmPart L 2 offPointOf = ok (o.points, 2 + 1 + o.num0) := by
    rw [← hL]
    have := ovmPart_eq (K := K) (pre := [l0, l1]) (rest := l2 :: [.nat o.num1] ::
      (E.map (fun e => [.nat e.1, .nat e.2]) ++ (l3 :: [.nat o.num2] :: (o.faces.map (fun c => faceLine (c.map Prod.snd)) ++
        (l4 :: [.nat o.num3] :: (o.solids.map (fun s => faceLine s.1) ++ rest)))))) (g := id) (k := 2) rfl ho.num0
      (fun p _ => offPointOf_line p)
    rw [List.map_id] at this
    exact this
  have p2 : ovmPart L (2 + 1 + o.num0 + 1) ovmEdgeLine = ok (E, 2 + 1 + o.num0 + 1 + 1 + o.num1) := by
    have := ovmPart_eq (K := K) (pre := l0 :: l1 :: [.nat o.num0] :: (o.points.map pointLine ++ [l2]))
      (rest := l3 :: [.nat o.num2] :: (o.faces.map (fun c => faceLine (c.map Prod.snd)) ++
        (l4 :: [.nat o.num3] :: (o.solids.map (fun s => faceLine s.1) ++ rest)))) (line := fun e => [.nat e.1, .nat e.2])
      (read := ovmEdgeLine) (g := id) (k := 2 + 1 + o.num0 + 1) (xs := E) (by simp [ho.num0]; omega) hE.1.symm
      (fun p _ => by simp only [ovmEdgeLine, offNat, ok_bind, id])
    rw [List.map_id] at this
    rw [← this, ← hL]
    simp
  have p3 : ovmPart L (2 + 1 + o.num0 + 1 + 1 + o.num1 + 1) (ovmFaceLine o.halfEdges) =
      ok (o.faces, 2 + 1 + o.num0 + 1 + 1 + o.num1 + 1 + 1 + o.num2) := by
    have := ovmPart_eq (K := K) (pre := l0 :: l1 :: [.nat o.num0] :: (o.points.map pointLine ++ (l2 :: [.nat o.num1] ::
        (E.map (fun e => [.nat e.1, .nat e.2]) ++ [l3]))))
      (rest := l4 :: [.nat o.num3] :: (o.solids.map (fun s => faceLine s.1) ++ rest))
      (line := fun c : List (Nat × Nat) => faceLine (c.map Prod.snd))
      (read := ovmFaceLine o.halfEdges) (g := id) (k := 2 + 1 + o.num0 + 1 + 1 + o.num1 + 1) (xs := o.faces)
      (by simp [ho.num0, hE.1]; omega) ho.num2 (by
        intro c hc
        simp only [ovmFaceLine, ovmCounted_line, ok_bind, id]
        have := mapRes_eq_self (f := fun h => (do
          let x ← vget o.halfEdges h
          ok (x.1, h) : Res (Nat × Nat))) (g := fun h => (((o.halfEdges[h]?).getD (0, 0)).1, h)) (l := c.map Prod.snd) (by
            intro h hm
            obtain ⟨x, hx, rfl⟩ := List.mem_map.1 hm
            obtain ⟨b, hb⟩ := ho.begins c hc x hx
            simp only [vget, hb, ok_bind, Option.getD_some])
        rw [this, List.map_map]
        congr 1
        conv_rhs => rw [← List.map_id c]
        refine List.map_congr_left ?_
        intro x hx
        obtain ⟨b, hb⟩ := ho.begins c hc x hx
        simp [hb])
    rw [List.map_id] at this
    rw [← this, ← hL]
    simp
  have p4 : ovmPart L (2 + 1 + o.num0 + 1 + 1 + o.num1 + 1 + 1 + o.num2 + 1) ovmSolidLine =
      ok (o.solids, 2 + 1 + o.num0 + 1 + 1 + o.num1 + 1 + 1 + o.num2 + 1 + 1 + o.num3) := by
    have := ovmPart_eq (K := K) (pre := l0 :: l1 :: [.nat o.num0] :: (o.points.map pointLine ++ (l2 :: [.nat o.num1] ::
        (E.map (fun e => [.nat e.1, .nat e.2]) ++ (l3 :: [.nat o.num2] ::
          (o.faces.map (fun c => faceLine (c.map Prod.snd)) ++ [l4]))))))
      (rest := rest) (line := fun s : List Nat × List Bool => faceLine s.1)
      (read := ovmSolidLine) (g := id) (k := 2 + 1 + o.num0 + 1 + 1 + o.num1 + 1 + 1 + o.num2 + 1) (xs := o.solids)
      (by simp [ho.num0, hE.1, ho.num2]; omega) ho.num3 (by
        intro s hs
        have := ho.orientation s hs
        simp only [ovmSolidLine, ovmCounted_line, ok_bind, id]
        rw [← this])
    rw [List.map_id] at this
    rw [← this, ← hL]
    simp
  unfold textToOvm
  rw [p1, ok_bind]
  simp only
  rw [p2, ok_bind]
  simp only
  rw [hh, p3, ok_bind]
  simp only
  rw [p4, ok_bind]
  simp only
  rw [← ho.num0, hE.1, ← ho.num2, ← ho.num3]

theorem ovmToText_text {o : OvmMesh K} (ho : o.Consistent) : ∃ lines, ovmToText o = ok lines ∧ IsOvmText o lines ∧
    lines.length = 9 + o.num0 + o.num1 + o.num2 + o.num3 ∧ lines.head? = some [.word "OVM", .word "ASCII"] := by
  obtain ⟨E, e1, e2, e3⟩ := mapRes_range_exists (f := fun e => vget o.halfEdges (2 * e)) (n := o.num1)
    (R := fun e x => o.halfEdges[2 * e]? = some x) (by
      intro e he
      have hl : 2 * e < o.halfEdges.length := by rw [← ho.num1]; omega
      exact ⟨_, vget_of_lt hl, List.getElem?_eq_getElem hl⟩)
  have hE : o.EdgesAre E := by
    refine ⟨e2, ?_⟩
    intro e he
    have hx := List.getElem?_eq_getElem (show e < E.length by omega)
    rw [hx]
    exact e3 e _ hx
  refine ⟨_, ?_, ⟨E, hE, [.word "OVM", .word "ASCII"], [.word "Vertices"], [.word "Edges"], [.word "Faces"], [.word "Polyhedra"],
    [], rfl⟩, ?_, rfl⟩
  · unfold ovmToText
    rw [mapRes_range_list _ o.points pointLine ho.num0 ?_, ok_bind,
      mapRes_range_list _ E (fun e => [OffWord.nat e.1, .nat e.2]) e2.symm ?_, ok_bind,
      mapRes_range_list _ o.faces (fun c => faceLine (c.map Prod.snd)) ho.num2 ?_, ok_bind,
      mapRes_range_list _ o.solids (fun s => faceLine s.1) ho.num3 ?_, ok_bind]
    · simp
    · intro i x hx
      simp only [vget, hx, ok_bind]
      rfl
    · intro i x hx
      simp only [vget, hx, ok_bind]
      simp [faceLine]
    · intro i x hx
      simp only [vget, e3 i x hx, ok_bind]
    · intro i x hx
      simp only [vget, hx, ok_bind]
      rfl
  · simp [← ho.num0, ← ho.num2, ← ho.num3, hE.1]
    omega

end Verif
