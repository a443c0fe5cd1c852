import Verif.OffSpec
import Verif.EdgeProps
import Verif.FillProps
import Verif.PolygonLemmas
import Verif.CheckLemmas
import Verif.ExtractLemmas

/-
Lemmas for the format OFF.
-/
namespace Verif

open Res

variable {K : Type}

theorem offNats_map (f : List Nat) (rest : List (OffWord K)) : offNats f.length (f.map .nat ++ rest) = ok f := by
  induction f with
  | nil => rfl
  | cons x f ih =>
    simp only [List.length_cons, List.map_cons, List.cons_append, offNats, offNat, ok_bind, ih]

theorem offFaceOf_line (f : List Nat) : offFaceOf (faceLine f : List (OffWord K)) = ok f := by
  have := offNats_map (K := K) f []
  rw [List.append_nil] at this
  simp only [offFaceOf, faceLine, offCount, ok_bind, this]

theorem offPointOf_line (p : V3 K) : offPointOf (pointLine p) = ok p := by
  simp only [offPointOf, pointLine, offNum, ok_bind]

theorem mapRes_range_self {α β : Type} (f : Nat → Res α) (L : List β) (g : β → α) {n : Nat} (hn : n = L.length)
    (h : ∀ (i : Nat) x, L[i]? = some x → f i = ok (g x)) : mapRes f (List.range n) = ok (L.map g) := by
  subst hn
  exact mapRes_range_eq f g L fun i hi => h i _ (List.getElem?_eq_getElem hi)

theorem textToOff_text {o : OffMesh K} (ho : o.Consistent) {lines : List (List (OffWord K))} (h : IsOffText o lines) :
    textToOff lines = ok o := by
  obtain ⟨first, rest, rfl⟩ := h
  obtain ⟨h0, h2⟩ := ho
  unfold textToOff
  rw [assert_true (by simp), ok_bind]
  have g1 : vget (first :: [.nat o.num0, .nat o.num2, .nat o.num1] ::
      (o.points.map pointLine ++ o.faces.map faceLine ++ rest)) 1 = ok [OffWord.nat o.num0, .nat o.num2, .nat o.num1] := rfl
  rw [g1, ok_bind]
  simp only [offNat, ok_bind]
  rw [assert_true (by simp; omega), ok_bind]
  rw [mapRes_range_self _ o.points id h0 ?_, ok_bind, assert_true (by simp; omega), ok_bind,
    mapRes_range_self _ o.faces id h2 ?_, ok_bind]
  · simp
  · intro i f hf
    have : (first :: [.nat o.num0, .nat o.num2, .nat o.num1] ::
        (o.points.map pointLine ++ o.faces.map faceLine ++ rest))[2 + o.num0 + i]? = some (faceLine f) := by
      rw [show 2 + o.num0 + i = (o.num0 + i) + 1 + 1 by omega, List.getElem?_cons_succ, List.getElem?_cons_succ,
        List.append_assoc, List.getElem?_append_right (by simp; omega), List.getElem?_append_left]
      · rw [List.length_map, h0, Nat.add_sub_cancel_left, List.getElem?_map, hf]
        rfl
      · have := (List.getElem?_eq_some_iff.1 hf).1
        simp
        omega
    simp only [vget, this, ok_bind, offFaceOf_line, id]
  · intro i p hp
    have : (first :: [.nat o.num0, .nat o.num2, .nat o.num1] ::
        (o.points.map pointLine ++ o.faces.map faceLine ++ rest))[2 + i]? = some (pointLine p) := by
      have hl := (List.getElem?_eq_some_iff.1 hp).1
      rw [show 2 + i = i + 1 + 1 by omega, List.getElem?_cons_succ, List.getElem?_cons_succ,
        List.append_assoc, List.getElem?_append_left (by simpa using hl), List.getElem?_map, hp]
      rfl
    simp only [vget, this, ok_bind, offPointOf_line, id]

theorem offToText_text {o : OffMesh K} (ho : o.Consistent) : offToText o =
    ok ([.word "OFF"] :: [.nat o.num0, .nat o.num2, .nat o.num1] :: (o.points.map pointLine ++ o.faces.map faceLine)) := by
  obtain ⟨h0, h2⟩ := ho
  unfold offToText
  rw [mapRes_range_self _ o.points pointLine h0 ?_, ok_bind, mapRes_range_self _ o.faces faceLine h2 ?_, ok_bind]
  · rfl
  · intro i f hf
    simp only [vget, hf, ok_bind]
    rfl
  · intro i p hp
    simp only [vget, hp, ok_bind]
    rfl

theorem toOff_spec {m : Mesh K} (h : m.WF) : ∃ o, m.toOff = ok o ∧ o.Consistent ∧ o.num0 = m.num .d0 ∧ o.num1 = m.num .d1 ∧
    o.num2 = m.num .d2 ∧ (∀ (i : Nat) p, o.points[i]? = some p → m.coordinates i = ok (p.x, p.y, p.z)) ∧
    ∀ (c : Nat) r, o.faces[c]? = some r → m.row .vert2 c = ok r := by
  obtain ⟨ps, hps, aps⟩ := mapRes_forall₂ (f := m.point) (l := List.range (m.num .d0))
    (R := fun i p => m.coordinates i = ok (p.x, p.y, p.z)) (by
      intro i hi
      obtain ⟨c, hc⟩ := Mesh.coordinates_exists h (List.mem_range.1 hi)
      exact ⟨⟨c.1, c.2.1, c.2.2⟩, by simp [Mesh.point, hc], hc⟩)
  obtain ⟨fs, hfs, afs⟩ := mapRes_forall₂ (f := m.row .vert2) (l := List.range (m.num .d2))
    (R := fun i r => m.row .vert2 i = ok r) (by
      intro i hi
      obtain ⟨r, hr⟩ := Mesh.row_exists h .vert2 (List.mem_range.1 hi)
      exact ⟨r, hr, hr⟩)
  have l0 := aps.length_eq
  have l2 := afs.length_eq
  rw [List.length_range] at l0 l2
  have at' : ∀ {γ : Type} {n : Nat} {R : Nat → γ → Prop} {l : List γ}, List.Forall₂ R (List.range n) l →
      ∀ (i : Nat) x, l[i]? = some x → R i x := by
    intro γ n R l ha i x hx
    obtain ⟨hi, rfl⟩ := List.getElem?_eq_some_iff.1 hx
    have hi' : i < (List.range n).length := by rw [ha.length_eq]; exact hi
    have := (List.forall₂_iff_get.1 ha).2 i hi' hi
    simpa using this
  refine ⟨⟨m.num .d0, m.num .d1, m.num .d2, ps, fs⟩, ?_, ⟨l0, l2⟩, rfl, rfl, rfl, at' aps, at' afs⟩
  simp only [Mesh.toOff, hps, hfs, ok_bind]

theorem ofOff_eq [Zero K] {o : OffMesh K} (ho : o.Consistent) {r : Cell1DsResult}
    (hr : computeMesh2DCell1Ds o.points.length o.faces = ok r) (hl : r.cell2Ds.length = o.faces.length) :
    (Mesh.empty : Mesh K).ofOff o = Mesh.fillMesh2D o.points r.cell1Ds r.cell2Ds Mesh.empty := by
  obtain ⟨h0, h2⟩ := ho
  have hm : mapRes (vget r.cell2Ds) (List.range o.num2) = ok r.cell2Ds := by
    have := mapRes_range_self (vget r.cell2Ds) r.cell2Ds id (n := o.num2) (by omega) (by
      intro i x hx
      simp [vget, hx])
    simpa using this
  unfold Mesh.ofOff Mesh.fillMesh2D Mesh.fillPoints
  simp only [h0, hr, hm, ok_bind]
  cases (({ (Mesh.empty : Mesh K) with dimension := 2 }).init .d0 o.points.length).insertCoords o.points <;> rfl

theorem textToOff_short {first : List (OffWord K)} {n0 n2 n1 : Nat} {rest : List (List (OffWord K))}
    (h : rest.length < n0) : textToOff (first :: [.nat n0, .nat n2, .nat n1] :: rest) = abort := by
  unfold textToOff
  rw [assert_true (by simp), ok_bind]
  have g1 : vget (first :: [OffWord.nat n0, .nat n2, .nat n1] :: rest) 1 = ok [OffWord.nat n0, .nat n2, .nat n1] := rfl
  rw [g1, ok_bind]
  simp only [offNat, ok_bind]
  rw [assert_false (by simp; omega)]
  rfl

theorem textToOff_short2 {first : List (OffWord K)} {n2 n1 : Nat} {ps : List (V3 K)} {rest : List (List (OffWord K))}
    (h : rest.length < n2) :
    textToOff (first :: [.nat ps.length, .nat n2, .nat n1] :: (ps.map pointLine ++ rest)) = abort := by
  unfold textToOff
  rw [assert_true (by simp), ok_bind]
  have g1 : vget (first :: [OffWord.nat ps.length, .nat n2, .nat n1] :: (ps.map pointLine ++ rest)) 1 =
    ok [OffWord.nat ps.length, .nat n2, .nat n1] := rfl
  rw [g1, ok_bind]
  simp only [offNat, ok_bind]
  rw [assert_true (by simp; omega), ok_bind]
  rw [mapRes_range_self _ ps id rfl ?_, ok_bind, assert_false (by simp; omega)]
  · rfl
  · intro i p hp
    have : (first :: [OffWord.nat ps.length, .nat n2, .nat n1] :: (ps.map pointLine ++ rest))[2 + i]? =
        some (pointLine p) := by
      have hl := (List.getElem?_eq_some_iff.1 hp).1
      rw [show 2 + i = i + 1 + 1 by omega, List.getElem?_cons_succ, List.getElem?_cons_succ,
        List.getElem?_append_left (by simpa using hl), List.getElem?_map, hp]
      rfl
    simp only [vget, this, ok_bind, offPointOf_line, id]

end Verif
