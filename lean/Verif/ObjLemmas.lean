import Verif.ObjSpec
import Verif.CheckLemmas
import Verif.ExtractLemmas

/-
Lemmas for the format OBJ.
-/
namespace Verif

open Res

variable {K : Type}

theorem objFace_good (n : Nat) {ws : List ObjWord} (h : ∀ w ∈ ws, ∃ k, w = .int k ∧ k ≠ 0) :
    ∃ f, objFace n ws = ok f ∧ List.Forall₂ (fun w i => ∃ k, w = ObjWord.int k ∧ ObjIndex n k i) ws f := by
  have hs : ObjWord.slash ∉ ws := by
    intro hm
    obtain ⟨k, hk, _⟩ := h _ hm
    exact absurd hk (by simp)
  rw [objFace, if_neg hs]
  refine mapRes_forall₂ ?_
  intro w hw
  obtain ⟨k, rfl, hk⟩ := h w hw
  refine ⟨_, rfl, k, rfl, ?_⟩
  unfold ObjIndex
  split_ifs <;> omega

theorem ObjMeaning.nil : ObjMeaning ([] : List (ObjLine K)) ⟨[], []⟩ :=
  ⟨rfl, rfl, by intro a b xs h; simp at h, by intro a b xs h; simp at h⟩

theorem append_snoc_cases {α : Type} {l a b : List α} {x y : α} (h : l ++ [x] = a ++ y :: b) :
    (b = [] ∧ l = a ∧ x = y) ∨ ∃ b', l = a ++ y :: b' := by
  rcases List.eq_nil_or_concat b with rfl | ⟨b', z, rfl⟩
  · have := List.append_inj' h rfl
    simp at this
    exact Or.inl ⟨rfl, this.1, this.2⟩
  · right
    refine ⟨b', ?_⟩
    rw [List.concat_eq_append, ← List.cons_append, ← List.append_assoc] at h
    exact (List.append_inj' h rfl).1

theorem filter_length_lt {α : Type} (f : α → Bool) {l a b : List α} {y : α} (h : l = a ++ y :: b) (hy : f y = true) :
    (a.filter f).length < (l.filter f).length := by
  subst h
  rw [List.filter_append, List.length_append, List.filter_cons_of_pos hy, List.length_cons]
  omega

theorem ObjMeaning.snoc {lines : List (ObjLine K)} {o : ObjMesh K} (h : ObjMeaning lines o) {l : ObjLine K} (hl : l.Good) :
    ∃ o', objLine o l = ok o' ∧ ObjMeaning (lines ++ [l]) o' := by
  cases l with
  | other =>
    refine ⟨o, rfl, ⟨?_, ?_, ?_, ?_⟩⟩
    · rw [h.numPoints]; simp [ObjLine.isVertex]
    · rw [h.numFaces]; simp [ObjLine.isFace]
    · intro a b xs hab
      rcases append_snoc_cases hab with ⟨_, _, e⟩ | ⟨b', e⟩
      · cases e
      · exact h.point a b' xs e
    · intro a b ws hab
      rcases append_snoc_cases hab with ⟨_, _, e⟩ | ⟨b', e⟩
      · cases e
      · exact h.face a b' ws e
  | vertex ys =>
    match ys, hl with
    | x :: y :: z :: more, _ =>
      refine ⟨{ o with points := o.points ++ [⟨x, y, z⟩] }, rfl, ⟨?_, ?_, ?_, ?_⟩⟩
      · simp [h.numPoints, ObjLine.isVertex]; rfl
      · simp [h.numFaces, ObjLine.isFace]
      · intro a b xs hab
        rcases append_snoc_cases hab with ⟨_, e1, e⟩ | ⟨b', e⟩
        · subst e1
          obtain rfl : x :: y :: z :: more = xs := by simpa using e
          exact ⟨⟨x, y, z⟩, by rw [← h.numPoints]; simp, more, rfl⟩
        · obtain ⟨p, hp, hq⟩ := h.point a b' xs e
          refine ⟨p, ?_, hq⟩
          rw [List.getElem?_append_left (List.getElem?_eq_some_iff.1 hp).1]
          exact hp
      · intro a b ws hab
        rcases append_snoc_cases hab with ⟨_, _, e⟩ | ⟨b', e⟩
        · cases e
        · exact h.face a b' ws e
  | face vs =>
    obtain ⟨f, hf, hF⟩ := objFace_good o.points.length hl
    refine ⟨{ o with faces := o.faces ++ [f] }, by simp [objLine, hf], ⟨?_, ?_, ?_, ?_⟩⟩
    · simp [h.numPoints, ObjLine.isVertex]
    · simp [h.numFaces, ObjLine.isFace]; rfl
    · intro a b xs hab
      rcases append_snoc_cases hab with ⟨_, _, e⟩ | ⟨b', e⟩
      · cases e
      · exact h.point a b' xs e
    · intro a b ws hab
      rcases append_snoc_cases hab with ⟨_, e1, e⟩ | ⟨b', e⟩
      · subst e1
        obtain rfl : vs = ws := by simpa using e
        rw [h.numPoints] at hF
        exact ⟨f, by rw [← h.numFaces]; simp, hF⟩
      · obtain ⟨p, hp, hq⟩ := h.face a b' ws e
        refine ⟨p, ?_, hq⟩
        rw [List.getElem?_append_left (List.getElem?_eq_some_iff.1 hp).1]
        exact hp

theorem foldRes_objLine (rest : List (ObjLine K)) : ∀ (lines : List (ObjLine K)) (o : ObjMesh K), ObjMeaning lines o →
    (∀ l ∈ rest, l.Good) → ∃ o', foldRes objLine o rest = ok o' ∧ ObjMeaning (lines ++ rest) o' := by
  induction rest with
  | nil => intro lines o h _; exact ⟨o, rfl, by simpa using h⟩
  | cons l rest ih =>
    intro lines o h hg
    obtain ⟨o1, h1, m1⟩ := h.snoc (hg l (List.mem_cons_self ..))
    obtain ⟨o2, h2, m2⟩ := ih _ o1 m1 fun x hx => hg x (List.mem_cons_of_mem _ hx)
    refine ⟨o2, ?_, by simpa using m2⟩
    simp only [foldRes, h1, ok_bind]
    exact h2

theorem foldRes_points (o : ObjMesh K) (ps : List (V3 K)) (rest : List (ObjLine K)) :
    foldRes objLine o (ps.map (fun p => ObjLine.vertex [p.x, p.y, p.z]) ++ rest) =
      foldRes objLine { o with points := o.points ++ ps } rest := by
  induction ps generalizing o with
  | nil => simp
  | cons p ps ih =>
    simp only [List.map_cons, List.cons_append, foldRes, objLine, objPoint, ok_bind]
    rw [ih]
    simp

theorem mapRes_objIndex (n : Nat) (f : List Int) (h : ∀ i ∈ f, 0 ≤ i) :
    mapRes (objIndex n) (f.map fun i => .int (i + 1)) = ok f := by
  induction f with
  | nil => rfl
  | cons i f ih =>
    have hi := h i (List.mem_cons_self ..)
    have : objIndex n (.int (i + 1)) = ok i := by
      simp only [objIndex]
      rw [if_neg (by omega)]
      simp
    simp only [List.map_cons, mapRes, this, ok_bind, ih fun x hx => h x (List.mem_cons_of_mem _ hx)]

theorem foldRes_faces (o : ObjMesh K) (fs : List (List Int)) (h : ∀ f ∈ fs, ∀ i ∈ f, 0 ≤ i) :
    foldRes objLine o (fs.map fun f => .face (f.map fun i => .int (i + 1))) = ok { o with faces := o.faces ++ fs } := by
  induction fs generalizing o with
  | nil => simp [foldRes]
  | cons f fs ih =>
    have hf : objFace o.points.length (f.map fun i => .int (i + 1)) = ok f := by
      rw [objFace, if_neg (by simp), mapRes_objIndex _ _ (h f (List.mem_cons_self ..))]
    simp only [List.map_cons, foldRes, objLine, hf, ok_bind]
    rw [ih _ fun x hx => h x (List.mem_cons_of_mem _ hx)]
    simp

theorem mapRes_throw {α β : Type} {f : α → Res β} {l : List α} (h : ∀ x ∈ l, (∃ y, f x = ok y) ∨ f x = Res.throw)
    (hx : ∃ x ∈ l, f x = Res.throw) : mapRes f l = Res.throw := by
  induction l with
  | nil => obtain ⟨x, hx, _⟩ := hx; simp at hx
  | cons a l ih =>
    rcases h a (List.mem_cons_self ..) with ⟨y, hy⟩ | ht
    · obtain ⟨x, hx, hxt⟩ := hx
      rcases List.mem_cons.1 hx with rfl | hm
      · rw [hy] at hxt; cases hxt
      · simp only [mapRes, hy, ok_bind]
        rw [ih (fun z hz => h z (List.mem_cons_of_mem _ hz)) ⟨x, hm, hxt⟩]
        rfl
    · simp only [mapRes, ht]
      rfl

theorem objFace_bad (n : Nat) {ws : List ObjWord} (h : ∃ w ∈ ws, ∀ k, w ≠ .int k) : objFace n ws = Res.throw := by
  unfold objFace
  split_ifs with hs
  · rfl
  · refine mapRes_throw ?_ ?_
    · intro w _
      cases w with
      | int k => exact Or.inl ⟨_, rfl⟩
      | slash => exact Or.inr rfl
      | text => exact Or.inr rfl
    · obtain ⟨w, hw, hk⟩ := h
      refine ⟨w, hw, ?_⟩
      cases w with
      | int k => exact absurd rfl (hk k)
      | slash => rfl
      | text => rfl

end Verif
