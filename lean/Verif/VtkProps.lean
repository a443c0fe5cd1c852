import Verif.VtkLemmas

/-!
# C106: the edges and faces of a mesh of tetrahedra
-/

namespace Verif
open Res

theorem tetPairs_iff {t : List Nat} (h4 : t.length = 4) (hn : t.Nodup) {a b : Nat} :
    (∃ p ∈ tetPairs t, (a, b) = (min p.1 p.2, max p.1 p.2)) ↔ a < b ∧ a ∈ t ∧ b ∈ t := by
  obtain ⟨w, x, y, z, rfl⟩ := four_of h4
  simp only [List.nodup_cons, List.mem_cons, List.not_mem_nil, or_false, not_or, not_false_eq_true, and_true,
    List.nodup_nil] at hn
  simp only [tetPairs, List.mem_cons, List.not_mem_nil, or_false, exists_eq_or_imp, exists_eq_left, Prod.mk.injEq]
  omega

theorem tetPairs_mem {t : List Nat} (h4 : t.length = 4) {a b : Nat} (ha : a ∈ t) (hb : b ∈ t) (hab : a ≠ b) :
    (a, b) ∈ tetPairs t ∨ (b, a) ∈ tetPairs t := by
  obtain ⟨w, x, y, z, rfl⟩ := four_of h4
  simp only [List.mem_cons, List.not_mem_nil, or_false] at ha hb
  simp only [tetPairs, List.mem_cons, List.not_mem_nil, or_false, Prod.mk.injEq]
  rcases ha with rfl | rfl | rfl | rfl <;> rcases hb with rfl | rfl | rfl | rfl <;>
    first | exact absurd rfl hab | simp

theorem forall₂_left {α β : Type} {R : α → β → Prop} {l : List α} {m : List β} (h : List.Forall₂ R l m) {b : β}
    (hb : b ∈ m) : ∃ a ∈ l, R a b := by
  induction h with
  | nil => simp at hb
  | cons hr _ ih =>
    rcases List.mem_cons.1 hb with rfl | hb
    · exact ⟨_, by simp, hr⟩
    · obtain ⟨a, ha, hr⟩ := ih hb
      exact ⟨a, List.mem_cons_of_mem _ ha, hr⟩

/-- Different things have different numbers. -/
theorem forall₂_nodup {α β : Type} {R : α → β → Prop} {l : List α} {m : List β} (h : List.Forall₂ R l m)
    (hm : m.Nodup) (hR : ∀ a b c, b ∈ m → c ∈ m → R a b → R a c → b = c) : l.Nodup := by
  induction h with
  | nil => simp
  | @cons a b l m hr hf ih =>
    obtain ⟨hb, hm⟩ := List.nodup_cons.1 hm
    refine List.nodup_cons.2 ⟨fun ha => ?_, ih hm fun a b c hb hc => hR a b c (List.mem_cons_of_mem _ hb)
      (List.mem_cons_of_mem _ hc)⟩
    obtain ⟨c, hc, hr'⟩ := forall₂_left hf.flip ha
    obtain rfl := hR a b c (by simp) (List.mem_cons_of_mem _ hc) hr hr'
    exact hb hc

theorem tetPairs_nodup {t : List Nat} (h4 : t.length = 4) (hn : t.Nodup) : (tetPairs t).Nodup ∧
    ∀ p ∈ tetPairs t, ∀ q ∈ tetPairs t, ((p.1 = q.1 ∧ p.2 = q.2) ∨ (p.1 = q.2 ∧ p.2 = q.1)) → p = q := by
  obtain ⟨w, x, y, z, rfl⟩ := four_of h4
  simp only [List.nodup_cons, List.mem_cons, List.not_mem_nil, or_false, not_or, not_false_eq_true, and_true,
    List.nodup_nil] at hn
  constructor
  · simp only [tetPairs, List.nodup_cons, List.mem_cons, List.not_mem_nil, or_false, not_or, Prod.mk.injEq,
      List.nodup_nil, not_false_eq_true, and_true]
    omega
  · simp only [tetPairs, List.mem_cons, List.not_mem_nil, or_false]
    rintro p (rfl | rfl | rfl | rfl | rfl | rfl) q (rfl | rfl | rfl | rfl | rfl | rfl) <;>
      first | exact fun _ => rfl | (simp only [Prod.mk.injEq]; omega)

/-- The face of a cell has a mark iff it is on the border. -/
theorem faceMark {E : List ((Nat × Nat) × Nat)} {F : List ((Nat × Nat) × VtkFace)} {tets : List (List Nat)}
    (ht : ∀ t ∈ tets, t.length = 4 ∧ t.Nodup) (hF : FOk E F (tets.flatMap tetSets)) {f : Nat}
    {x : (Nat × Nat) × VtkFace} (hx : F[f]? = some x) :
    x.2.marker = if tets.countP (fun t => vset3 x ⊆ t.toFinset) = 1 then 1 else 0 := by
  have h := (hF.face f x hx).marker
  have hm : vset3 x ∈ tets.flatMap tetSets := (hF.mem _).1 (List.mem_map.2 ⟨x, List.mem_of_getElem? hx, rfl⟩)
  obtain ⟨t, htt, hS⟩ := List.mem_flatMap.1 hm
  obtain ⟨h4, hn⟩ := ht t htt
  rwa [count_tetSets ht (tetSets_card h4 hn hS).1] at h

/-- **C106.** From tetrahedra with four different vertices the program builds a mesh that has an edge for each pair of
vertices of a tetrahedron and a face for each triangle of a tetrahedron, each once; every cell has its six edges and its
four faces; the marks tell the faces of exactly one tetrahedron, and the vertices and edges of such faces. -/
theorem c106_mesh (num : Nat) (cells : List (List Nat × Bool))
    (hc : ∀ c ∈ cells, c.2 = true ∧ c.1.length = 4 ∧ c.1.Nodup ∧ ∀ v ∈ c.1, v < num) :
    ∃ r, computeVtkMesh3D num cells = ok r ∧ r.IsMeshOf num (cells.map Prod.fst) := by
  obtain ⟨s, hs, ho⟩ := vtkCells_spec cells (fun c h => ⟨(hc c h).1, (hc c h).2.1, (hc c h).2.2.1⟩) _ _ VOk.init
  rw [List.nil_append] at ho
  set tets := cells.map Prod.fst with htets
  have ht : ∀ t ∈ tets, t.length = 4 ∧ t.Nodup := by
    intro t h
    obtain ⟨c, hcm, rfl⟩ := List.mem_map.1 h
    exact ⟨(hc c hcm).2.1, (hc c hcm).2.2.1⟩
  have htn : ∀ t ∈ tets, ∀ v ∈ t, v < num := by
    intro t h
    obtain ⟨c, hcm, rfl⟩ := List.mem_map.1 h
    exact (hc c hcm).2.2.2
  have hset : ∀ S, S ∈ s.faces.map vset3 ↔ S.card = 3 ∧ ∃ t ∈ tets, S ⊆ t.toFinset := by
    intro S
    rw [ho.faces.mem, List.mem_flatMap]
    constructor
    · rintro ⟨t, h, hS⟩
      obtain ⟨a, b⟩ := tetSets_card (ht t h).1 (ht t h).2 hS
      exact ⟨a, t, h, b⟩
    · rintro ⟨h3, t, h, hS⟩
      exact ⟨t, h, tetSets_complete (ht t h).1 (ht t h).2 hS h3⟩
  have hsub : ∀ x ∈ s.faces, ∀ v ∈ x.2.vertices, v < num := by
    intro x hx v hv
    obtain ⟨_, t, h, hS⟩ := (hset (vset3 x)).1 (List.mem_map.2 ⟨x, hx, rfl⟩)
    exact htn t h v (by simpa using hS (by simpa [vset3] using hv))
  have hmk : ∀ x ∈ s.faces, x.2.marker = 0 ∨ x.2.marker = 1 := by
    intro x hx
    obtain ⟨i, hi, rfl⟩ := List.getElem_of_mem hx
    have := faceMark ht ho.faces (List.getElem?_eq_getElem hi)
    split at this
    · exact Or.inr this
    · exact Or.inl this
  have hed : ∀ x ∈ s.faces, ∀ e ∈ x.2.edges, e < s.edges.length := by
    intro x hx e he
    obtain ⟨i, hi, rfl⟩ := List.getElem_of_mem hx
    obtain ⟨a, b, c, e0, e1, e2, _, _, _, _, hes, i0, i1, i2, _⟩ :=
      (ho.faces.face i _ (List.getElem?_eq_getElem hi)).shape
    rw [hes] at he
    simp only [List.mem_cons, List.not_mem_nil, or_false] at he
    rcases he with rfl | rfl | rfl
    · exact i0.lt
    · exact i1.lt
    · exact i2.lt
  obtain ⟨m, hm, l0, l1, g0, g1⟩ := marks_spec s.faces num s.edges.length
    (fun x hx => ⟨hsub x hx, hed x hx, hmk x hx⟩) (List.replicate num 0, List.replicate s.edges.length 0) (by simp)
    (by simp)
  have t1 := table_spec (fun e : (Nat × Nat) × Nat => e.2) Prod.fst s.edges [] (List.replicate s.edges.length (0, 0))
    (by simp) (by simpa using ho.edges.number)
  have t2 := table_spec (fun f : (Nat × Nat) × VtkFace => f.2.index) (fun f => (f.2.vertices, f.2.edges)) s.faces []
    (List.replicate s.faces.length ([], [])) (by simp) (by simpa using fun i x hx => (ho.faces.face i x hx).index)
  have t3 := table_spec (fun f : (Nat × Nat) × VtkFace => f.2.index) (fun f => f.2.marker) s.faces []
    (List.replicate s.faces.length 0) (by simp) (by simpa using fun i x hx => (ho.faces.face i x hx).index)
  rw [List.nil_append, List.nil_append] at t1 t2 t3
  have hfold := fold3 _ _ _ s.faces _ _ _ t2 t3 hm
  set r : VtkMesh3D := ⟨s.edges.map Prod.fst, s.faces.map fun f => (f.2.vertices, f.2.edges), s.cells, m.1, m.2,
    s.faces.map fun f => f.2.marker, List.replicate cells.length 0⟩ with hr
  have hfs : r.faceSets = s.faces.map vset3 := by
    rw [hr, VtkMesh3D.faceSets, List.map_map]
    rfl
  have hE : ∀ {e a b}, IsE s.edges e a b → r.EdgeIs e a b := by
    intro e a b h
    unfold IsE at h
    unfold VtkMesh3D.EdgeIs
    rw [hr]
    simp only [List.getElem?_map, h, Option.map_some]
  have hHas : ∀ {f S}, HasF s.faces f S → r.faceSets[f]? = some S := by
    rintro f S ⟨x, hx, rfl⟩
    rw [hfs, List.getElem?_map, hx]
    rfl
  have hB : ∀ {f : Nat} {x}, s.faces[f]? = some x → (r.OnBorder tets f ↔ x.2.marker = 1) := by
    intro f x hx
    have h1 := faceMark ht ho.faces hx
    have h2 : r.faceSets[f]? = some (vset3 x) := hHas ⟨x, hx, rfl⟩
    unfold VtkMesh3D.OnBorder
    rw [h2, h1]
    constructor
    · rintro ⟨S, hS, hS'⟩
      obtain rfl := Option.some.inj hS
      rw [if_pos hS']
    · intro h
      refine ⟨_, rfl, ?_⟩
      by_contra h'
      rw [if_neg h'] at h
      omega
  have hget : ∀ {f : Nat} {x}, s.faces[f]? = some x → r.cell2Ds[f]? = some (x.2.vertices, x.2.edges) := by
    intro f x hx
    show (s.faces.map fun f => (f.2.vertices, f.2.edges))[f]? = _
    rw [List.getElem?_map, hx]
    rfl
  have hV : ∀ v, (∃ x ∈ s.faces, x.2.marker = 1 ∧ v ∈ x.2.vertices) ↔
      ∃ (f : Nat) (F : List Nat × List Nat), r.OnBorder tets f ∧ r.cell2Ds[f]? = some F ∧ v ∈ F.1 := by
    intro v
    constructor
    · rintro ⟨x, hx, h1, hv⟩
      obtain ⟨i, hi, rfl⟩ := List.getElem_of_mem hx
      exact ⟨i, _, (hB (List.getElem?_eq_getElem hi)).2 h1, hget (List.getElem?_eq_getElem hi), hv⟩
    · rintro ⟨f, F, hf, hF, hv⟩
      rw [hr] at hF
      simp only [List.getElem?_map, Option.map_eq_some_iff] at hF
      obtain ⟨x, hx, rfl⟩ := hF
      exact ⟨x, List.mem_of_getElem? hx, (hB hx).1 hf, hv⟩
  have hV' : ∀ e, (∃ x ∈ s.faces, x.2.marker = 1 ∧ e ∈ x.2.edges) ↔
      ∃ (f : Nat) (F : List Nat × List Nat), r.OnBorder tets f ∧ r.cell2Ds[f]? = some F ∧ e ∈ F.2 := by
    intro v
    constructor
    · rintro ⟨x, hx, h1, hv⟩
      obtain ⟨i, hi, rfl⟩ := List.getElem_of_mem hx
      exact ⟨i, _, (hB (List.getElem?_eq_getElem hi)).2 h1, hget (List.getElem?_eq_getElem hi), hv⟩
    · rintro ⟨f, F, hf, hF, hv⟩
      rw [hr] at hF
      simp only [List.getElem?_map, Option.map_eq_some_iff] at hF
      obtain ⟨x, hx, rfl⟩ := hF
      exact ⟨x, List.mem_of_getElem? hx, (hB hx).1 hf, hv⟩
  refine ⟨r, ?_, ?_⟩
  · unfold computeVtkMesh3D
    rw [hs, ok_bind, t1, ok_bind]
    have hf : foldRes (fun (r : List (List Nat × List Nat) × List Nat × List Nat × List Nat)
        (f : (Nat × Nat) × VtkFace) => do
          let cell2Ds ← vset r.1 f.2.index (f.2.vertices, f.2.edges)
          let m2 ← vset r.2.1 f.2.index f.2.marker
          let m ← vtkMarkBorder f.2 r.2.2
          ok (cell2Ds, m2, m))
        (List.replicate s.faces.length ([], []), List.replicate s.faces.length 0, List.replicate num 0,
          List.replicate s.edges.length 0) s.faces =
        ok (s.faces.map (fun f => (f.2.vertices, f.2.edges)), s.faces.map (fun f => f.2.marker), m) := hfold
    rw [hf]
    rfl
  · refine ⟨ho.edges.nodup, ?_, ?_, ?_, ?_, ?_, ?_, ?_, ?_, ?_⟩
    · intro a b
      show (a, b) ∈ s.edges.map Prod.fst ↔ _
      rw [ho.keys]
      constructor
      · rintro ⟨t, h, hp⟩
        obtain ⟨h1, h2⟩ := (tetPairs_iff (ht t h).1 (ht t h).2).1 hp
        exact ⟨h1, t, h, h2⟩
      · rintro ⟨h1, t, h, h2⟩
        exact ⟨t, h, (tetPairs_iff (ht t h).1 (ht t h).2).2 ⟨h1, h2⟩⟩
    · rw [hfs]
      exact ho.faces.nodup
    · rw [hfs]
      exact hset
    · intro F hF
      obtain ⟨x, hx, rfl⟩ := List.mem_map.1 (show F ∈ s.faces.map fun f => (f.2.vertices, f.2.edges) from hF)
      obtain ⟨i, hi, rfl⟩ := List.getElem_of_mem hx
      obtain ⟨a, b, c, e0, e1, e2, _, _, _, hv, hes, i0, i1, i2, _⟩ :=
        (ho.faces.face i _ (List.getElem?_eq_getElem hi)).shape
      exact ⟨a, b, c, e0, e1, e2, by rw [hv, hes], hE i0, hE i1, hE i2⟩
    · show List.Forall₂ _ tets s.cells
      have h := ho.cells
      have : List.Forall₂ (fun t c => t ∈ tets ∧ CellOk s.edges s.faces t c) tets s.cells := by
        have aux : ∀ (l : List (List Nat)) (m : List VtkCell), List.Forall₂ (CellOk s.edges s.faces) l m →
            (∀ t ∈ l, t ∈ tets) → List.Forall₂ (fun t c => t ∈ tets ∧ CellOk s.edges s.faces t c) l m := by
          intro l m h
          induction h with
          | nil => exact fun _ => .nil
          | cons hr _ ih =>
            intro hl
            exact .cons ⟨hl _ (by simp), hr⟩ (ih fun t h => hl t (List.mem_cons_of_mem _ h))
        exact aux _ _ h fun t h => h
      refine this.imp ?_
      rintro t c ⟨htm, hcell⟩
      obtain ⟨h4, hn⟩ := ht t htm
      have l6 := hcell.edges.length_eq
      have l4 := hcell.faces.length_eq
      have hlen : (tetPairs t).length = 6 ∧ (tetSets t).length = 4 := by
        obtain ⟨w, x, y, z, rfl⟩ := four_of h4
        exact ⟨rfl, rfl⟩
      refine ⟨hcell.vertices, l6.trans hlen.1, ?_, ?_, l4.trans hlen.2, ?_, ?_⟩
      · exact forall₂_nodup hcell.edges (tetPairs_nodup h4 hn).1 fun e p q hp hq h1 h2 =>
          (tetPairs_nodup h4 hn).2 p hp q hq (h1.ends h2)
      · intro a ha b hb hab
        rcases tetPairs_mem h4 ha hb hab with hp | hp
        · obtain ⟨e, he, hi⟩ := forall₂_left hcell.edges hp
          exact ⟨e, he, hE hi⟩
        · obtain ⟨e, he, hi⟩ := forall₂_left hcell.edges hp
          exact ⟨e, he, hE hi.symm⟩
      · refine forall₂_nodup hcell.faces (tetSets_nodup h4 hn) fun f S T _ _ h1 h2 => ?_
        have := (hHas h1).symm.trans (hHas h2)
        exact Option.some.inj this
      · intro S hS h3
        obtain ⟨f, hf, hi⟩ := forall₂_left hcell.faces (tetSets_complete h4 hn hS h3)
        exact ⟨f, hf, hHas hi⟩
    · refine ⟨l0, fun v hv => ?_⟩
      obtain ⟨k1, k2⟩ := g0 v hv
      rw [hV] at k1 k2
      by_cases h : ∃ (f : Nat) (F : List Nat × List Nat), r.OnBorder tets f ∧ r.cell2Ds[f]? = some F ∧ v ∈ F.1
      · exact Or.inl ⟨k1 h, h⟩
      · exact Or.inr ⟨(k2 h).trans (by simp [hv]), h⟩
    · have hl : r.cell1Ds.length = s.edges.length := by rw [hr]; simp
      refine ⟨l1.trans hl.symm, fun e he => ?_⟩
      rw [hl] at he
      obtain ⟨k1, k2⟩ := g1 e he
      rw [hV'] at k1 k2
      by_cases h : ∃ (f : Nat) (F : List Nat × List Nat), r.OnBorder tets f ∧ r.cell2Ds[f]? = some F ∧ e ∈ F.2
      · exact Or.inl ⟨k1 h, h⟩
      · exact Or.inr ⟨(k2 h).trans (by simp [he]), h⟩
    · have hl : r.cell2Ds.length = s.faces.length := by rw [hr]; simp
      refine ⟨by rw [hr]; simp, fun f hf => ?_⟩
      rw [hl] at hf
      have hx := List.getElem?_eq_getElem hf
      have hmf : r.markers2[f]? = some (s.faces[f]).2.marker := by
        rw [hr]
        simp only [List.getElem?_map, hx, Option.map_some]
      rcases hmk _ (List.getElem_mem hf) with h | h
      · refine Or.inr ⟨by rw [hmf, h], fun hb => ?_⟩
        rw [hB hx] at hb
        omega
      · exact Or.inl ⟨by rw [hmf, h], (hB hx).2 h⟩
    · show List.replicate cells.length 0 = _
      rw [htets, List.length_map]

/-- Two tetrahedra with a common face meet the hypotheses: there are nine edges and seven faces, and the common face is
the one face without a mark. -/
example : (∀ c ∈ [([0, 1, 2, 3], true), ([3, 4, 2, 1], true)], c.2 = true ∧ c.1.length = 4 ∧ c.1.Nodup ∧ ∀ v ∈ c.1, v < 5) ∧
    computeVtkMesh3D 5 [([0, 1, 2, 3], true), ([3, 4, 2, 1], true)] = ok
      ⟨[(0, 1), (1, 2), (0, 2), (0, 3), (1, 3), (2, 3), (3, 4), (2, 4), (1, 4)],
       [([0, 1, 2], [0, 1, 2]), ([0, 1, 3], [0, 4, 3]), ([1, 2, 3], [1, 5, 4]), ([2, 3, 0], [5, 3, 2]),
        ([3, 4, 2], [6, 7, 5]), ([3, 4, 1], [6, 8, 4]), ([4, 2, 1], [7, 1, 8])],
       [⟨[0, 1, 2, 3], [0, 1, 2, 3, 4, 5], [0, 1, 2, 3]⟩, ⟨[3, 4, 2, 1], [6, 7, 5, 4, 8, 1], [4, 5, 6, 2]⟩],
       [1, 1, 1, 1, 1], [1, 1, 1, 1, 1, 1, 1, 1, 1], [1, 1, 0, 1, 1, 1, 1], [0, 0]⟩ := by
  decide +kernel

theorem foldRes_stop {σ β : Type} (f : σ → β → Res σ) (s : σ) (xs ys : List β) {s' : σ} {y : β}
    (h : foldRes f s xs = ok s') : foldRes f s (xs ++ y :: ys) = (f s' y >>= fun t => foldRes f t ys) := by
  induction xs generalizing s with
  | nil =>
    cases h
    rfl
  | cons x xs ih =>
    rw [foldRes_cons, bind_eq_ok] at h
    obtain ⟨s1, h1, h2⟩ := h
    rw [List.cons_append, foldRes_cons, h1, ok_bind]
    exact ih s1 h2

/-- **C106.** A cell that is no tetrahedron is refused, whatever follows. -/
theorem c106_other_types (num : Nat) (cells rest : List (List Nat × Bool)) (t : List Nat)
    (hc : ∀ c ∈ cells, c.2 = true ∧ c.1.length = 4 ∧ c.1.Nodup) :
    computeVtkMesh3D num (cells ++ (t, false) :: rest) = throw := by
  obtain ⟨s, hs, -⟩ := vtkCells_spec cells hc _ _ VOk.init
  unfold computeVtkMesh3D
  rw [foldRes_stop _ _ _ _ hs]
  rfl

/-- **C106.** A tetrahedron whose number of vertices is not four is refused, whatever follows. -/
theorem c106_wrong_number (num : Nat) (cells rest : List (List Nat × Bool)) (t : List Nat)
    (hc : ∀ c ∈ cells, c.2 = true ∧ c.1.length = 4 ∧ c.1.Nodup) (ht : t.length ≠ 4) :
    computeVtkMesh3D num (cells ++ (t, true) :: rest) = abort := by
  obtain ⟨s, hs, -⟩ := vtkCells_spec cells hc _ _ VOk.init
  unfold computeVtkMesh3D
  rw [foldRes_stop _ _ _ _ hs]
  unfold vtkCell
  rw [if_neg (by simp), assert_false ht]
  rfl

example : computeVtkMesh3D 5 [([0, 1, 2, 3], true), ([1, 2, 3, 4], false)] = throw ∧
    computeVtkMesh3D 5 [([0, 1, 2, 3], true), ([1, 2, 3], true)] = abort := by
  decide +kernel

end Verif
