import Verif.NeighModel
import Verif.NeighSpec
import Verif.MeshGetLemmas

/-
Helper lemmas on the computation of neighbour lists.
-/
namespace Verif

open Res

theorem foldRes_range_succ {σ : Type} (f : σ → Nat → Res σ) (s : σ) (n : Nat) :
    foldRes f s (List.range (n + 1)) = (foldRes f s (List.range n) >>= fun s => f s n) := by
  rw [List.range_succ, foldRes_append]
  cases foldRes f s (List.range n) <;> simp
  rename_i a
  cases f a n <;> rfl

theorem cellIncidences_succ (n : Nat) (act : Nat → Bool) (bdry : Nat → List Nat) (x : Nat) :
    cellIncidences (n + 1) act bdry x =
      cellIncidences n act bdry x ++ if act n then List.replicate ((bdry n).count x) n else [] := by
  simp [cellIncidences, List.range_succ, List.flatMap_append]

namespace Mesh

theorem pushBack_eq (N : Nat) (f : Nat → List Nat) (cell c : Nat) (h : cell < N) :
    pushBack ((List.range N).map f) cell c =
      ok ((List.range N).map fun x => if x = cell then f x ++ [c] else f x) := by
  unfold pushBack
  rw [vget_of_lt (by simpa using h)]
  simp only [ok_bind]
  rw [vset_of_lt _ (by simpa using h)]
  congr 1
  apply List.ext_getElem
  · simp
  · intro i h1 h2
    simp only [List.getElem_set, List.getElem_map, List.getElem_range]
    by_cases hi : i = cell
    · subst hi; simp
    · simp [hi, Ne.symm hi]

theorem foldRes_pushBack (N : Nat) (c : Nat) (r : List Nat) (hr : ∀ x ∈ r, x < N)
    (f : Nat → List Nat) :
    foldRes (fun nbs cell => pushBack nbs cell c) ((List.range N).map f) r =
      ok ((List.range N).map fun x => f x ++ List.replicate (r.count x) c) := by
  induction r generalizing f with
  | nil => simp
  | cons a r ih =>
    rw [foldRes_cons, pushBack_eq _ _ _ _ (hr a (by simp)), ok_bind,
      ih (fun x hx => hr x (by simp [hx]))]
    congr 1
    apply List.map_congr_left
    intro x _
    by_cases hx : x = a
    · subst hx
      simp [List.replicate_succ]
    · have : a ≠ x := Ne.symm hx
      simp [hx, List.count_cons, this]

variable {α : Type}

theorem collectNeighbours_eq (m : Mesh α) (l : Lst) (get : Nat → Res (List Nat))
    {act : Nat → Bool} {bdry : Nat → List Nat} (ha : Activity m l.target act)
    (hb : Boundary (m.num l.target) (m.num l.owner) act get bdry) :
    m.collectNeighbours l get =
      ok ((List.range (m.num l.owner)).map (cellIncidences (m.num l.target) act bdry)) := by
  unfold collectNeighbours
  have gen : ∀ n, n ≤ m.num l.target → foldRes (fun nbs c => do
      let a ← m.active l.target c
      if a then do
        let r ← get c
        foldRes (fun nbs cell => pushBack nbs cell c) nbs r
      else ok nbs) (List.replicate (m.num l.owner) []) (List.range n) =
      ok ((List.range (m.num l.owner)).map (cellIncidences n act bdry)) := by
    intro n
    induction n with
    | zero =>
      intro _
      apply congrArg ok
      apply List.ext_getElem
      · simp
      · intro i _ _; simp [cellIncidences]
    | succ n ih =>
      intro hn
      rw [foldRes_range_succ, ih (by omega), ok_bind,
        ha n (by omega), ok_bind]
      cases hact : act n with
      | false =>
        simp only [Bool.false_eq_true, if_false, ok_bind]
        congr 1
        apply List.map_congr_left
        intro x _
        simp [cellIncidences_succ, hact]
      | true =>
        obtain ⟨h1, h2⟩ := hb n (by omega) hact
        simp only [if_true, h1, ok_bind, foldRes_pushBack _ _ _ h2]
        congr 1
        apply List.map_congr_left
        intro x _
        simp [cellIncidences_succ, hact]
  exact gen _ (Nat.le_refl _)

end Mesh

namespace AMesh

variable {α : Type} {A : AMesh α}

theorem setRows_setRows (A : AMesh α) (l : Lst) (r r' : List (List Nat)) :
    (A.setRows l r).setRows l r' = A.setRows l r' := by
  simp only [setRows, AMesh.mk.injEq, true_and]
  funext l'
  unfold fset
  split <;> rfl

theorem fillRows_conc (h : A.Ok) (l : Lst) (R nbs : List (List Nat))
    (hl : nbs.length = A.num l.owner) (hlen : R.map List.length = nbs.map List.length)
    (hv : ∀ r ∈ nbs, ∀ v ∈ r, v < A.num l.target) :
    foldRes (fun (m : Mesh α) i => do
      let r ← vget nbs i
      m.insertFrom l i 0 r) (A.setRows l R).conc (List.range nbs.length) =
      ok (A.setRows l nbs).conc := by
  have hR : R.length = nbs.length := by simpa using congrArg List.length hlen
  have gen : ∀ n, n ≤ nbs.length → foldRes (fun (m : Mesh α) i => do
      let r ← vget nbs i
      m.insertFrom l i 0 r) (A.setRows l R).conc (List.range n) =
      ok (A.setRows l (nbs.take n ++ R.drop n)).conc := by
    intro n
    induction n with
    | zero => intro _; simp
    | succ n ih =>
      intro hn
      have hnR : n < R.length := by omega
      rw [foldRes_range_succ, ih (by omega), ok_bind,
        vget_of_lt (by omega)]
      simp only [ok_bind]
      have hlr : (nbs.take n ++ R.drop n).length = A.num l.owner := by
        simp; omega
      have hr : ((A.setRows l (nbs.take n ++ R.drop n)).rows l)[n]? = some R[n] := by
        rw [setRows_rows_self, List.getElem?_append_right (by simp)]
        simp [Nat.min_eq_left (show n ≤ nbs.length by omega), hnR]
      have hrl : R[n].length = nbs[n].length := by
        have := congrArg (fun L => L[n]?) hlen
        simpa [hnR, show n < nbs.length by omega] using this
      rw [insertFrom_conc (ok_setRows h hlr) hr (by simp [hrl])
        (fun v hv' => hv nbs[n] (List.getElem_mem _) v hv')]
      unfold setRow
      rw [setRows_rows_self, setRows_setRows]
      congr 3
      apply List.ext_getElem
      · simp; omega
      · intro i h1 h2
        simp only [List.length_set, List.length_append, List.length_take, List.length_drop] at h1
        rw [List.getElem_set]
        by_cases hi : n = i
        · subst hi
          rw [if_pos rfl, List.getElem_append_left (by simp; omega)]
          simp
        · rw [if_neg hi]
          by_cases hin : i < n
          · rw [List.getElem_append_left (by simp; omega),
              List.getElem_append_left (by simp; omega)]
            simp
          · rw [List.getElem_append_right (by simp; omega),
              List.getElem_append_right (by simp; omega)]
            simp only [List.length_take, List.getElem_drop]
            congr 1; omega
  have := gen nbs.length (Nat.le_refl _)
  rwa [List.take_length, List.drop_eq_nil_of_le (by omega), List.append_nil] at this

theorem initRows_conc (h : A.Ok) (l : Lst) (sizes : List Nat) (hs : sizes.length = A.num l.owner) :
    ∃ R, R.map List.length = sizes ∧ A.conc.initRows l sizes = ok (A.setRows l R).conc := by
  refine ⟨Csr.cut sizes (vresize (A.conc.lists l).el sizes.sum l.fillAll),
    Csr.map_length_cut _ _ (by simp), ?_⟩
  unfold Mesh.initRows
  rw [assert_true (show sizes.length = A.conc.num l.owner from hs)]
  simp only [ok_bind]
  rw [Csr.initSizes_spec _ ((wf_conc h).lists l).first, setRows_conc]

theorem computeNeighbours_conc (h : A.Ok) (l : Lst) (get : Nat → Res (List Nat))
    {act : Nat → Bool} {bdry : Nat → List Nat} (ha : Activity A.conc l.target act)
    (hb : Boundary (A.num l.target) (A.num l.owner) act get bdry) :
    A.conc.computeNeighbours l get = ok (A.setRows l
      ((List.range (A.num l.owner)).map (cellIncidences (A.num l.target) act bdry))).conc := by
  unfold Mesh.computeNeighbours
  rw [Mesh.collectNeighbours_eq A.conc l get ha hb]
  simp only [ok_bind]
  change (do
    let m ← A.conc.initRows l (((List.range (A.num l.owner)).map
      (cellIncidences (A.num l.target) act bdry)).map List.length)
    _) = _
  obtain ⟨R, hR1, hR2⟩ := initRows_conc h l (((List.range (A.num l.owner)).map
    (cellIncidences (A.num l.target) act bdry)).map List.length) (by simp)
  rw [hR2, ok_bind]
  refine fillRows_conc h l R _ (by simp) hR1 ?_
  intro r hr v hv
  simp only [List.mem_map, List.mem_range] at hr
  obtain ⟨x, _, rfl⟩ := hr
  unfold cellIncidences at hv
  rw [List.mem_flatMap] at hv
  obtain ⟨c, hc, hv⟩ := hv
  split at hv
  · rw [List.eq_of_mem_replicate hv]; simpa using hc
  · cases hv

theorem boundaryRow_eq (h : A.Ok) (b : Lst) (c : Nat) :
    A.conc.boundaryRow b c = A.conc.row b c := by
  by_cases hc : c < A.num b.owner
  · obtain ⟨r, hr⟩ := getElem?_row h hc
    unfold Mesh.boundaryRow
    rw [rowSize_conc h hr, ok_bind, row_conc h hr]
    rw [mapRes_eq_map (g := fun k => r.getD k 0)]
    · congr 1
      apply List.ext_getElem
      · simp
      · intro i h1 h2
        simp [h2]
    · intro k hk
      rw [entry_conc h hr]
      simp only [List.mem_range] at hk
      simp [agetD, hk]
  · unfold Mesh.boundaryRow Mesh.rowSize Mesh.row
    rw [assert_false (show ¬c < A.conc.num b.owner from hc)]
    rfl

end AMesh
end Verif
