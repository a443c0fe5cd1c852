import Verif.QuadModel
import Verif.QuadIntegrals
import Mathlib.Tactic.NormNum

/-
Helper lemmas: evaluation of the moments of a table with natural numbers.
-/
namespace Verif

open Res

/-- Column of a table with non-negative entries. -/
abbrev QCol := ℕ × ℕ × ℕ × ℕ

/-! The loops are written with recursors, which the kernel evaluates fast. -/

noncomputable def kmap (f : QCol → QCol) (l : List QCol) : List QCol :=
  List.rec [] (fun a _ ih => f a :: ih) l

noncomputable def ksum (l : List QCol) : ℕ := List.rec 0 (fun a _ ih => a.1 + ih) l

noncomputable def kfact (n : ℕ) : ℕ := Nat.rec 1 (fun k ih => (k + 1) * ih) n

theorem kmap_eq (f : QCol → QCol) (l : List QCol) : kmap f l = l.map f := by
  induction l with
  | nil => rfl
  | cons a l ih => rw [List.map_cons, ← ih]; rfl

theorem ksum_eq (l : List QCol) : ksum l = (l.map Prod.fst).sum := by
  induction l with
  | nil => rfl
  | cons a l ih => rw [List.map_cons, List.sum_cons, ← ih]; rfl

theorem kfact_eq (n : ℕ) : kfact n = n.factorial := by
  induction n with
  | zero => rfl
  | succ n ih => rw [Nat.factorial_succ, ← ih]; rfl

def mulX (p : QCol) : QCol := (p.1 * p.2.1, p.2)
def mulY (p : QCol) : QCol := (p.1 * p.2.2.1, p.2)
def mulZ (p : QCol) : QCol := (p.1 * p.2.2.2, p.2)

noncomputable def momLoop (sel : QCol → QCol) (body : ℕ → ℕ → List QCol → List QCol → Bool) (n : ℕ) :
    ℕ → List QCol → List QCol → Bool :=
  Nat.rec (fun _ _ _ => true)
    (fun k ih a lp ln => body k a lp ln && ih (a + 1) (kmap sel lp) (kmap sel ln)) n

theorem momLoop_sound (sel : QCol → QCol) (body : ℕ → ℕ → List QCol → List QCol → Bool)
    (P N : ℕ → List QCol) (hP : ∀ a, (P a).map sel = P (a + 1)) (hN : ∀ a, (N a).map sel = N (a + 1))
    (n a : ℕ) (h : momLoop sel body n a (P a) (N a) = true) :
    ∀ i, i < n → body (n - 1 - i) (a + i) (P (a + i)) (N (a + i)) = true := by
  induction n generalizing a with
  | zero => intro i hi; omega
  | succ n ih =>
    intro i hi
    have h' : (body n a (P a) (N a) && momLoop sel body n (a + 1) (kmap sel (P a)) (kmap sel (N a))) =
      true := h
    rw [Bool.and_eq_true, kmap_eq, kmap_eq, hP, hN] at h'
    cases i with
    | zero => simpa using h'.1
    | succ i =>
      have := ih (a + 1) h'.2 i (by omega)
      rw [show n + 1 - 1 - (i + 1) = n - 1 - i by omega, show a + (i + 1) = a + 1 + i by omega]
      exact this

/-- The columns with the weights multiplied by powers of the coordinates. -/
def scaleBy (l : List QCol) (a b c : ℕ) : List QCol :=
  l.map fun p => (p.1 * p.2.1 ^ a * p.2.2.1 ^ b * p.2.2.2 ^ c, p.2)

theorem scaleBy_zero (l : List QCol) : scaleBy l 0 0 0 = l := by
  simp [scaleBy]

theorem scaleBy_X (l : List QCol) (a : ℕ) :
    (scaleBy l a 0 0).map mulX = scaleBy l (a + 1) 0 0 := by
  simp only [scaleBy, List.map_map]
  apply List.map_congr_left
  intro p _
  simp only [Function.comp, mulX, Prod.mk.injEq, and_true]
  ring

theorem scaleBy_Y (l : List QCol) (a b : ℕ) :
    (scaleBy l a b 0).map mulY = scaleBy l a (b + 1) 0 := by
  simp only [scaleBy, List.map_map]
  apply List.map_congr_left
  intro p _
  simp only [Function.comp, mulY, Prod.mk.injEq, and_true]
  ring

theorem scaleBy_Z (l : List QCol) (a b c : ℕ) :
    (scaleBy l a b c).map mulZ = scaleBy l a b (c + 1) := by
  simp only [scaleBy, List.map_map]
  apply List.map_congr_left
  intro p _
  simp only [Function.comp, mulZ, Prod.mk.injEq, and_true]
  ring

/-- Compare one moment with `num / den`, relative tolerance `1 / T`. -/
noncomputable def leaf (T num den d : ℕ) (lp ln : List QCol) : Bool :=
  Nat.ble (((den * ksum lp - (den * ksum ln + num * 10 ^ (23 * (d + 1)))) +
    ((den * ksum ln + num * 10 ^ (23 * (d + 1))) - den * ksum lp)) * T) (num * 10 ^ (23 * (d + 1)))

noncomputable def checkSeg (T o : ℕ) (lp ln : List QCol) : Bool :=
  momLoop mulX (fun _ a lp ln => leaf T 1 (a + 1) a lp ln) (o + 1) 0 lp ln

noncomputable def checkTri (T o : ℕ) (lp ln : List QCol) : Bool :=
  momLoop mulX (fun k a lp ln => momLoop mulY (fun _ b lp ln =>
    leaf T (kfact a * kfact b) (kfact (a + b + 2)) (a + b) lp ln) (k + 1) 0 lp ln) (o + 1) 0 lp ln

noncomputable def checkTet (T o : ℕ) (lp ln : List QCol) : Bool :=
  momLoop mulX (fun k a lp ln => momLoop mulY (fun k b lp ln => momLoop mulZ (fun _ c lp ln =>
    leaf T (kfact a * kfact b * kfact c) (kfact (a + b + c + 3)) (a + b + c) lp ln)
      (k + 1) 0 lp ln) (k + 1) 0 lp ln) (o + 1) 0 lp ln

theorem checkSeg_sound {T o : ℕ} {lp ln : List QCol} (h : checkSeg T o lp ln = true) (a : ℕ)
    (ha : a ≤ o) : leaf T 1 (a + 1) a (scaleBy lp a 0 0) (scaleBy ln a 0 0) = true := by
  unfold checkSeg at h
  rw [← scaleBy_zero lp, ← scaleBy_zero ln] at h
  have := momLoop_sound _ _ (fun a => scaleBy lp a 0 0) (fun a => scaleBy ln a 0 0)
    (scaleBy_X lp) (scaleBy_X ln) _ _ h a (by omega)
  simpa using this

theorem checkTri_sound {T o : ℕ} {lp ln : List QCol} (h : checkTri T o lp ln = true) (a b : ℕ)
    (ha : a + b ≤ o) : leaf T (a.factorial * b.factorial) (a + b + 2).factorial (a + b)
      (scaleBy lp a b 0) (scaleBy ln a b 0) = true := by
  unfold checkTri at h
  rw [← scaleBy_zero lp, ← scaleBy_zero ln] at h
  have h1 := momLoop_sound _ _ (fun a => scaleBy lp a 0 0) (fun a => scaleBy ln a 0 0)
    (scaleBy_X lp) (scaleBy_X ln) _ _ h a (by omega)
  rw [Nat.zero_add] at h1
  have h2 := momLoop_sound _ _ (fun b => scaleBy lp a b 0) (fun b => scaleBy ln a b 0)
    (scaleBy_Y lp a) (scaleBy_Y ln a) _ _ h1 b (by omega)
  simpa [kfact_eq] using h2

theorem checkTet_sound {T o : ℕ} {lp ln : List QCol} (h : checkTet T o lp ln = true) (a b c : ℕ)
    (ha : a + b + c ≤ o) : leaf T (a.factorial * b.factorial * c.factorial) (a + b + c + 3).factorial
      (a + b + c) (scaleBy lp a b c) (scaleBy ln a b c) = true := by
  unfold checkTet at h
  rw [← scaleBy_zero lp, ← scaleBy_zero ln] at h
  have h1 := momLoop_sound _ _ (fun a => scaleBy lp a 0 0) (fun a => scaleBy ln a 0 0)
    (scaleBy_X lp) (scaleBy_X ln) _ _ h a (by omega)
  rw [Nat.zero_add] at h1
  have h2 := momLoop_sound _ _ (fun b => scaleBy lp a b 0) (fun b => scaleBy ln a b 0)
    (scaleBy_Y lp a) (scaleBy_Y ln a) _ _ h1 b (by omega)
  rw [Nat.zero_add] at h2
  have h3 := momLoop_sound _ _ (fun c => scaleBy lp a b c) (fun c => scaleBy ln a b c)
    (scaleBy_Z lp a b) (scaleBy_Z ln a b) _ _ h2 c (by omega)
  simpa [kfact_eq] using h3

/-! Tables with signed weights. -/

/-- A table with signed weights. -/
abbrev QTab := List (ℤ × ℕ × ℕ × ℕ)

def QTab.pos (t : QTab) : List QCol :=
  t.filterMap fun c => match c.1 with | .ofNat n => some (n, c.2) | .negSucc _ => none

def QTab.neg (t : QTab) : List QCol :=
  t.filterMap fun c => match c.1 with | .ofNat _ => none | .negSucc n => some (n + 1, c.2)

/-- The rule of a table. -/
def QTab.rule (t : QTab) : QRule := t.map fun c => (dec c.1, dec c.2.1, dec c.2.2.1, dec c.2.2.2)

def tab1 (t : List (ℕ × ℕ)) : QTab := t.map fun c => (c.1, c.2, 0, 0)
def tab2 (t : List (ℕ × ℕ × ℕ)) : QTab := t.map fun c => (c.1, c.2.1, c.2.2, 0)

theorem mapRes_ok {α β : Type} (f : α → Res β) (g : α → β) (l : List α) (h : ∀ a ∈ l, f a = ok (g a)) :
    mapRes f l = ok (l.map g) := by
  induction l with
  | nil => rfl
  | cons a l ih =>
    simp only [mapRes, h a (by simp), ok_bind, ih fun b hb => h b (by simp [hb]), List.map_cons]

theorem read_zeroed1 (t : List (ℕ × ℕ)) : (zeroed1 t).read = ok (tab1 t).rule := by
  unfold QData.read zeroed1 tab1 QTab.rule
  induction t with
  | nil => rfl
  | cons c t ih =>
    simp only [List.map_cons, mapRes, QData.column, ok_bind]
    rw [ih]
    simp [dec]

theorem read_zeroed2 (t : List (ℕ × ℕ × ℕ)) : (zeroed2 t).read = ok (tab2 t).rule := by
  unfold QData.read zeroed2 tab2 QTab.rule
  induction t with
  | nil => rfl
  | cons c t ih =>
    simp only [List.map_cons, mapRes, QData.column, ok_bind]
    rw [ih]
    simp [dec]

theorem read_full3 (t : List (ℤ × ℕ × ℕ × ℕ)) : (full3 t).read = ok (QTab.rule t) := by
  unfold QData.read full3 QTab.rule
  induction t with
  | nil => rfl
  | cons c t ih =>
    simp only [List.map_cons, mapRes, QData.column, ok_bind]
    rw [ih]
    rfl

theorem moment_eq (t : QTab) (a b c : ℕ) :
    t.rule.apply (fun x y z => x ^ a * y ^ b * z ^ c) * 10 ^ (23 * (a + b + c + 1)) =
      ((((scaleBy t.pos a b c).map Prod.fst).sum : ℕ) : ℝ) -
        ((((scaleBy t.neg a b c).map Prod.fst).sum : ℕ) : ℝ) := by
  induction t with
  | nil => simp [QTab.rule, QRule.apply, QTab.pos, QTab.neg, scaleBy]
  | cons p t ih =>
    obtain ⟨w, x, y, z⟩ := p
    have e : (QTab.rule ((w, x, y, z) :: t)).apply (fun x y z => x ^ a * y ^ b * z ^ c) =
        ((dec w : ℚ) : ℝ) * ((((dec x : ℚ) : ℝ)) ^ a * ((dec y : ℚ) : ℝ) ^ b * ((dec z : ℚ) : ℝ) ^ c) +
          (QTab.rule t).apply (fun x y z => x ^ a * y ^ b * z ^ c) := rfl
    have k : ((dec w : ℚ) : ℝ) * ((((dec x : ℚ) : ℝ)) ^ a * ((dec y : ℚ) : ℝ) ^ b *
        ((dec z : ℚ) : ℝ) ^ c) * 10 ^ (23 * (a + b + c + 1)) = (w : ℝ) * x ^ a * y ^ b * z ^ c := by
      have h10 : ((10 : ℝ) ^ 23) ≠ 0 := by positivity
      simp only [dec, Rat.cast_div, Rat.cast_pow, Rat.cast_ofNat, Rat.cast_intCast, Int.cast_natCast,
        div_pow]
      rw [pow_mul, pow_add, pow_add, pow_add, pow_one]
      field_simp
      push_cast
      rfl
    rw [e, add_mul, ih, k]
    cases w with
    | ofNat n =>
      have e1 : QTab.pos ((Int.ofNat n, x, y, z) :: t) = (n, x, y, z) :: QTab.pos t := rfl
      have e2 : QTab.neg ((Int.ofNat n, x, y, z) :: t) = QTab.neg t := rfl
      rw [e1, e2]
      simp only [scaleBy, List.map_cons, List.sum_cons]
      push_cast
      simp only [Int.ofNat_eq_natCast, Int.cast_natCast]
      ring
    | negSucc n =>
      have e1 : QTab.pos ((Int.negSucc n, x, y, z) :: t) = QTab.pos t := rfl
      have e2 : QTab.neg ((Int.negSucc n, x, y, z) :: t) = (n + 1, x, y, z) :: QTab.neg t := rfl
      rw [e1, e2]
      simp only [scaleBy, List.map_cons, List.sum_cons, Int.cast_negSucc]
      push_cast
      ring

theorem leaf_sound (t : QTab) (T num den a b c : ℕ) (hT : 0 < T) (hd : 0 < den)
    (h : leaf T num den (a + b + c) (scaleBy t.pos a b c) (scaleBy t.neg a b c) = true) :
    |t.rule.apply (fun x y z => x ^ a * y ^ b * z ^ c) - (num : ℝ) / den| ≤
      1 / T * ((num : ℝ) / den) := by
  unfold leaf at h
  rw [Nat.ble_eq, ksum_eq, ksum_eq] at h
  have hm := moment_eq t a b c
  generalize t.rule.apply (fun x y z => x ^ a * y ^ b * z ^ c) = M at *
  generalize ((scaleBy t.pos a b c).map Prod.fst).sum = P at *
  generalize ((scaleBy t.neg a b c).map Prod.fst).sum = N at *
  have hq : (0 : ℝ) < 10 ^ (23 * (a + b + c + 1)) := by positivity
  have hqn : (((10 ^ (23 * (a + b + c + 1)) : ℕ)) : ℝ) = 10 ^ (23 * (a + b + c + 1)) := by push_cast; rfl
  generalize 10 ^ (23 * (a + b + c + 1)) = q at h hqn
  generalize (10 : ℝ) ^ (23 * (a + b + c + 1)) = Q at *
  subst hqn
  have hd' : (0 : ℝ) < den := by exact_mod_cast hd
  have hT' : (0 : ℝ) < T := by exact_mod_cast hT
  have key : |(den : ℝ) * P - (den * N + num * q)| * T ≤ num * q := by
    have h1 : (((den * P - (den * N + num * q) + (den * N + num * q - den * P)) * T : ℕ) : ℝ) ≤
        ((num * q : ℕ) : ℝ) := by exact_mod_cast h
    have h2 : |(den : ℝ) * P - (den * N + num * q)| =
        ((den * P - (den * N + num * q) + (den * N + num * q - den * P) : ℕ) : ℝ) := by
      rcases le_total (den * P) (den * N + num * q) with hle | hle
      · rw [Nat.sub_eq_zero_of_le hle, Nat.zero_add, Nat.cast_sub hle, abs_of_nonpos]
        · push_cast; ring
        · have : ((den * P : ℕ) : ℝ) ≤ ((den * N + num * q : ℕ) : ℝ) := by exact_mod_cast hle
          push_cast at this; linarith
      · rw [Nat.sub_eq_zero_of_le hle, Nat.add_zero, Nat.cast_sub hle, abs_of_nonneg]
        · push_cast; ring
        · have : ((den * N + num * q : ℕ) : ℝ) ≤ ((den * P : ℕ) : ℝ) := by exact_mod_cast hle
          push_cast at this; linarith
    rw [h2]
    push_cast at h1 ⊢
    exact h1
  have e : M - (num : ℝ) / den = ((den : ℝ) * P - (den * N + num * q)) / (den * q) := by
    have : (P : ℝ) = M * q + N := by linarith
    rw [this]
    field_simp
    ring
  rw [e, abs_div, abs_of_pos (mul_pos hd' hq), div_le_iff₀ (mul_pos hd' hq)]
  have e2 : 1 / (T : ℝ) * (num / den) * (den * q) = num * q / T := by field_simp
  rw [e2, le_div_iff₀ hT']
  exact key

theorem leaf_complete (t : QTab) (T num den a b c : ℕ) (hT : 0 < T) (hd : 0 < den)
    (h : leaf T num den (a + b + c) (scaleBy t.pos a b c) (scaleBy t.neg a b c) = false) :
    1 / T * ((num : ℝ) / den) < |t.rule.apply (fun x y z => x ^ a * y ^ b * z ^ c) - (num : ℝ) / den| := by
  unfold leaf at h
  rw [← Bool.not_eq_true, Nat.ble_eq, ksum_eq, ksum_eq, not_le] at h
  have hm := moment_eq t a b c
  generalize t.rule.apply (fun x y z => x ^ a * y ^ b * z ^ c) = M at *
  generalize ((scaleBy t.pos a b c).map Prod.fst).sum = P at *
  generalize ((scaleBy t.neg a b c).map Prod.fst).sum = N at *
  have hq : (0 : ℝ) < 10 ^ (23 * (a + b + c + 1)) := by positivity
  have hqn : (((10 ^ (23 * (a + b + c + 1)) : ℕ)) : ℝ) = 10 ^ (23 * (a + b + c + 1)) := by push_cast; rfl
  generalize 10 ^ (23 * (a + b + c + 1)) = q at h hqn
  generalize (10 : ℝ) ^ (23 * (a + b + c + 1)) = Q at *
  subst hqn
  have hd' : (0 : ℝ) < den := by exact_mod_cast hd
  have hT' : (0 : ℝ) < T := by exact_mod_cast hT
  have key : (num : ℝ) * q < |(den : ℝ) * P - (den * N + num * q)| * T := by
    have h1 : ((num * q : ℕ) : ℝ) <
        (((den * P - (den * N + num * q) + (den * N + num * q - den * P)) * T : ℕ) : ℝ) := by
      exact_mod_cast h
    have h2 : |(den : ℝ) * P - (den * N + num * q)| =
        ((den * P - (den * N + num * q) + (den * N + num * q - den * P) : ℕ) : ℝ) := by
      rcases le_total (den * P) (den * N + num * q) with hle | hle
      · rw [Nat.sub_eq_zero_of_le hle, Nat.zero_add, Nat.cast_sub hle, abs_of_nonpos]
        · push_cast; ring
        · have : ((den * P : ℕ) : ℝ) ≤ ((den * N + num * q : ℕ) : ℝ) := by exact_mod_cast hle
          push_cast at this; linarith
      · rw [Nat.sub_eq_zero_of_le hle, Nat.add_zero, Nat.cast_sub hle, abs_of_nonneg]
        · push_cast; ring
        · have : ((den * N + num * q : ℕ) : ℝ) ≤ ((den * P : ℕ) : ℝ) := by exact_mod_cast hle
          push_cast at this; linarith
    rw [h2]
    push_cast at h1 ⊢
    exact h1
  have e : M - (num : ℝ) / den = ((den : ℝ) * P - (den * N + num * q)) / (den * q) := by
    have : (P : ℝ) = M * q + N := by linarith
    rw [this]
    field_simp
    ring
  rw [e, abs_div, abs_of_pos (mul_pos hd' hq), lt_div_iff₀ (mul_pos hd' hq)]
  have e2 : 1 / (T : ℝ) * (num / den) * (den * q) = num * q / T := by field_simp
  rw [e2, div_lt_iff₀ hT']
  exact key

theorem segment_of_check {t : QTab} {T o : ℕ} (hT : 0 < T)
    (h : checkSeg T o t.pos t.neg = true) (a : ℕ) (ha : a ≤ o) :
    |t.rule.apply (fun x _ _ => x ^ a) - ∫ x in (0 : ℝ)..1, x ^ a| ≤
      1 / T * ∫ x in (0 : ℝ)..1, x ^ a := by
  have h1 := checkSeg_sound h a ha
  have h2 := leaf_sound t T 1 (a + 1) a 0 0 hT (by omega) h1
  rw [segment_monomial]
  simpa using h2

theorem triangle_of_check {t : QTab} {T o : ℕ} (hT : 0 < T)
    (h : checkTri T o t.pos t.neg = true) (a b : ℕ) (ha : a + b ≤ o) :
    |t.rule.apply (fun x y _ => x ^ a * y ^ b) - triangleInt fun x y => x ^ a * y ^ b| ≤
      1 / T * triangleInt fun x y => x ^ a * y ^ b := by
  have h1 := checkTri_sound h a b ha
  have h2 := leaf_sound t T _ _ a b 0 hT (Nat.factorial_pos _) h1
  rw [triangle_monomial]
  simpa using h2

theorem tetra_of_check {t : QTab} {T o : ℕ} (hT : 0 < T)
    (h : checkTet T o t.pos t.neg = true) (a b c : ℕ) (ha : a + b + c ≤ o) :
    |t.rule.apply (fun x y z => x ^ a * y ^ b * z ^ c) - tetraInt fun x y z => x ^ a * y ^ b * z ^ c| ≤
      1 / T * tetraInt fun x y z => x ^ a * y ^ b * z ^ c := by
  have h1 := checkTet_sound h a b c ha
  have h2 := leaf_sound t T _ _ a b c hT (Nat.factorial_pos _) h1
  rw [tetra_monomial]
  simpa using h2

/-! Products of a rule on the segment. -/

def tensor2 (g : List (ℕ × ℕ)) : List QCol :=
  g.flatMap fun c => g.map fun d => (d.1 * c.1, d.2, c.2, 0)

def tensor3 (g : List (ℕ × ℕ)) : List QCol :=
  g.flatMap fun c => g.flatMap fun d => g.map fun e => (d.1 * c.1 * e.1, d.2, c.2, e.2)

/-- The points are equal, the weights up to a relative difference `1 / T` and the factor `s`. -/
def closeTab (T s : ℕ) : QTab → List QCol → Bool
  | [], [] => true
  | p :: t, c :: l => decide (p.2 = c.2) && Nat.ble ((p.1 * s - c.1).natAbs * T) c.1 && closeTab T s t l
  | _, _ => false

theorem closeTab_apply {T s : ℕ} (hT : 0 < T) (hs : 0 < s) (f : ℝ → ℝ → ℝ → ℝ)
    (hf : ∀ x y z, 0 ≤ x → 0 ≤ y → 0 ≤ z → 0 ≤ f x y z) (t : QTab) (l : List QCol)
    (h : closeTab T s t l = true) :
    |t.rule.apply f - (l.map fun c => (c.1 : ℝ) / (10 ^ 23 * s) *
      f (c.2.1 / 10 ^ 23) (c.2.2.1 / 10 ^ 23) (c.2.2.2 / 10 ^ 23)).sum| ≤
      1 / T * (l.map fun c => (c.1 : ℝ) / (10 ^ 23 * s) *
        f (c.2.1 / 10 ^ 23) (c.2.2.1 / 10 ^ 23) (c.2.2.2 / 10 ^ 23)).sum := by
  induction t generalizing l with
  | nil =>
    cases l with
    | nil => simp [QTab.rule, QRule.apply]
    | cons c l => simp [closeTab] at h
  | cons p t ih =>
    cases l with
    | nil => simp [closeTab] at h
    | cons c l =>
      obtain ⟨w, x, y, z⟩ := p
      obtain ⟨v, x', y', z'⟩ := c
      simp only [closeTab, Bool.and_eq_true, decide_eq_true_eq, Nat.ble_eq] at h
      obtain ⟨⟨hp, hw⟩, hl⟩ := h
      obtain ⟨rfl, rfl, rfl⟩ : x = x' ∧ y = y' ∧ z = z' := by simpa using hp
      have e : (QTab.rule ((w, x, y, z) :: t)).apply f =
          ((dec w : ℚ) : ℝ) * f ((dec x : ℚ) : ℝ) ((dec y : ℚ) : ℝ) ((dec z : ℚ) : ℝ) +
            (QTab.rule t).apply f := rfl
      have d : ∀ n : ℕ, ((dec n : ℚ) : ℝ) = (n : ℝ) / 10 ^ 23 := by intro n; simp [dec]
      have dw : ((dec w : ℚ) : ℝ) = (w : ℝ) / 10 ^ 23 := by simp [dec]
      rw [e, List.map_cons, List.sum_cons, d, d, d, dw]
      have h1 := ih l hl
      have hv : 0 ≤ f (x / 10 ^ 23) (y / 10 ^ 23) (z / 10 ^ 23) :=
        hf _ _ _ (by positivity) (by positivity) (by positivity)
      generalize f (x / 10 ^ 23) (y / 10 ^ 23) (z / 10 ^ 23) = F at *
      generalize (QTab.rule t).apply f = A at *
      simp only at h1 ⊢
      generalize (List.map (fun c : QCol => (c.1 : ℝ) / (10 ^ 23 * s) *
        f (c.2.1 / 10 ^ 23) (c.2.2.1 / 10 ^ 23) (c.2.2.2 / 10 ^ 23)) l).sum = B at *
      have hs' : (0 : ℝ) < s := by exact_mod_cast hs
      have hT' : (0 : ℝ) < T := by exact_mod_cast hT
      have hw' : |(w : ℝ) * s - v| * T ≤ v := by
        have h2 : (((w * s - v).natAbs * T : ℕ) : ℝ) ≤ ((v : ℕ) : ℝ) := by exact_mod_cast hw
        rw [Nat.cast_mul, Nat.cast_natAbs] at h2
        push_cast at h2
        exact h2
      have h3 : |(w : ℝ) / 10 ^ 23 * F - v / (10 ^ 23 * s) * F| ≤ 1 / T * (v / (10 ^ 23 * s) * F) := by
        have e1 : (w : ℝ) / 10 ^ 23 * F - v / (10 ^ 23 * s) * F =
            ((w : ℝ) * s - v) * (F / (10 ^ 23 * s)) := by field_simp
        have e2 : 1 / T * (v / (10 ^ 23 * s) * F) = (v / T : ℝ) * (F / (10 ^ 23 * s)) := by field_simp
        rw [e1, e2, abs_mul, abs_of_nonneg (a := F / (10 ^ 23 * s)) (by positivity)]
        apply mul_le_mul_of_nonneg_right _ (by positivity)
        rw [le_div_iff₀ hT']
        exact hw'
      calc |(w : ℝ) / 10 ^ 23 * F + A - (v / (10 ^ 23 * s) * F + B)|
          = |((w : ℝ) / 10 ^ 23 * F - v / (10 ^ 23 * s) * F) + (A - B)| := by congr 1; ring
        _ ≤ _ := abs_add_le _ _
        _ ≤ 1 / T * (v / (10 ^ 23 * s) * F) + 1 / T * B := add_le_add h3 h1
        _ = _ := by ring

/-- The moments of a rule on the segment. -/
noncomputable def mom (g : List (ℕ × ℕ)) (a : ℕ) : ℝ :=
  (g.map fun c => (c.1 : ℝ) / 10 ^ 23 * ((c.2 : ℝ) / 10 ^ 23) ^ a).sum

theorem mom_eq (g : List (ℕ × ℕ)) (a : ℕ) : (tab1 g).rule.apply (fun x _ _ => x ^ a) = mom g a := by
  unfold mom tab1 QTab.rule QRule.apply
  rw [List.map_map, List.map_map]
  congr 1
  apply List.map_congr_left
  intro c _
  simp [dec]

theorem sum_flatMap_mul {α β : Type} (g : List α) (F : α → List β) (v : β → ℝ) (w : α → ℝ) (S : ℝ)
    (h : ∀ c ∈ g, ((F c).map v).sum = w c * S) : ((g.flatMap F).map v).sum = (g.map w).sum * S := by
  induction g with
  | nil => simp
  | cons c g ih =>
    rw [List.flatMap_cons, List.map_append, List.sum_append, h c (by simp),
      ih fun d hd => h d (by simp [hd]), List.map_cons, List.sum_cons]
    ring

theorem tensor2_sum (g : List (ℕ × ℕ)) (a b : ℕ) :
    ((tensor2 g).map fun c => (c.1 : ℝ) / (10 ^ 23 * (10 ^ 23 : ℕ)) *
      (((c.2.1 : ℝ) / 10 ^ 23) ^ a * ((c.2.2.1 : ℝ) / 10 ^ 23) ^ b)).sum = mom g b * mom g a := by
  apply sum_flatMap_mul
  intro c _
  rw [List.map_map, mom, ← List.sum_map_mul_left]
  congr 1
  apply List.map_congr_left
  intro d _
  simp only [Function.comp]
  push_cast
  field_simp
  norm_num

theorem tensor3_sum (g : List (ℕ × ℕ)) (a b k : ℕ) :
    ((tensor3 g).map fun c => (c.1 : ℝ) / (10 ^ 23 * (10 ^ 46 : ℕ)) *
      (((c.2.1 : ℝ) / 10 ^ 23) ^ a * ((c.2.2.1 : ℝ) / 10 ^ 23) ^ b *
        ((c.2.2.2 : ℝ) / 10 ^ 23) ^ k)).sum = mom g b * (mom g a * mom g k) := by
  apply sum_flatMap_mul
  intro c _
  rw [← mul_assoc, mul_comm _ (mom g a), mul_assoc, mom]
  apply sum_flatMap_mul
  intro d _
  rw [List.map_map, mom, ← List.sum_map_mul_left, ← List.sum_map_mul_left]
  congr 1
  apply List.map_congr_left
  intro e _
  simp only [Function.comp]
  push_cast
  field_simp
  norm_num

theorem mom_bounds {g : List (ℕ × ℕ)} {o : ℕ}
    (h : checkSeg (5 * 10 ^ 14) o (tab1 g).pos (tab1 g).neg = true) (a : ℕ) (ha : a ≤ o) :
    ∃ u : ℝ, |u - 1| ≤ 2 / 10 ^ 15 ∧ mom g a = u * (1 / ((a : ℝ) + 1)) := by
  have h1 := segment_of_check (by norm_num) h a ha
  rw [mom_eq, segment_monomial] at h1
  have hp : (0 : ℝ) < 1 / ((a : ℝ) + 1) := by positivity
  refine ⟨mom g a / (1 / ((a : ℝ) + 1)), ?_, by field_simp⟩
  have e : mom g a / (1 / ((a : ℝ) + 1)) - 1 = (mom g a - 1 / ((a : ℝ) + 1)) / (1 / ((a : ℝ) + 1)) := by
    field_simp
  rw [e, abs_div, abs_of_pos hp, div_le_iff₀ hp]
  refine h1.trans (mul_le_mul_of_nonneg_right ?_ hp.le)
  norm_num

theorem square_of_check {t : QTab} {g : List (ℕ × ℕ)} {o : ℕ}
    (hg : checkSeg (5 * 10 ^ 14) o (tab1 g).pos (tab1 g).neg = true)
    (h : closeTab (10 ^ 15) (10 ^ 23) t (tensor2 g) = true) (a b : ℕ) (ha : a ≤ o) (hb : b ≤ o) :
    |t.rule.apply (fun x y _ => x ^ a * y ^ b) - squareInt fun x y => x ^ a * y ^ b| ≤
      1 / 10 ^ 14 * squareInt fun x y => x ^ a * y ^ b := by
  have h1 := closeTab_apply (by norm_num) (by norm_num) (fun x y _ => x ^ a * y ^ b)
    (fun x y z hx hy hz => by positivity) t _ h
  rw [tensor2_sum] at h1
  obtain ⟨u, hu, eu⟩ := mom_bounds hg a ha
  obtain ⟨v, hv, ev⟩ := mom_bounds hg b hb
  rw [square_monomial]
  rw [eu, ev] at h1
  have hp : (0 : ℝ) < 1 / ((a : ℝ) + 1) := by positivity
  have hq : (0 : ℝ) < 1 / ((b : ℝ) + 1) := by positivity
  generalize t.rule.apply (fun x y _ => x ^ a * y ^ b) = A at *
  have e : (1 : ℝ) / ((a + 1) * (b + 1)) = 1 / ((a : ℝ) + 1) * (1 / ((b : ℝ) + 1)) := by field_simp
  first | rw [e] | skip
  generalize 1 / ((a : ℝ) + 1) = P at *
  generalize 1 / ((b : ℝ) + 1) = Q at *
  have hPQ := mul_pos hp hq
  rw [abs_le] at h1 hu hv ⊢
  have huv : |u * v - 1| ≤ 5 / 10 ^ 15 := by
    rw [abs_le]
    constructor <;> nlinarith
  rw [abs_le] at huv
  have e3 : v * Q * (u * P) = u * v * (P * Q) := by ring
  rw [e3] at h1
  generalize u * v = W at *
  generalize P * Q = R at *
  push_cast at h1
  constructor <;> nlinarith

theorem cube_of_check {t : QTab} {g : List (ℕ × ℕ)} {o : ℕ}
    (hg : checkSeg (5 * 10 ^ 14) o (tab1 g).pos (tab1 g).neg = true)
    (h : closeTab (10 ^ 15) (10 ^ 46) t (tensor3 g) = true) (a b c : ℕ) (ha : a ≤ o) (hb : b ≤ o)
    (hc : c ≤ o) :
    |t.rule.apply (fun x y z => x ^ a * y ^ b * z ^ c) - cubeInt fun x y z => x ^ a * y ^ b * z ^ c| ≤
      1 / 10 ^ 14 * cubeInt fun x y z => x ^ a * y ^ b * z ^ c := by
  have h1 := closeTab_apply (by norm_num) (by norm_num) (fun x y z => x ^ a * y ^ b * z ^ c)
    (fun x y z hx hy hz => by positivity) t _ h
  rw [tensor3_sum] at h1
  obtain ⟨u, hu, eu⟩ := mom_bounds hg a ha
  obtain ⟨v, hv, ev⟩ := mom_bounds hg b hb
  obtain ⟨w, hw, ew⟩ := mom_bounds hg c hc
  rw [cube_monomial]
  rw [eu, ev, ew] at h1
  have hp : (0 : ℝ) < 1 / ((a : ℝ) + 1) := by positivity
  have hq : (0 : ℝ) < 1 / ((b : ℝ) + 1) := by positivity
  have hr : (0 : ℝ) < 1 / ((c : ℝ) + 1) := by positivity
  generalize t.rule.apply (fun x y z => x ^ a * y ^ b * z ^ c) = A at *
  have e : (1 : ℝ) / ((a + 1) * (b + 1) * (c + 1)) =
    1 / ((a : ℝ) + 1) * (1 / ((b : ℝ) + 1)) * (1 / ((c : ℝ) + 1)) := by field_simp
  first | rw [e] | skip
  generalize 1 / ((a : ℝ) + 1) = P at *
  generalize 1 / ((b : ℝ) + 1) = Q at *
  generalize 1 / ((c : ℝ) + 1) = S at *
  have hPQ := mul_pos (mul_pos hp hq) hr
  rw [abs_le] at h1 hu hv hw ⊢
  have huv : |u * v - 1| ≤ 5 / 10 ^ 15 := by
    rw [abs_le]
    constructor <;> nlinarith
  rw [abs_le] at huv
  have e3 : v * Q * (u * P * (w * S)) = u * v * w * (P * Q * S) := by ring
  rw [e3] at h1
  generalize u * v = W at *
  have huvw : |W * w - 1| ≤ 8 / 10 ^ 15 := by
    rw [abs_le]
    constructor <;> nlinarith
  rw [abs_le] at huvw
  generalize W * w = X at *
  generalize P * Q * S = R at *
  push_cast at h1
  constructor <;> nlinarith

/-! Signs and positions. -/

def posW (t : QTab) : Bool := t.all fun c => decide (0 < c.1)
def inBox (t : QTab) : Bool := t.all fun c => Nat.ble c.2.1 (10 ^ 23) && Nat.ble c.2.2.1 (10 ^ 23) &&
  Nat.ble c.2.2.2 (10 ^ 23)
def inSimplex (t : QTab) : Bool := t.all fun c => Nat.ble (c.2.1 + c.2.2.1 + c.2.2.2) (10 ^ 23)

theorem dec_nonneg (n : ℕ) : 0 ≤ dec n := by unfold dec; positivity

theorem dec_le (n : ℕ) (h : n ≤ 10 ^ 23) : dec n ≤ 1 := by
  unfold dec
  rw [div_le_one (by positivity)]
  exact_mod_cast h

theorem positive_of {t : QTab} (h : posW t = true) : t.rule.Positive := by
  intro c hc
  obtain ⟨p, hp, rfl⟩ := List.mem_map.1 hc
  have := of_decide_eq_true (List.all_eq_true.1 h p hp)
  show 0 < dec p.1
  unfold dec
  have h2 : (0 : ℚ) < p.1 := by exact_mod_cast this
  positivity

theorem inBox_spec {t : QTab} (h : inBox t = true) {p : ℤ × ℕ × ℕ × ℕ} (hp : p ∈ t) :
    p.2.1 ≤ 10 ^ 23 ∧ p.2.2.1 ≤ 10 ^ 23 ∧ p.2.2.2 ≤ 10 ^ 23 := by
  have := List.all_eq_true.1 h p hp
  simp only [Bool.and_eq_true, Nat.ble_eq] at this
  tauto

theorem inSimplex_spec {t : QTab} (h : inSimplex t = true) {p : ℤ × ℕ × ℕ × ℕ} (hp : p ∈ t) :
    dec p.2.1 + dec p.2.2.1 + dec p.2.2.2 ≤ 1 := by
  have := List.all_eq_true.1 h p hp
  simp only [Nat.ble_eq] at this
  have := dec_le _ this
  unfold dec at this ⊢
  push_cast at this
  rwa [add_div, add_div] at this

theorem inCube_of {t : QTab} (h : inBox t = true) : t.rule.InCube := by
  intro c hc
  obtain ⟨p, hp, rfl⟩ := List.mem_map.1 hc
  obtain ⟨h1, h2, h3⟩ := inBox_spec h hp
  exact ⟨dec_nonneg _, dec_le _ h1, dec_nonneg _, dec_le _ h2, dec_nonneg _, dec_le _ h3⟩

theorem inTetra_of {t : QTab} (h : inSimplex t = true) : t.rule.InTetra := by
  intro c hc
  obtain ⟨p, hp, rfl⟩ := List.mem_map.1 hc
  exact ⟨dec_nonneg _, dec_nonneg _, dec_nonneg _, inSimplex_spec h hp⟩

theorem dec_zero : dec 0 = 0 := by simp [dec]

theorem inSegment_of {t : List (ℕ × ℕ)} (h : inBox (tab1 t) = true) : (tab1 t).rule.InSegment := by
  intro c hc
  obtain ⟨p, hp, rfl⟩ := List.mem_map.1 hc
  obtain ⟨h1, -, -⟩ := inBox_spec h hp
  obtain ⟨q, -, rfl⟩ := List.mem_map.1 hp
  exact ⟨dec_nonneg _, dec_le _ h1, dec_zero, dec_zero⟩

theorem inTriangle_of {t : List (ℕ × ℕ × ℕ)} (h : inSimplex (tab2 t) = true) :
    (tab2 t).rule.InTriangle := by
  intro c hc
  obtain ⟨p, hp, rfl⟩ := List.mem_map.1 hc
  have h1 := inSimplex_spec h hp
  obtain ⟨q, -, rfl⟩ := List.mem_map.1 hp
  refine ⟨dec_nonneg _, dec_nonneg _, ?_, dec_zero⟩
  have : dec ((0 : ℕ) : ℤ) = 0 := dec_zero
  simpa [this, dec_zero] using h1

theorem inSquare_of {t : List (ℕ × ℕ × ℕ)} (h : inBox (tab2 t) = true) :
    (tab2 t).rule.InSquare := by
  intro c hc
  obtain ⟨p, hp, rfl⟩ := List.mem_map.1 hc
  obtain ⟨h1, h2, -⟩ := inBox_spec h hp
  obtain ⟨q, -, rfl⟩ := List.mem_map.1 hp
  exact ⟨dec_nonneg _, dec_le _ h1, dec_nonneg _, dec_le _ h2, dec_zero⟩

theorem IntegratesTriangle.mono {r : QRule} {o o' : ℕ} {ε : ℝ} (h : IntegratesTriangle r o ε)
    (ho : o' ≤ o) : IntegratesTriangle r o' ε := fun p hp => h p (hp.trans ho)

theorem IntegratesTetra.mono {r : QRule} {o o' : ℕ} {ε : ℝ} (h : IntegratesTetra r o ε)
    (ho : o' ≤ o) : IntegratesTetra r o' ε := fun p hp => h p (hp.trans ho)

theorem IntegratesSquare.mono {r : QRule} {o o' : ℕ} {ε : ℝ} (h : IntegratesSquare r o ε)
    (ho : o' ≤ o) : IntegratesSquare r o' ε := fun p hp => h p fun i => (hp i).trans ho

theorem IntegratesCube.mono {r : QRule} {o o' : ℕ} {ε : ℝ} (h : IntegratesCube r o ε)
    (ho : o' ≤ o) : IntegratesCube r o' ε := fun p hp => h p fun i => (hp i).trans ho

theorem not_integratesTriangle {t : QTab} {T o a b : ℕ} (hT : 0 < T) (ho : a + b ≤ o)
    (h : leaf T (kfact a * kfact b) (kfact (a + b + 2)) (a + b) (scaleBy t.pos a b 0)
      (scaleBy t.neg a b 0) = false) : ¬ IntegratesTriangle t.rule o (1 / T) := by
  intro hi
  rw [kfact_eq, kfact_eq, kfact_eq] at h
  have h2 := leaf_complete t T _ _ a b 0 hT (Nat.factorial_pos _) h
  have hv : ∀ x y : ℝ, MvPolynomial.eval ![x, y]
      (MvPolynomial.monomial (Finsupp.single 0 a + Finsupp.single 1 b) (1 : ℝ)) = x ^ a * y ^ b := by
    intro x y
    rw [MvPolynomial.eval_monomial, one_mul, Finsupp.prod_add_index' (by simp) (by simp [pow_add])]
    simp
  have h3 := hi (MvPolynomial.monomial (Finsupp.single 0 a + Finsupp.single 1 b) (1 : ℝ)) (by
    refine (MvPolynomial.totalDegree_monomial_le _ _).trans ?_
    rw [Finsupp.sum_add_index' (by simp) (by simp)]
    simpa using ho)
  have hs : (MvPolynomial.monomial (Finsupp.single (0 : Fin 2) a + Finsupp.single 1 b) (1 : ℝ)).support =
      {Finsupp.single 0 a + Finsupp.single 1 b} := by
    rw [MvPolynomial.support_monomial, if_neg one_ne_zero]
  rw [hs, Finset.sum_singleton, MvPolynomial.coeff_monomial, if_pos rfl] at h3
  simp only [hv] at h3
  have e0 : (Finsupp.single (0 : Fin 2) a + Finsupp.single 1 b : Fin 2 →₀ ℕ) 0 = a := by simp
  have e1 : (Finsupp.single (0 : Fin 2) a + Finsupp.single 1 b : Fin 2 →₀ ℕ) 1 = b := by simp
  rw [e0, e1, triangle_monomial, abs_one, one_mul] at h3
  have h4 : t.rule.apply (fun x y z => x ^ a * y ^ b * z ^ 0) =
      t.rule.apply (fun x y _ => x ^ a * y ^ b) := by simp
  rw [h4] at h2
  push_cast at h2
  exact absurd h3 (not_le.2 h2)

/-! The facts about one table. -/

noncomputable def segFacts (T O n : ℕ) (t : List (ℕ × ℕ)) : Bool :=
  checkSeg T O (tab1 t).pos (tab1 t).neg && posW (tab1 t) && inBox (tab1 t) && Nat.beq t.length n

noncomputable def triFacts (T O n : ℕ) (t : List (ℕ × ℕ × ℕ)) : Bool :=
  checkTri T O (tab2 t).pos (tab2 t).neg && posW (tab2 t) && inSimplex (tab2 t) && Nat.beq t.length n

noncomputable def tetFacts (T O n : ℕ) (t : QTab) : Bool :=
  checkTet T O t.pos t.neg && inSimplex t && Nat.beq t.length n

def squareFacts (n : ℕ) (g : List (ℕ × ℕ)) (t : List (ℕ × ℕ × ℕ)) : Bool :=
  closeTab (10 ^ 15) (10 ^ 23) (tab2 t) (tensor2 g) && posW (tab2 t) && inBox (tab2 t) &&
    Nat.beq t.length n

def cubeFacts (n : ℕ) (g : List (ℕ × ℕ)) (t : QTab) : Bool :=
  closeTab (10 ^ 15) (10 ^ 46) t (tensor3 g) && posW t && inBox t && Nat.beq t.length n

def endFacts (t : List (ℕ × ℕ)) : Bool :=
  t.any (fun c => Nat.beq c.2 0) && t.any (fun c => Nat.beq c.2 (10 ^ 23))

theorem length_tab1 (t : List (ℕ × ℕ)) : (tab1 t).rule.length = t.length := by simp [tab1, QTab.rule]
theorem length_tab2 (t : List (ℕ × ℕ × ℕ)) : (tab2 t).rule.length = t.length := by
  simp [tab2, QTab.rule]
theorem length_rule (t : QTab) : t.rule.length = t.length := by simp [QTab.rule]

theorem seg_rule {t : List (ℕ × ℕ)} {T O n : ℕ} (h : segFacts T O n t = true) (hT : 0 < T) {o : ℕ}
    (ho : o ≤ O) {ε : ℝ} (hε : 1 / (T : ℝ) ≤ ε) :
    (tab1 t).rule.length = n ∧ (tab1 t).rule.Positive ∧ (tab1 t).rule.InSegment ∧
      IntegratesSegment (tab1 t).rule o ε := by
  simp only [segFacts, Bool.and_eq_true, Nat.beq_eq] at h
  obtain ⟨⟨⟨h1, h2⟩, h3⟩, h4⟩ := h
  refine ⟨by rw [length_tab1, h4], positive_of h2, inSegment_of h3, integratesSegment_of fun k hk => ?_⟩
  refine (segment_of_check hT h1 k (hk.trans ho)).trans (mul_le_mul_of_nonneg_right hε ?_)
  rw [segment_monomial]
  positivity

theorem seg_mk {t : List (ℕ × ℕ)} {T O n : ℕ} {q : Res QData} (h : segFacts T O n t = true)
    (hq : q = ok (zeroed1 t)) {o : ℕ} (ho : o ≤ O) (hT : 0 < T) {ε : ℝ} (hε : 1 / (T : ℝ) ≤ ε) :
    ∃ (q' : QData) (r : QRule), q = ok q' ∧ q'.read = ok r ∧ r.length = n ∧ r.Positive ∧ r.InSegment ∧
      IntegratesSegment r o ε :=
  ⟨_, _, hq, read_zeroed1 t, seg_rule h hT ho hε⟩

theorem ends_of {t : List (ℕ × ℕ)} (h : endFacts t = true) : (tab1 t).rule.HasEnds := by
  simp only [endFacts, Bool.and_eq_true, List.any_eq_true, Nat.beq_eq] at h
  obtain ⟨⟨c, hc, h0⟩, ⟨d, hd, h1⟩⟩ := h
  refine ⟨⟨_, List.mem_map_of_mem (List.mem_map_of_mem hc), ?_⟩,
    ⟨_, List.mem_map_of_mem (List.mem_map_of_mem hd), ?_⟩⟩
  · simp [h0, dec]
  · simp only [h1, dec]; norm_num

theorem agrees_zeroed1 (t : List (ℕ × ℕ)) :
    List.Forall₂ (fun c p => c.1 = p.1 ∧ c.2.1 = some p.2.1) (zeroed1 t) (tab1 t).rule := by
  unfold zeroed1 tab1 QTab.rule
  rw [List.map_map]
  induction t with
  | nil => exact .nil
  | cons c t ih => exact .cons ⟨rfl, rfl⟩ ih

theorem agrees_raw1 (t : List (ℕ × ℕ)) :
    List.Forall₂ (fun c p => c.1 = p.1 ∧ c.2.1 = some p.2.1) (raw1 t) (tab1 t).rule := by
  unfold raw1 tab1 QTab.rule
  rw [List.map_map]
  induction t with
  | nil => exact .nil
  | cons c t ih => exact .cons ⟨rfl, rfl⟩ ih

theorem read_raw1 {t : List (ℕ × ℕ)} (h : t ≠ []) : (raw1 t).read = ub := by
  cases t with
  | nil => exact absurd rfl h
  | cons c t => rfl

theorem tri_mk {t : List (ℕ × ℕ × ℕ)} {T O n : ℕ} {q : Res QData} (h : triFacts T O n t = true)
    (hq : q = ok (zeroed2 t)) {o : ℕ} (ho : o ≤ O) (hT : 0 < T) {ε : ℝ} (hε : 1 / (T : ℝ) ≤ ε)
    (hn : 0 < n) :
    ∃ (q' : QData) (r : QRule), q = ok q' ∧ q'.read = ok r ∧ 0 < r.length ∧ r.Positive ∧ r.InTriangle ∧
      IntegratesTriangle r o ε := by
  simp only [triFacts, Bool.and_eq_true, Nat.beq_eq] at h
  obtain ⟨⟨⟨h1, h2⟩, h3⟩, h4⟩ := h
  refine ⟨_, _, hq, read_zeroed2 t, by rwa [length_tab2, h4], positive_of h2, inTriangle_of h3,
    integratesTriangle_of fun a b hab => ?_⟩
  refine (triangle_of_check hT h1 a b (hab.trans ho)).trans (mul_le_mul_of_nonneg_right hε ?_)
  rw [triangle_monomial]
  positivity

theorem tet_mk {t : QTab} {T O n : ℕ} {q : Res QData} (h : tetFacts T O n t = true)
    (hq : q = ok (full3 t)) {o : ℕ} (ho : o ≤ O) (hT : 0 < T) {ε : ℝ} (hε : 1 / (T : ℝ) ≤ ε)
    (hn : 0 < n) :
    ∃ (q' : QData) (r : QRule), q = ok q' ∧ q'.read = ok r ∧ 0 < r.length ∧ r.InTetra ∧ IntegratesTetra r o ε := by
  simp only [tetFacts, Bool.and_eq_true, Nat.beq_eq] at h
  obtain ⟨⟨h1, h3⟩, h4⟩ := h
  refine ⟨_, _, hq, read_full3 t, by rwa [length_rule, h4], inTetra_of h3,
    integratesTetra_of fun a b c hab => ?_⟩
  refine (tetra_of_check hT h1 a b c (hab.trans ho)).trans (mul_le_mul_of_nonneg_right hε ?_)
  rw [tetra_monomial]
  positivity

theorem tetPos_mk {t : QTab} {T O n : ℕ} {q : Res QData} (h : tetFacts T O n t = true)
    (hp : posW t = true) (hq : q = ok (full3 t)) {o : ℕ} (ho : o ≤ O) (hT : 0 < T) {ε : ℝ}
    (hε : 1 / (T : ℝ) ≤ ε) (hn : 0 < n) :
    ∃ (q' : QData) (r : QRule), q = ok q' ∧ q'.read = ok r ∧ 0 < r.length ∧ r.Positive ∧ r.InTetra ∧
      IntegratesTetra r o ε := by
  obtain ⟨q', r, e, er, e1, e2, e3⟩ := tet_mk h hq ho hT hε hn
  refine ⟨q', r, e, er, e1, ?_, e2, e3⟩
  obtain rfl := Res.ok.inj (e.symm.trans hq)
  obtain rfl := Res.ok.inj (er.symm.trans (read_full3 t))
  exact positive_of hp

theorem square_mk {g : List (ℕ × ℕ)} {t : List (ℕ × ℕ × ℕ)} {O n m : ℕ} {q : Res QData}
    (hg : segFacts (5 * 10 ^ 14) O m g = true) (h : squareFacts n g t = true)
    (hq : q = ok (zeroed2 t)) {o : ℕ} (ho : o ≤ O) :
    ∃ (q' : QData) (r : QRule), q = ok q' ∧ q'.read = ok r ∧ r.length = n ∧ r.Positive ∧ r.InSquare ∧
      IntegratesSquare r o (1 / 10 ^ 14) := by
  simp only [segFacts, Bool.and_eq_true, Nat.beq_eq] at hg
  simp only [squareFacts, Bool.and_eq_true, Nat.beq_eq] at h
  obtain ⟨⟨⟨h1, h2⟩, h3⟩, h4⟩ := h
  exact ⟨_, _, hq, read_zeroed2 t, by rw [length_tab2, h4], positive_of h2, inSquare_of h3,
    integratesSquare_of fun a b ha hb =>
      square_of_check hg.1.1.1 h1 a b (ha.trans ho) (hb.trans ho)⟩

theorem cube_mk {g : List (ℕ × ℕ)} {t : QTab} {O n m : ℕ} {q : Res QData}
    (hg : segFacts (5 * 10 ^ 14) O m g = true) (h : cubeFacts n g t = true)
    (hq : q = ok (full3 t)) {o : ℕ} (ho : o ≤ O) :
    ∃ (q' : QData) (r : QRule), q = ok q' ∧ q'.read = ok r ∧ r.length = n ∧ r.Positive ∧ r.InCube ∧
      IntegratesCube r o (1 / 10 ^ 14) := by
  simp only [segFacts, Bool.and_eq_true, Nat.beq_eq] at hg
  simp only [cubeFacts, Bool.and_eq_true, Nat.beq_eq] at h
  obtain ⟨⟨⟨h1, h2⟩, h3⟩, h4⟩ := h
  exact ⟨_, _, hq, read_full3 t, by rw [length_rule, h4], positive_of h2, inCube_of h3,
    integratesCube_of fun a b c ha hb hc =>
      cube_of_check hg.1.1.1 h1 a b c (ha.trans ho) (hb.trans ho) (hc.trans ho)⟩

end Verif
