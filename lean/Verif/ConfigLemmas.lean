import Verif.ConfigSpec
import Verif.StringLemmas

/-
Helper lemmas for the configuration store.
-/
namespace Verif

open Res

variable {D M : Type}

/-! ### String maps -/

section
variable {β : Type}

theorem smFind_append (m m' : SMap β) (k : Str) :
    smFind (m ++ m') k = (smFind m k).or (smFind m' k) := by
  induction m with
  | nil => rfl
  | cons p m ih =>
    rw [List.cons_append, smFind, smFind, ih]
    split <;> rfl

theorem smFind_eq_none {m : SMap β} {k : Str} : smFind m k = none ↔ k ∉ m.map (·.1) := by
  induction m with
  | nil => simp [smFind]
  | cons p m ih =>
    rw [smFind]
    by_cases h : p.1 = k
    · simp [h]
    · rw [if_neg h, ih]; simp [Ne.symm h]

theorem smFind_isSome {m : SMap β} {k : Str} : (smFind m k).isSome ↔ k ∈ m.map (·.1) := by
  have := @smFind_eq_none _ m k
  cases h : smFind m k with
  | none => rw [h] at this; simpa using this
  | some b => rw [h] at this; simpa using this

theorem smFind_eq_some {m : SMap β} (hm : (m.map (·.1)).Nodup) {k : Str} {b : β} :
    smFind m k = some b ↔ (k, b) ∈ m := by
  induction m with
  | nil => simp [smFind]
  | cons p m ih =>
    rw [List.map_cons, List.nodup_cons] at hm
    rw [smFind]
    by_cases h : p.1 = k
    · rw [if_pos h]
      subst h
      constructor
      · intro h'; cases h'; simp
      · intro h'
        rcases List.mem_cons.1 h' with h' | h'
        · rw [← h']
        · exact absurd (List.mem_map.2 ⟨_, h', rfl⟩) hm.1
    · rw [if_neg h, ih hm.2, List.mem_cons]
      constructor
      · exact .inr
      · rintro (h' | h')
        · rw [← h'] at h; exact absurd rfl h
        · exact h'

theorem smFind_erase (m : SMap β) (k j : Str) :
    smFind (smErase m k) j = if j = k then none else smFind m j := by
  induction m with
  | nil => simp [smErase, smFind]
  | cons p m ih =>
    unfold smErase at ih ⊢
    rw [List.filter_cons]
    by_cases h : p.1 = k
    · have : (decide (p.1 ≠ k)) = false := by simp [h]
      rw [this]
      simp only [Bool.false_eq_true, if_false, ih, smFind]
      by_cases hj : j = k
      · simp [hj]
      · rw [if_neg hj, if_neg hj, if_neg (fun h' => hj (by rw [← h', h]))]
    · have : (decide (p.1 ≠ k)) = true := by simp [h]
      rw [this]
      simp only [if_true, smFind, ih]
      by_cases hj : j = k
      · subst hj; simp [h]
      · simp [hj]

theorem smFind_update (m : SMap β) (k j : Str) (f : β → β) :
    smFind (smUpdate m k f) j = if j = k then (smFind m j).map f else smFind m j := by
  induction m with
  | nil => simp [smUpdate, smFind]
  | cons p m ih =>
    unfold smUpdate at ih ⊢
    rw [List.map_cons, smFind, smFind, ih]
    by_cases h : p.1 = k
    · subst h
      simp only [if_true]
      by_cases hj : j = p.1
      · subst hj; simp
      · simp [hj, Ne.symm hj]
    · simp only [h, if_false]
      by_cases hj : p.1 = j
      · subst hj; simp [h]
      · simp [hj]

theorem smFind_insert_none {m : SMap β} {k : Str} (h : smFind m k = none) (b : β) :
    smInsert m k b = m ++ [(k, b)] := by simp [smInsert, h]

theorem keys_erase (m : SMap β) (k : Str) :
    (smErase m k).map (·.1) = (m.map (·.1)).filter (· ≠ k) := by
  unfold smErase
  rw [List.filter_map]; rfl

theorem keys_update (m : SMap β) (k : Str) (f : β → β) :
    (smUpdate m k f).map (·.1) = m.map (·.1) := by
  unfold smUpdate
  rw [List.map_map]
  apply List.map_congr_left
  intro p _
  simp only [Function.comp]
  split <;> rfl

theorem length_erase {m : SMap β} (hm : (m.map (·.1)).Nodup) {k : Str} (h : k ∈ m.map (·.1)) :
    (smErase m k).length + 1 = m.length := by
  have h1 : (smErase m k).length = ((smErase m k).map (·.1)).length := by simp
  have h2 : m.length = (m.map (·.1)).length := by simp
  rw [h1, h2, keys_erase]
  generalize m.map (·.1) = l at hm h
  have hf : l.filter (fun x => decide (x ≠ k)) = l.erase k := by
    rw [hm.erase_eq_filter]
    apply List.filter_congr
    intro x _
    by_cases hx : x = k <;> simp [hx]
  rw [hf, List.length_erase_of_mem h]
  have := List.length_pos_of_mem h
  omega

end

/-! ### The invariant of the store -/

theorem CVal.type_ne_unknown (v : CVal D M) : v.type ≠ .unknown := by cases v <;> simp [CVal.type]

/-- The two maps have the same keys and agree on types, and the counter is the number of keys. -/
structure Config.WF (c : Config D M) : Prop where
  tkeys : (c.types.map (·.1)).Nodup
  pkeys : (c.props.map (·.1)).Nodup
  agree : ∀ id, smFind c.types id = (smFind c.props id).map (·.val.type)
  number : c.number = c.types.length

namespace Config

theorem WF.empty : (Config.empty : Config D M).WF := ⟨by simp [Config.empty], by simp [Config.empty],
  fun _ => rfl, rfl⟩

theorem remove_spec {c : Config D M} (h : c.WF) (id : Str) :
    ∃ c', c.remove id = ok c' ∧ c'.WF ∧
      (∀ j, smFind c'.props j = if j = id then none else smFind c.props j) ∧
      c'.number = if (smFind c.props id).isSome then c.number - 1 else c.number := by
  unfold remove
  have ha := h.agree id
  cases hp : smFind c.props id with
  | none =>
    rw [hp] at ha
    rw [ha]
    refine ⟨c, rfl, h, fun j => ?_, by simp⟩
    split
    · next hj => rw [hj, hp]
    · rfl
  | some p =>
    rw [hp] at ha
    rw [ha]
    simp only [Option.map_some]
    unfold removeTyped
    rw [if_neg p.val.type_ne_unknown, hp]
    simp only [ne_eq, not_true, if_false, ok_bind]
    have hmem : id ∈ c.types.map (·.1) := by
      rw [← smFind_isSome, ha]; rfl
    have hlen := length_erase h.tkeys hmem
    have hn := h.number
    refine ⟨_, rfl, ⟨?_, ?_, ?_, ?_⟩, ?_, ?_⟩
    · simp only [keys_erase]; exact h.tkeys.filter _
    · simp only [keys_erase]; exact h.pkeys.filter _
    · intro j
      simp only [smFind_erase]
      split
      · rfl
      · exact h.agree j
    · simp only [usub]
      rw [if_pos (by omega)]; omega
    · intro j; simp only [smFind_erase]
    · simp only [usub, Option.isSome_some, if_true]
      rw [if_pos (by omega)]

theorem add_spec {c : Config D M} (h : c.WF) (id : Str) (v : CVal D M) (desc : Str) :
    ∃ c', c.add id v desc = ok c' ∧ c'.WF ∧
      (∀ j, smFind c'.props j = if j = id then some ⟨v, desc⟩ else smFind c.props j) ∧
      c'.number = if (smFind c.props id).isSome then c.number else c.number + 1 := by
  obtain ⟨c1, h1, hw, hf, hn⟩ := remove_spec h id
  unfold add
  rw [h1, ok_bind]
  have hp0 : smFind c1.props id = none := by rw [hf, if_pos rfl]
  have ht0 : smFind c1.types id = none := by rw [hw.agree, hp0]; rfl
  simp only [smFind_insert_none hp0, smFind_insert_none ht0, getProp]
  rw [smFind_append, hp0]
  simp only [smFind, if_true, Option.none_or, ok_bind]
  have hfind : ∀ j, smFind (c1.props ++ [(id, (⟨v, []⟩ : CProp D M))]) j =
      if j = id then some ⟨v, []⟩ else smFind c.props j := by
    intro j
    rw [smFind_append, hf]
    simp only [smFind]
    by_cases hj : j = id
    · subst hj; simp
    · rw [if_neg hj, if_neg hj, if_neg (Ne.symm hj)]; simp
  refine ⟨_, rfl, ⟨?_, ?_, ?_, ?_⟩, ?_, ?_⟩
  · simp only [List.map_append, List.map_cons, List.map_nil]
    rw [List.nodup_append]
    refine ⟨hw.tkeys, by simp, ?_⟩
    intro a ha b hb
    rw [List.mem_singleton] at hb
    rintro rfl
    exact smFind_eq_none.1 ht0 (hb ▸ ha)
  · simp only [keys_update, List.map_append, List.map_cons, List.map_nil]
    rw [List.nodup_append]
    refine ⟨hw.pkeys, by simp, ?_⟩
    intro a ha b hb
    rw [List.mem_singleton] at hb
    rintro rfl
    exact smFind_eq_none.1 hp0 (hb ▸ ha)
  · intro j
    simp only [smFind_update, hfind, smFind_append, hw.agree, smFind]
    by_cases hj : j = id
    · subst hj; simp [hp0]
    · rw [if_neg hj, if_neg hj, if_neg (Ne.symm hj), hf, if_neg hj]; simp
  · simp only [List.length_append, List.length_cons, List.length_nil]
    rw [hw.number]
  · intro j
    simp only [smFind_update, hfind]
    by_cases hj : j = id
    · simp [hj]
    · simp [hj]
  · simp only [hn]
    split
    · next hs =>
      have hmem : id ∈ c.types.map (·.1) := by
        rw [← smFind_isSome, h.agree]
        cases hq : smFind c.props id with
        | none => rw [hq] at hs; simp at hs
        | some q => rfl
      have := List.length_pos_of_mem hmem
      rw [List.length_map] at this
      have := h.number
      omega
    · rfl

theorem update_wf {c : Config D M} (h : c.WF) (id : Str) (f : CProp D M → CProp D M)
    (hf : ∀ p, smFind c.props id = some p → (f p).val.type = p.val.type) :
    ({ c with props := smUpdate c.props id f } : Config D M).WF := by
  refine ⟨h.tkeys, ?_, ?_, h.number⟩
  · simp only [keys_update]; exact h.pkeys
  · intro j
    simp only [smFind_update]
    by_cases hj : j = id
    · subst hj
      rw [if_pos rfl, h.agree]
      cases hp : smFind c.props j with
      | none => rfl
      | some p => simp [hf p hp]
    · rw [if_neg hj, h.agree]

theorem set_spec {c : Config D M} (h : c.WF) (id : Str) (v : CVal D M) :
    match smFind c.props id with
    | none => c.set id v = throw
    | some p => if p.val.type ≠ v.type then c.set id v = throw else
        ∃ c', c.set id v = ok c' ∧ c'.WF ∧ c'.number = c.number ∧
          ∀ j, smFind c'.props j = if j = id then some ⟨v, p.desc⟩ else smFind c.props j := by
  unfold set
  have ha := h.agree id
  cases hp : smFind c.props id with
  | none => rw [hp] at ha; rw [ha]; rfl
  | some p =>
    rw [hp] at ha
    rw [ha]
    simp only [Option.map_some]
    by_cases ht : p.val.type = v.type
    · rw [if_neg (by simp [ht]), if_neg (by simp [ht])]
      simp only [getProp, hp, ht, if_true, ok_bind]
      refine ⟨_, rfl, update_wf h id _ (fun q hq => ?_), rfl, ?_⟩
      · rw [hp] at hq; cases hq; exact ht.symm
      · intro j
        simp only [smFind_update]
        split
        · next hj => rw [hj, hp]; rfl
        · rfl
    · rw [if_pos ht, if_pos ht]

theorem get_spec {c : Config D M} (h : c.WF) (id : Str) (t : CType) :
    c.get id t = match smFind c.props id with
    | none => throw
    | some p => if p.val.type = t then ok p.val else throw := by
  unfold get
  have ha := h.agree id
  cases hp : smFind c.props id with
  | none => rw [hp] at ha; rw [ha]; rfl
  | some p =>
    rw [hp] at ha
    rw [ha]
    simp only [Option.map_some]
    by_cases ht : p.val.type = t
    · subst ht; simp [getProp, hp]
    · simp [ht]

theorem exists_spec {c : Config D M} (h : c.WF) (id : Str) :
    c.exists_ id = (smFind c.props id).isSome := by
  unfold exists_
  rw [h.agree]; simp

theorem reset_spec {c : Config D M} (h : c.WF) : c.reset = ok Config.empty := by
  have key : ∀ (l : SMap CType) (c1 : Config D M), (l.map (·.1)).Nodup →
      (∀ j, (smFind c1.props j).map (·.val.type) = smFind l j) → l.length ≤ c1.number →
      ∃ c2, foldRes (fun (c : Config D M) p => c.removeTyped p.1 p.2) c1 l = ok c2 ∧
        (∀ j, smFind c2.props j = none) ∧ c2.types = c1.types := by
    intro l
    induction l with
    | nil =>
      intro c1 _ h1 _
      refine ⟨c1, rfl, fun j => ?_, rfl⟩
      have := h1 j
      simpa [smFind] using this
    | cons p l ih =>
      intro c1 hnd h1 hl
      obtain ⟨k, t⟩ := p
      rw [List.map_cons, List.nodup_cons] at hnd
      have hk := h1 k
      rw [smFind, if_pos rfl] at hk
      rw [foldRes_cons]
      unfold removeTyped
      cases hp : smFind c1.props k with
      | none => rw [hp] at hk; simp at hk
      | some q =>
        rw [hp] at hk
        simp only [Option.map_some, Option.some.injEq] at hk
        rw [if_neg (by rw [← hk]; exact q.val.type_ne_unknown)]
        simp only [hp, hk, ne_eq, not_true, if_false, ok_bind]
        obtain ⟨c2, h2, h3, h4⟩ := ih { c1 with props := smErase c1.props k, number := usub c1.number 1 }
          hnd.2 (fun j => by
            simp only [smFind_erase]
            by_cases hj : j = k
            · subst hj
              rw [if_pos rfl]
              have : smFind l j = none := smFind_eq_none.2 hnd.1
              simp [this]
            · rw [if_neg hj, h1, smFind, if_neg (Ne.symm hj)])
          (by
            simp only [List.length_cons] at hl
            simp only [usub]
            rw [if_pos (by omega)]; omega)
        exact ⟨c2, h2, h3, h4⟩
  obtain ⟨c2, h1, h2, h3⟩ := key c.types c h.tkeys (fun j => (h.agree j).symm)
    (by rw [h.number])
  unfold reset
  rw [h1, ok_bind]
  have : c2.props = [] := by
    cases hp : c2.props with
    | nil => rfl
    | cons p l =>
      have := h2 p.1
      rw [hp, smFind, if_pos rfl] at this
      simp at this
  simp [Config.empty, this]

/-- Same lookups, same store as far as calls can tell. -/
theorem same_of_find {c c' : Config D M} (h : c.WF) (h' : c'.WF)
    (hf : ∀ j, (smFind c.props j).map (·.val) = (smFind c'.props j).map (·.val)) : c.Same c' := by
  have hfi : ∀ j, (smFind c.props j).isSome = (smFind c'.props j).isSome := by
    intro j
    have := congrArg Option.isSome (hf j)
    simpa using this
  refine ⟨fun j => by rw [exists_spec h, exists_spec h', hfi], fun j t => ?_, ?_⟩
  · rw [get_spec h, get_spec h']
    have := hf j
    cases h1 : smFind c.props j with
    | none => rw [h1] at this; cases h2 : smFind c'.props j with
      | none => rfl
      | some q => rw [h2] at this; simp at this
    | some p => rw [h1] at this; cases h2 : smFind c'.props j with
      | none => rw [h2] at this; simp at this
      | some q =>
        rw [h2] at this
        simp only [Option.map_some, Option.some.injEq] at this
        simp [this]
  · rw [h.number, h'.number]
    have hperm : (c.types.map (·.1)).Perm (c'.types.map (·.1)) := by
      rw [List.perm_ext_iff_of_nodup h.tkeys h'.tkeys]
      intro j
      rw [← smFind_isSome, ← smFind_isSome, h.agree, h'.agree]
      simp [hfi]
    simpa using hperm.length_eq

/-! ### Types and values as text -/

theorem stringToType_typeToString {t : CType} (h : t ≠ .matrix) :
    stringToType (typeToString t) = t := by
  cases t <;> first | decide | exact absurd rfl h

theorem defaultVal_type (io : NumIO D M) {t : CType} (h1 : t ≠ .matrix) (h2 : t ≠ .unknown) :
    ∃ d, defaultVal io t = some d ∧ d.type = t := by
  cases t <;> first | exact ⟨_, rfl, rfl⟩ | exact absurd rfl h1 | exact absurd rfl h2

theorem parseVal_show {io : NumIO D M} {v : CVal D M} (h : v.Readable io) :
    parseVal io v.type (showVal io v) = ok v ∧ v.type ≠ .matrix := by
  refine ⟨?_, by cases h <;> simp [CVal.type]⟩
  cases h with
  | int i h1 h2 => simp [CVal.type, parseVal, showVal, parseInt, stoi_showInt h1 h2]
  | char c => rfl
  | string s => rfl
  | double d h => simp [CVal.type, parseVal, showVal, h]
  | vectorInt v h =>
    simp only [CVal.type, parseVal, showVal]
    rw [parseVector_show]
    · rfl
    · intro x hx
      obtain ⟨h1, h2⟩ := showInt_safe x
      refine ⟨h1, fun c hc => ?_⟩
      rcases h2 c hc with rfl | hd
      · decide
      · exact (isSpace_of_isDigit hd).2.2.2
    · intro x hx
      exact stoi_showInt (h x hx).1 (h x hx).2
  | vectorDouble v h =>
    simp only [CVal.type, parseVal, showVal]
    rw [parseVector_show (fun x hx => (h x hx).2) (fun x hx => (h x hx).1)]
    rfl
  | bool b => cases b <;> rfl
  | uint n h => simp [CVal.type, parseVal, showVal, parseUInt_show h]
  | vectorUInt v h =>
    simp only [CVal.type, parseVal, showVal]
    rw [parseVector_show]
    · rfl
    · intro x hx
      obtain ⟨h1, h2⟩ := showUInt_safe x
      exact ⟨h1, fun c hc => (isSpace_of_isDigit (h2 c hc)).2.2.2⟩
    · intro x hx
      exact parseUInt_show (h x hx)

theorem parseVal_type {io : NumIO D M} {t : CType} {s : Str} {v : CVal D M}
    (h : parseVal io t s = ok v) : v.type = t := by
  cases t <;> simp only [parseVal, reduceCtorEq] at h
  case char => cases h; rfl
  case string => cases h; rfl
  all_goals
    obtain ⟨w, _, hw⟩ := bind_eq_ok.1 h
    cases hw; rfl

theorem convert_spec {io : NumIO D M} {c : Config D M} (h : c.WF) (id type value desc : Str)
    {d v : CVal D M} (hd : defaultVal io (stringToType type) = some d)
    (hp : parseVal io (stringToType type) value = ok v) (ht : d.type = stringToType type) :
    ∃ c', c.convert io id type value desc = (c', ok ()) ∧ c'.WF ∧
      ∀ j, smFind c'.props j = if j = id then some ⟨v, desc⟩ else smFind c.props j := by
  obtain ⟨c1, h1, hw1, hf1, _⟩ := add_spec h id d desc
  have h2 := set_spec hw1 id v
  rw [hf1, if_pos rfl] at h2
  simp only at h2
  rw [if_neg (by rw [ht, parseVal_type hp]; simp)] at h2
  obtain ⟨c2, h3, hw2, _, hf2⟩ := h2
  refine ⟨c2, ?_, hw2, ?_⟩
  · unfold convert
    rw [hd]
    simp only [h1, hp, h3]
  · intro j
    rw [hf2, hf1]
    split <;> rfl

/-- Reading a readable value under its own type name. -/
theorem convert_readable {io : NumIO D M} {c : Config D M} (h : c.WF) (id desc : Str)
    {v : CVal D M} (hv : v.Readable io) :
    ∃ c', c.convert io id (typeToString v.type) (showVal io v) desc = (c', ok ()) ∧ c'.WF ∧
      ∀ j, smFind c'.props j = if j = id then some ⟨v, desc⟩ else smFind c.props j := by
  obtain ⟨hp, hm⟩ := parseVal_show hv
  have hst := stringToType_typeToString hm
  obtain ⟨d, hd, hdt⟩ := defaultVal_type io hm v.type_ne_unknown
  refine convert_spec h id _ _ desc (d := d) (v := v) ?_ ?_ ?_
  · rw [hst, hd]
  · rw [hst, hp]
  · rw [hst, hdt]

theorem convert_wf {io : NumIO D M} {c : Config D M} (h : c.WF) (id type value desc : Str) :
    (c.convert io id type value desc).1.WF := by
  unfold convert
  split
  · exact h
  · next d _ =>
    obtain ⟨c1, h1, hw1, _⟩ := add_spec h id d desc
    rw [h1]
    simp only
    split
    · next v _ =>
      have h2 := set_spec hw1 id v
      split at h2
      · rw [h2]; exact hw1
      · split at h2
        · rw [h2]; exact hw1
        · obtain ⟨c2, h3, hw2, _⟩ := h2
          rw [h3]; exact hw2
    · exact hw1

theorem wf_of_reachable {io : NumIO D M} {c : Config D M} (h : c.Reachable io) : c.WF := by
  induction h with
  | empty => exact WF.empty
  | @add c c' id v desc _ h ih =>
    obtain ⟨c1, h1, hw, _⟩ := add_spec ih id v desc
    rw [h1] at h; cases h; exact hw
  | @set c c' id v _ h ih =>
    have h2 := set_spec ih id v
    split at h2
    · rw [h2] at h; cases h
    · split at h2
      · rw [h2] at h; cases h
      · obtain ⟨c2, h3, hw2, _⟩ := h2
        rw [h3] at h; cases h; exact hw2
  | @setCString c c' id s _ h ih =>
    unfold setCString at h
    split at h
    · cases h
    · obtain ⟨p, hp, h⟩ := bind_eq_ok.1 h
      cases h
      refine update_wf ih id _ (fun q hq => ?_)
      unfold getProp at hp
      rw [hq] at hp
      simp only at hp
      split at hp
      · next ht => exact ht.symm
      · cases hp
  | @remove c c' id _ h ih =>
    obtain ⟨c1, h1, hw, _⟩ := remove_spec ih id
    rw [h1] at h; cases h; exact hw
  | reset _ h ih =>
    rw [reset_spec ih] at h; cases h; exact WF.empty
  | convert _ ih => exact convert_wf ih _ _ _ _

/-! ### Lines -/

theorem readLines_append {x : Str} (hx : '\n' ∉ x) (rest : Str) : ∀ cur,
    readLines cur (x ++ '\n' :: rest) = (cur ++ x) :: readLines [] rest := by
  induction x with
  | nil => intro cur; simp [readLines]
  | cons y x ih =>
    intro cur
    simp only [List.mem_cons, not_or] at hx
    rw [List.cons_append, readLines, if_neg (Ne.symm hx.1), ih hx.2]
    simp

/-- Lines written one after the other are read back, followed by an empty line. -/
theorem readLines_lines {ls : List Str} (h : ∀ l ∈ ls, '\n' ∉ l) :
    readLines [] (ls.flatMap (· ++ ['\n'])) = ls ++ [[]] := by
  induction ls with
  | nil => rfl
  | cons l ls ih =>
    rw [List.flatMap_cons, List.append_assoc, List.singleton_append,
      readLines_append (h l (by simp)), ih (fun m hm => h m (by simp [hm]))]
    rfl

theorem overLines_append (f : Config D M → Str → Config D M × Res Unit) (l1 l2 : List Str) :
    ∀ {c c' : Config D M}, overLines f c l1 = (c', ok ()) →
    overLines f c (l1 ++ l2) = overLines f c' l2 := by
  induction l1 with
  | nil => intro c c' h; simp only [overLines, Prod.mk.injEq, and_true] at h; subst h; rfl
  | cons l l1 ih =>
    intro c c' h
    rw [List.cons_append, overLines]
    rw [overLines] at h
    split
    · next c1 u h1 => rw [h1] at h; exact ih h
    · next c1 e hne h1 =>
      rw [h1] at h
      cases e <;> simp at h
      exact absurd rfl (hne ())

end Config

end Verif
