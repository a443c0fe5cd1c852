import Verif.ConfigLemmas
import Verif.StringProps

/-
Properties C43 to C48: the configuration store and its files.
-/
namespace Verif

open Res

variable {D M : Type}

/-- Printing and parsing used in the examples: natural numbers play the part of `double`. -/
def exampleIO : NumIO Nat Unit := ⟨0, showUInt, parseUInt, fun _ => "m".toList⟩

/-- Two properties: `n`, an `int` with a description, and `names`, a string. -/
def exampleConfig : Config Nat Unit :=
  ⟨[("names".toList, .string), ("n".toList, .int)],
    [("names".toList, ⟨.string "a b".toList, []⟩), ("n".toList, ⟨.int (-7), "count".toList⟩)], 2⟩

theorem exampleConfig_reachable : exampleConfig.Reachable exampleIO :=
  Config.Reachable.add
    (Config.Reachable.add Config.Reachable.empty (id := "names".toList)
      (v := .string "a b".toList) (desc := []) rfl)
    (id := "n".toList) (v := .int (-7)) (desc := "count".toList) rfl

/-! ### C43 -/

/-- C43: adding a property succeeds, whatever the store; afterwards it has the given value under its
own type and only under that; all other properties are as before; and the number of properties grows
by one exactly if the property is new. -/
theorem c43_add (io : NumIO D M) (c : Config D M) (h : c.Reachable io) (id : Str) (v : CVal D M)
    (desc : Str) :
    ∃ c', c.add id v desc = ok c' ∧ c'.exists_ id = true ∧ c'.get id v.type = ok v ∧
      (∀ t, t ≠ v.type → c'.get id t = throw) ∧
      (∀ j, j ≠ id → c'.exists_ j = c.exists_ j ∧ ∀ t, c'.get j t = c.get j t) ∧
      c'.number = if c.exists_ id then c.number else c.number + 1 := by
  have hw := Config.wf_of_reachable h
  obtain ⟨c', h1, hw', hf, hn⟩ := Config.add_spec hw id v desc
  refine ⟨c', h1, ?_, ?_, ?_, ?_, ?_⟩
  · rw [Config.exists_spec hw', hf, if_pos rfl]; rfl
  · rw [Config.get_spec hw', hf, if_pos rfl]; simp
  · intro t ht
    rw [Config.get_spec hw', hf, if_pos rfl]; simp [Ne.symm ht]
  · intro j hj
    refine ⟨?_, fun t => ?_⟩
    · rw [Config.exists_spec hw', Config.exists_spec hw, hf, if_neg hj]
    · rw [Config.get_spec hw', Config.get_spec hw, hf, if_neg hj]
  · rw [Config.exists_spec hw]; exact hn

/-- C43: setting a value of the right type changes that value and nothing else; a property that does
not exist or has another type makes the call throw. -/
theorem c43_set (io : NumIO D M) (c : Config D M) (h : c.Reachable io) (id : Str) (v : CVal D M) :
    (∀ w, c.get id v.type = ok w → ∃ c', c.set id v = ok c' ∧ c'.get id v.type = ok v ∧
      c'.number = c.number ∧ (∀ j, c'.exists_ j = c.exists_ j) ∧
      (∀ t, t ≠ v.type → c'.get id t = throw) ∧
      ∀ j, j ≠ id → ∀ t, c'.get j t = c.get j t) ∧
    (c.get id v.type = throw → c.set id v = throw) := by
  have hw := Config.wf_of_reachable h
  have hs := Config.set_spec hw id v
  rw [Config.get_spec hw]
  cases hp : smFind c.props id with
  | none =>
    rw [hp] at hs
    exact ⟨fun w hw => by simp at hw, fun _ => hs⟩
  | some p =>
    rw [hp] at hs
    simp only at hs ⊢
    by_cases ht : p.val.type = v.type
    · rw [if_neg (by simp [ht])] at hs
      obtain ⟨c', h1, hw', hn, hf⟩ := hs
      refine ⟨fun w _ => ⟨c', h1, ?_, hn, ?_, ?_, ?_⟩, fun h => by simp [ht] at h⟩
      · rw [Config.get_spec hw', hf, if_pos rfl]; simp
      · intro j
        rw [Config.exists_spec hw', Config.exists_spec hw, hf]
        split
        · next hj => rw [hj, hp]; rfl
        · rfl
      · intro t ht'
        rw [Config.get_spec hw', hf, if_pos rfl]; simp [Ne.symm ht']
      · intro j hj t
        rw [Config.get_spec hw', Config.get_spec hw, hf, if_neg hj]
    · rw [if_pos ht] at hs
      exact ⟨fun w hw => by simp [ht] at hw, fun _ => hs⟩

/-- C43: removing a property removes that one and no other; `Reset` removes all. -/
theorem c43_remove (io : NumIO D M) (c : Config D M) (h : c.Reachable io) (id : Str) :
    (∃ c', c.remove id = ok c' ∧ c'.exists_ id = false ∧
      (∀ j, j ≠ id → c'.exists_ j = c.exists_ j ∧ ∀ t, c'.get j t = c.get j t) ∧
      c'.number = if c.exists_ id then c.number - 1 else c.number) ∧
    ∃ c', c.reset = ok c' ∧ c'.number = 0 ∧ ∀ j, c'.exists_ j = false := by
  have hw := Config.wf_of_reachable h
  obtain ⟨c', h1, hw', hf, hn⟩ := Config.remove_spec hw id
  refine ⟨⟨c', h1, ?_, ?_, ?_⟩, Config.empty, Config.reset_spec hw, rfl, fun _ => rfl⟩
  · rw [Config.exists_spec hw', hf, if_pos rfl]; rfl
  · intro j hj
    refine ⟨?_, fun t => ?_⟩
    · rw [Config.exists_spec hw', Config.exists_spec hw, hf, if_neg hj]
    · rw [Config.get_spec hw', Config.get_spec hw, hf, if_neg hj]
  · rw [Config.exists_spec hw]; exact hn

/-- C43: `NumberProperties` is the number of properties that exist, and reading a property either
returns a value of the type asked for or throws. -/
theorem c43_number (io : NumIO D M) (c : Config D M) (h : c.Reachable io) :
    (∃ ids : List Str, ids.Nodup ∧ (∀ id, id ∈ ids ↔ c.exists_ id = true) ∧
      c.number = ids.length) ∧
    ∀ id t, (∃ v, c.get id t = ok v ∧ v.type = t) ∨ c.get id t = throw := by
  have hw := Config.wf_of_reachable h
  refine ⟨⟨c.types.map (·.1), hw.tkeys, fun id => ?_, by rw [hw.number]; simp⟩, fun id t => ?_⟩
  · rw [← smFind_isSome]; rfl
  · rw [Config.get_spec hw]
    split
    · exact .inr rfl
    · next p _ =>
      by_cases ht : p.val.type = t
      · exact .inl ⟨p.val, by simp [ht], ht⟩
      · exact .inr (by simp [ht])

/-- C43 fails for `SetPropertyValue(id, const char*)`: on a property that is not a string it does not
throw but writes a string into an object of another type. -/
theorem c43_c_string_violated : ∃ (c : Config Nat Unit) (id s : Str), c.Reachable exampleIO ∧
    c.exists_ id = true ∧ c.get id .string = throw ∧ c.setCString id s = ub := by
  refine ⟨⟨[("n".toList, .int)], [("n".toList, ⟨.int 1, []⟩)], 1⟩, "n".toList, "x".toList, ?_, ?_,
    ?_, ?_⟩
  · exact Config.Reachable.add Config.Reachable.empty (id := "n".toList) (v := .int 1) (desc := [])
      rfl
  · rfl
  · rfl
  · rfl

example : ∃ c : Config Nat Unit, c.Reachable exampleIO ∧ c.number = 2 ∧
    c.get "n".toList .int = ok (.int (-7)) ∧ c.get "n".toList .uint = throw ∧
    c.get "m".toList .int = throw := by
  refine ⟨⟨[("names".toList, .string), ("n".toList, .int)],
    [("names".toList, ⟨.string "a b".toList, []⟩), ("n".toList, ⟨.int (-7), "count".toList⟩)], 2⟩,
    ?_, rfl, rfl, rfl, rfl⟩
  exact Config.Reachable.add (Config.Reachable.add Config.Reachable.empty (id := "names".toList)
    (v := .string "a b".toList) (desc := []) rfl) (id := "n".toList) (v := .int (-7))
    (desc := "count".toList) rfl

/-! ### C44 -/

/-- The text of one property contains neither the separator nor a line end. -/
def CsvClean (io : NumIO D M) (sep : Char) (id : Str) (v : CVal D M) (desc : Str) : Prop :=
  ∀ s ∈ [id, typeToString v.type, showVal io v, desc], sep ∉ s ∧ '\n' ∉ s

theorem csvRow_eq {io : NumIO D M} {sep : Char} {c : Config D M} {id : Str} {p : CProp D M}
    (h : smFind c.props id = some p) (text : Str) :
    c.csvRow io sep text (id, p.val.type) =
      ok (text ++ ((id ++ sep :: typeToString p.val.type ++ sep :: showVal io p.val ++ sep :: p.desc)
        ++ ['\n'])) := by
  unfold Config.csvRow Config.forExport Config.getProp
  simp only [h, if_true, ok_bind]
  rw [if_neg p.val.type_ne_unknown]
  simp

theorem csvLine_eq {io : NumIO D M} {sep : Char} (c : Config D M) {id type value desc : Str}
    (h1 : sep ∉ id) (h2 : sep ∉ type) (h3 : sep ∉ value) (h4 : sep ∉ desc) :
    c.csvLine io sep (id ++ sep :: type ++ sep :: value ++ sep :: desc) =
      c.convert io id type value desc := by
  unfold Config.csvLine
  have : id ++ sep :: type ++ sep :: value ++ sep :: desc =
      id ++ sep :: (type ++ sep :: (value ++ sep :: desc)) := by simp
  rw [this, split_append h1, split_append h2, split_append h3]
  by_cases hd : desc = []
  · subst hd; rfl
  · rw [split_single h4 hd]

/-- C44, part that holds: if the text of every property is free of the separator and of line ends and
every value is one whose printed form is read back, then exporting to CSV and importing into an empty
store gives a store with the same properties, types, values and number of properties, and with the
same descriptions.

Missing from the full statement: sets, matrices, `unsigned int` values above the largest `int`, and
floating point values that printing truncates; see the violations below. -/
theorem c44_csv_partial (io : NumIO D M) (c : Config D M) (h : c.Reachable io) (sep : Char)
    (hsep : sep ≠ '\n')
    (hv : ∀ id p, smFind c.props id = some p →
      p.val.Readable io ∧ CsvClean io sep id p.val p.desc) :
    ∃ text c', c.exportCsv io sep false = ok text ∧
      Config.importCsv io sep true Config.empty text = (c', ok ()) ∧ c'.Same c ∧
      ∀ id, smFind c'.props id = smFind c.props id := by
  have hw := Config.wf_of_reachable h
  let line : Str × CType → Str := fun q =>
    match smFind c.props q.1 with
    | none => []
    | some p => q.1 ++ sep :: typeToString p.val.type ++ sep :: showVal io p.val ++ sep :: p.desc
  have hfind : ∀ q ∈ c.types, ∃ p, smFind c.props q.1 = some p ∧ p.val.type = q.2 := by
    intro q hq
    have h1 := (smFind_eq_some hw.tkeys).2 hq
    rw [hw.agree] at h1
    cases hp : smFind c.props q.1 with
    | none => rw [hp] at h1; simp at h1
    | some p => rw [hp] at h1; exact ⟨p, rfl, by simpa using h1⟩
  -- the text
  have htext : ∀ (l : SMap CType) (text : Str), (∀ q ∈ l, q ∈ c.types) →
      foldRes (c.csvRow io sep) text l = ok (text ++ (l.map line).flatMap (· ++ ['\n'])) := by
    intro l
    induction l with
    | nil => intro text _; simp
    | cons q l ih =>
      intro text hl
      obtain ⟨p, hp, ht⟩ := hfind q (hl q (by simp))
      obtain ⟨id, t⟩ := q
      simp only at hp ht
      subst ht
      rw [foldRes_cons, csvRow_eq hp, ok_bind, ih _ (fun q hq => hl q (by simp [hq]))]
      simp [line, hp]
  -- reading the rows
  have hread : ∀ (l : SMap CType) (c1 : Config D M), (∀ q ∈ l, q ∈ c.types) →
      (l.map (·.1)).Nodup → c1.WF →
      ∃ c2, Config.overLines (Config.csvLine io sep) c1 (l.map line) = (c2, ok ()) ∧ c2.WF ∧
        ∀ j, smFind c2.props j = if j ∈ l.map (·.1) then smFind c.props j else smFind c1.props j := by
    intro l
    induction l with
    | nil => intro c1 _ _ hw1; exact ⟨c1, rfl, hw1, by simp⟩
    | cons q l ih =>
      intro c1 hl hnd hw1
      rw [List.map_cons, List.nodup_cons] at hnd
      obtain ⟨p, hp, ht⟩ := hfind q (hl q (by simp))
      obtain ⟨id, t⟩ := q
      simp only at hp ht
      subst ht
      obtain ⟨hr, hcl⟩ := hv id p hp
      obtain ⟨c2, h1, hw2, hf2⟩ := Config.convert_readable hw1 id p.desc hr
      obtain ⟨c3, h3, hw3, hf3⟩ := ih c2 (fun q hq => hl q (by simp [hq])) hnd.2 hw2
      refine ⟨c3, ?_, hw3, ?_⟩
      · rw [List.map_cons, Config.overLines]
        have hline : line (id, p.val.type) = id ++ sep :: typeToString p.val.type ++
            sep :: showVal io p.val ++ sep :: p.desc := by simp [line, hp]
        rw [hline, csvLine_eq c1 (hcl id (by simp)).1 (hcl _ (by simp)).1
          (hcl (showVal io p.val) (by simp)).1 (hcl p.desc (by simp)).1, h1]
        exact h3
      · intro j
        rw [hf3, hf2]
        by_cases hj : j = id
        · subst hj; simp [hp]
        · simp only [List.map_cons, List.mem_cons, hj, false_or, if_false]
  obtain ⟨c', h1, hw', hf'⟩ := hread c.types Config.empty (fun _ h => h) hw.tkeys Config.WF.empty
  have hall : ∀ j, smFind c'.props j = smFind c.props j := by
    intro j
    rw [hf']
    split
    · rfl
    · next hj =>
      rw [← smFind_eq_none, hw.agree] at hj
      have : smFind c.props j = none := by simpa using hj
      rw [this]; rfl
  refine ⟨_, c', htext c.types _ (fun _ h => h), ?_, Config.same_of_find hw' hw (by simp [hall]),
    hall⟩
  · unfold Config.importCsv
    have hlines : ∀ l ∈ c.types.map line, '\n' ∉ l := by
      intro l hl
      obtain ⟨q, hq, rfl⟩ := List.mem_map.1 hl
      obtain ⟨p, hp, _⟩ := hfind q hq
      have hcl := (hv q.1 p hp).2
      simp only [line, hp]
      have h1 := (hcl q.1 (by simp)).2
      have h2 := (hcl (typeToString p.val.type) (by simp)).2
      have h3 := (hcl (showVal io p.val) (by simp)).2
      have h4 := (hcl p.desc (by simp)).2
      simp [h1, h2, h3, h4, Ne.symm hsep]
    have hheader : '\n' ∉ "Id".toList ++ sep :: "Type".toList ++ sep :: "Value".toList ++
        sep :: "Description".toList := by simp [Ne.symm hsep]
    simp only [if_true, Bool.false_eq_true, if_false]
    have : Config.csvHeader sep ++ (c.types.map line).flatMap (· ++ ['\n']) =
        (("Id".toList ++ sep :: "Type".toList ++ sep :: "Value".toList ++
        sep :: "Description".toList) :: c.types.map line).flatMap (· ++ ['\n']) := by
      simp [Config.csvHeader]
    rw [this, Config.readLines_lines (by
      intro l hl
      rcases List.mem_cons.1 hl with rfl | hl
      · exact hheader
      · exact hlines l hl)]
    rw [List.cons_append, List.drop_one, List.tail_cons, Config.overLines_append _ _ _ h1]
    rfl

/-- C44 for sets: the exported text holds all elements, and with brackets in place of the braces it is
read back. -/
theorem c44_set_partial (io : NumIO D M) (c : Config D M) (id : Str) (s : List Nat)
    (hg : c.get id .setUInt = ok (.setUInt s)) (h : ∀ n ∈ s, n < 2147483648)
    (hs : s.Pairwise (· < ·)) :
    ∃ text desc, c.forExport io id .setUInt = ok ('{' :: text ++ ['}'], desc) ∧
      parseVal io .setUInt ('[' :: text ++ [']']) = ok (.setUInt s) := by
  obtain ⟨text, h1, h2⟩ := c23_set_partial s h hs
  obtain ⟨p, hp, hv'⟩ : ∃ p, c.getProp id .setUInt = ok p ∧ p.val = .setUInt s := by
    unfold Config.get at hg
    split at hg
    · cases hg
    · split at hg
      · cases hg
      · rw [bind_eq_ok] at hg
        obtain ⟨p, hp, hv⟩ := hg
        exact ⟨p, hp, by simpa using hv⟩
  refine ⟨text, p.desc, ?_, ?_⟩
  · unfold Config.forExport
    rw [if_neg (by decide), hp, ok_bind, hv']
    show ok (showSet 0 0 showUInt s, p.desc) = _
    rw [h1]
  · show (parseSet _ >>= fun v => ok (CVal.setUInt v)) = _
    rw [h2]
    rfl

example : Config.get (⟨[("s".toList, .setUInt)], [("s".toList, ⟨.setUInt [1, 5], []⟩)], 1⟩ :
    Config Nat Unit) "s".toList .setUInt = ok (.setUInt [1, 5]) := rfl

/-- C44 fails for sets and for large `unsigned int` values: the exported text cannot be imported. A
string that contains the separator is cut. -/
theorem c44_csv_violated :
    (∃ (c : Config Nat Unit) (text : Str), c.Reachable exampleIO ∧
      c.get "s".toList .setUInt = ok (.setUInt [1, 5]) ∧
      c.exportCsv exampleIO ';' false = ok text ∧
      (Config.importCsv exampleIO ';' true Config.empty text).2 = throw) ∧
    (∃ (c : Config Nat Unit) (text : Str), c.Reachable exampleIO ∧
      c.get "u".toList .uint = ok (.uint 3000000000) ∧
      c.exportCsv exampleIO ';' false = ok text ∧
      (Config.importCsv exampleIO ';' true Config.empty text).2 = throw) ∧
    ∃ (c c' : Config Nat Unit) (text : Str), c.Reachable exampleIO ∧
      c.get "p".toList .string = ok (.string "a;b".toList) ∧
      c.exportCsv exampleIO ';' false = ok text ∧
      Config.importCsv exampleIO ';' true Config.empty text = (c', ok ()) ∧
      c'.get "p".toList .string = ok (.string "a".toList) := by
  refine ⟨⟨⟨[("s".toList, .setUInt)], [("s".toList, ⟨.setUInt [1, 5], []⟩)], 1⟩,
      "Id;Type;Value;Description\ns;set_uint;{1,5};\n".toList,
      Config.Reachable.add Config.Reachable.empty (id := "s".toList) (v := .setUInt [1, 5])
        (desc := []) rfl, rfl, rfl, rfl⟩,
    ⟨⟨[("u".toList, .uint)], [("u".toList, ⟨.uint 3000000000, []⟩)], 1⟩,
      "Id;Type;Value;Description\nu;uint;3000000000;\n".toList,
      Config.Reachable.add Config.Reachable.empty (id := "u".toList) (v := .uint 3000000000)
        (desc := []) rfl, rfl, ?_, ?_⟩,
    ⟨⟨[("p".toList, .string)], [("p".toList, ⟨.string "a;b".toList, []⟩)], 1⟩,
      ⟨[("p".toList, .string)], [("p".toList, ⟨.string "a".toList, "b".toList⟩)], 1⟩,
      "Id;Type;Value;Description\np;string;a;b;\n".toList,
      Config.Reachable.add Config.Reachable.empty (id := "p".toList) (v := .string "a;b".toList)
        (desc := []) rfl, rfl, rfl, rfl, rfl⟩⟩
  · decide
  · decide

example : CsvClean exampleIO ';' "n".toList (.int (-7)) "count".toList ∧
    (CVal.int (-7) : CVal Nat Unit).Readable exampleIO ∧
    exampleConfig.exportCsv exampleIO ';' false =
      ok "Id;Type;Value;Description\nnames;string;a b;\nn;int;-7;count\n".toList := by
  refine ⟨?_, .int _ (by decide) (by decide), rfl⟩
  unfold CsvClean
  decide

/-! ### C45 -/

/-- The text of one property can be written on one line of an INI file: neither name nor value is
empty or contains a space or a line end, the name does not begin a comment, and the description has
no line end. -/
structure IniClean (io : NumIO D M) (id : Str) (v : CVal D M) (desc : Str) : Prop where
  id_ne : id ≠ []
  id_head : id.head? ≠ some '#'
  val_ne : showVal io v ≠ []
  id_mem : ' ' ∉ id ∧ '\n' ∉ id
  val_mem : ' ' ∉ showVal io v ∧ '\n' ∉ showVal io v
  desc_mem : '\n' ∉ desc

theorem typeToString_clean (t : CType) : ' ' ∉ typeToString t ∧ '\n' ∉ typeToString t ∧
    typeToString t ≠ [] := by
  cases t <;> decide

theorem overLines_comment {io : NumIO D M} (c : Config D M) (x : Str) (ls : List Str) :
    Config.overLines (Config.iniLine io) c (('#' :: x) :: ls) =
      Config.overLines (Config.iniLine io) c ls := by
  rw [Config.overLines]
  unfold Config.iniLine
  rw [List.headD_cons, if_pos rfl]

theorem iniLine_eq {io : NumIO D M} (c : Config D M) {id type value : Str} (h0 : id ≠ [])
    (hh : id.head? ≠ some '#') (h1 : ' ' ∉ id) (h2 : ' ' ∉ type) (h3 : ' ' ∉ value)
    (h4 : value ≠ []) :
    c.iniLine io (id ++ ' ' :: type ++ ' ' :: value) = c.convert io id type value [] := by
  unfold Config.iniLine
  obtain ⟨x, xs, rfl⟩ := List.exists_cons_of_ne_nil h0
  have hx : x ≠ '#' := by simpa using hh
  simp only [List.cons_append, List.headD_cons, hx, if_false]
  have : x :: (xs ++ ' ' :: type ++ ' ' :: value) = (x :: xs) ++ ' ' :: (type ++ ' ' :: value) := by
    simp
  rw [this, split_append h1, split_append h2, split_single h3 h4]

/-- C45, part that holds: if every property can be written on one line and every value is one whose
printed form is read back, exporting to INI and importing into an empty store gives a store with the
same properties, types, values and number of properties.

Missing from the full statement: what C44 misses, and properties with empty values or with spaces,
see the violation below. Descriptions are written as comments and not read back. -/
theorem c45_ini_partial (io : NumIO D M) (c : Config D M) (h : c.Reachable io) (sect : Str)
    (hsect : '\n' ∉ sect)
    (hv : ∀ id p, smFind c.props id = some p → p.val.Readable io ∧ IniClean io id p.val p.desc) :
    ∃ text c', c.exportIni io false sect = ok text ∧
      Config.importIni io Config.empty text = (c', ok ()) ∧ c'.Same c := by
  have hw := Config.wf_of_reachable h
  let lines : Str × CType → List Str := fun q =>
    match smFind c.props q.1 with
    | none => []
    | some p => List.replicate 53 '#' :: ((if p.desc = [] then [] else ["# ".toList ++ p.desc]) ++
        [q.1 ++ ' ' :: typeToString p.val.type ++ ' ' :: showVal io p.val])
  have hfind : ∀ q ∈ c.types, ∃ p, smFind c.props q.1 = some p ∧ p.val.type = q.2 := by
    intro q hq
    have h1 := (smFind_eq_some hw.tkeys).2 hq
    rw [hw.agree] at h1
    cases hp : smFind c.props q.1 with
    | none => rw [hp] at h1; simp at h1
    | some p => rw [hp] at h1; exact ⟨p, rfl, by simpa using h1⟩
  have htext : ∀ (l : SMap CType) (text : Str), (∀ q ∈ l, q ∈ c.types) →
      foldRes (c.iniRow io) text l = ok (text ++ (l.flatMap lines).flatMap (· ++ ['\n'])) := by
    intro l
    induction l with
    | nil => intro text _; simp
    | cons q l ih =>
      intro text hl
      obtain ⟨p, hp, ht⟩ := hfind q (hl q (by simp))
      obtain ⟨id, t⟩ := q
      simp only at hp ht
      subst ht
      have hcl := (hv id p hp).2
      have hrow : c.iniRow io text (id, p.val.type) =
          ok (text ++ (lines (id, p.val.type)).flatMap (· ++ ['\n'])) := by
        unfold Config.iniRow Config.forExport Config.getProp
        simp only [hp, if_true, ok_bind]
        rw [if_neg p.val.type_ne_unknown]
        simp only [ok_bind]
        rw [if_neg (by simp [hcl.id_ne, hcl.val_ne, (typeToString_clean p.val.type).2.2])]
        simp only [lines, hp]
        by_cases hd : p.desc = []
        · simp [hd]
        · simp [hd]
      rw [foldRes_cons, hrow, ok_bind, ih _ (fun q hq => hl q (by simp [hq]))]
      simp
  have hread : ∀ (l : SMap CType) (c1 : Config D M), (∀ q ∈ l, q ∈ c.types) →
      (l.map (·.1)).Nodup → c1.WF →
      ∃ c2, Config.overLines (Config.iniLine io) c1 (l.flatMap lines) = (c2, ok ()) ∧ c2.WF ∧
        ∀ j, (smFind c2.props j).map (·.val) = if j ∈ l.map (·.1) then
          (smFind c.props j).map (·.val) else (smFind c1.props j).map (·.val) := by
    intro l
    induction l with
    | nil => intro c1 _ _ hw1; exact ⟨c1, rfl, hw1, by simp⟩
    | cons q l ih =>
      intro c1 hl hnd hw1
      rw [List.map_cons, List.nodup_cons] at hnd
      obtain ⟨p, hp, ht⟩ := hfind q (hl q (by simp))
      obtain ⟨id, t⟩ := q
      simp only at hp ht
      subst ht
      obtain ⟨hr, hcl⟩ := hv id p hp
      obtain ⟨c2, h1, hw2, hf2⟩ := Config.convert_readable hw1 id [] hr
      obtain ⟨c3, h3, hw3, hf3⟩ := ih c2 (fun q hq => hl q (by simp [hq])) hnd.2 hw2
      have hblock : Config.overLines (Config.iniLine io) c1 (lines (id, p.val.type)) = (c2, ok ()) := by
        simp only [lines, hp]
        rw [show List.replicate 53 '#' = '#' :: List.replicate 52 '#' from rfl, overLines_comment]
        have hlast : Config.overLines (Config.iniLine io) c1
            [id ++ ' ' :: typeToString p.val.type ++ ' ' :: showVal io p.val] = (c2, ok ()) := by
          rw [Config.overLines, iniLine_eq c1 hcl.id_ne hcl.id_head hcl.id_mem.1
            (typeToString_clean _).1 hcl.val_mem.1 hcl.val_ne, h1]
          rfl
        split
        · exact hlast
        · rw [List.singleton_append]
          exact (overLines_comment c1 _ _).trans hlast
      refine ⟨c3, ?_, hw3, ?_⟩
      · rw [List.flatMap_cons, Config.overLines_append _ _ _ hblock]
        exact h3
      · intro j
        rw [hf3, hf2]
        by_cases hj : j = id
        · subst hj; simp [hp]
        · simp only [List.map_cons, List.mem_cons, hj, false_or, if_false]
  obtain ⟨c', h1, hw', hf'⟩ := hread c.types Config.empty (fun _ h => h) hw.tkeys Config.WF.empty
  refine ⟨_, c', htext c.types _ (fun _ h => h), ?_, Config.same_of_find hw' hw ?_⟩
  · unfold Config.importIni
    have hlines : ∀ l ∈ c.types.flatMap lines, '\n' ∉ l := by
      intro l hl
      obtain ⟨q, hq, hl⟩ := List.mem_flatMap.1 hl
      obtain ⟨p, hp, _⟩ := hfind q hq
      have hcl := (hv q.1 p hp).2
      simp only [lines, hp, List.mem_cons, List.mem_append] at hl
      rcases hl with rfl | hl | hl
      · simp
      · split at hl
        · simp at hl
        · rw [List.mem_singleton] at hl
          subst hl
          have := hcl.desc_mem
          simp [this]
      · simp only [List.not_mem_nil, or_false] at hl
        subst hl
        have h1 := hcl.id_mem.2
        have h2 := (typeToString_clean p.val.type).2.1
        have h3 := hcl.val_mem.2
        simp [h1, h2, h3]
    by_cases hs : sect = []
    · subst hs
      simp only [ne_eq, not_true, and_false, if_false, List.nil_append]
      rw [Config.readLines_lines hlines, Config.overLines_append _ _ _ h1]
      rfl
    · simp only [ne_eq, hs, not_false_eq_true, and_self, if_true]
      have : "# ".toList ++ sect ++ ['\n'] ++ (c.types.flatMap lines).flatMap (· ++ ['\n']) =
          (("# ".toList ++ sect) :: c.types.flatMap lines).flatMap (· ++ ['\n']) := by simp
      rw [this, Config.readLines_lines (by
        intro l hl
        rcases List.mem_cons.1 hl with rfl | hl
        · simp [hsect]
        · exact hlines l hl)]
      rw [List.cons_append]
      refine (overLines_comment _ _ _).trans ?_
      rw [Config.overLines_append _ _ _ h1]
      rfl
  · intro j
    rw [hf']
    split
    · rfl
    · next hj =>
      rw [← smFind_eq_none, hw.agree] at hj
      have : smFind c.props j = none := by simpa using hj
      rw [this]; rfl

/-- C45 fails for a string with a space, which is dropped without an error, and for an empty string,
which is not even written. -/
theorem c45_ini_violated :
    (∃ (c c' : Config Nat Unit) (text : Str), c.Reachable exampleIO ∧
      c.get "p".toList .string = ok (.string "a b".toList) ∧
      c.exportIni exampleIO false [] = ok text ∧
      Config.importIni exampleIO Config.empty text = (c', ok ()) ∧
      c'.exists_ "p".toList = false) ∧
    ∃ (c c' : Config Nat Unit) (text : Str), c.Reachable exampleIO ∧
      c.get "p".toList .string = ok (.string []) ∧
      c.exportIni exampleIO false [] = ok text ∧
      Config.importIni exampleIO Config.empty text = (c', ok ()) ∧
      c'.exists_ "p".toList = false :=
  ⟨⟨⟨[("p".toList, .string)], [("p".toList, ⟨.string "a b".toList, []⟩)], 1⟩, Config.empty,
      List.replicate 53 '#' ++ "\np string a b\n".toList,
      Config.Reachable.add Config.Reachable.empty (id := "p".toList) (v := .string "a b".toList)
        (desc := []) rfl, rfl, rfl, rfl, rfl⟩,
    ⟨⟨[("p".toList, .string)], [("p".toList, ⟨.string [], []⟩)], 1⟩, Config.empty, [],
      Config.Reachable.add Config.Reachable.empty (id := "p".toList) (v := .string [])
        (desc := []) rfl, rfl, rfl, rfl, rfl⟩⟩

example : IniClean exampleIO "n".toList (.int (-7)) "a count".toList :=
  ⟨by decide, by decide, by decide, by decide, by decide, by decide⟩

/-! ### C46 -/

/-- C46, part that holds: the name of a type is read back as that type, in any mixture of lower and
upper case, except for matrices. -/
theorem c46_type_names_partial (t : CType) (h : t ≠ .matrix) (s : Str)
    (hs : toLower s = toLower (typeToString t)) : stringToType s = t := by
  have : stringToType s = stringToType (typeToString t) := by
    unfold stringToType; rw [hs]
  rw [this, Config.stringToType_typeToString h]

/-- C46 fails for matrices: the name is compared with "Matrix" after conversion to lower case. No
text at all is read as the matrix type. -/
theorem c46_matrix_violated : stringToType (typeToString .matrix) = .unknown ∧
    ∀ s, stringToType s ≠ .matrix := by
  refine ⟨by decide, fun s => ?_⟩
  unfold stringToType
  have hM : toLower s ≠ "Matrix".toList := by
    intro h
    unfold toLower at h
    cases s with
    | nil => simp at h
    | cons c s =>
      have h1 : c.toLower = 'M' := by
        have := congrArg List.head? h
        simpa using this
      unfold Char.toLower at h1
      split at h1
      · next hc =>
        have h2 := congrArg (fun c : Char => c.val.toNat) h1
        have h3 : 65 ≤ c.val.toNat := UInt32.le_iff_toNat_le.1 hc.1
        have h4 : c.val.toNat ≤ 90 := UInt32.le_iff_toNat_le.1 hc.2
        simp only [UInt32.toNat_add, UInt32.toNat_sub] at h2
        have h5 : 'a'.val.toNat = 97 := rfl
        have h6 : 'A'.val.toNat = 65 := rfl
        have h7 : 'M'.val.toNat = 77 := rfl
        rw [h5, h6, h7] at h2
        omega
      · next hc => subst h1; exact hc (by decide)
  simp only [hM, if_false]
  repeat' split
  all_goals simp

example : stringToType "Vector_INT".toList = .vectorInt := by decide

/-! ### C47 -/

/-- C47, part that holds: when `ConvertPropertyFromString` throws, all other properties are as
before; and the whole store is as before if the type is not known.

Missing from the full statement: the property itself, see the violation below. -/
theorem c47_failed_conversion_partial (io : NumIO D M) (c c' : Config D M) (h : c.Reachable io)
    (id type value desc : Str) (hc : c.convert io id type value desc = (c', throw)) :
    (∀ j, j ≠ id → c'.exists_ j = c.exists_ j ∧ ∀ t, c'.get j t = c.get j t) ∧
    (stringToType type = .unknown → c' = c) := by
  have hw := Config.wf_of_reachable h
  unfold Config.convert at hc
  split at hc
  · cases hc
    exact ⟨fun _ _ => ⟨rfl, fun _ => rfl⟩, fun _ => rfl⟩
  · next d hd =>
    obtain ⟨c1, h1, hw1, hf1, _⟩ := Config.add_spec hw id d desc
    rw [h1] at hc
    simp only at hc
    have hc1 : c' = c1 := by
      split at hc
      · next v _ =>
        have h2 := Config.set_spec hw1 id v
        split at h2
        · rw [h2] at hc; cases hc; rfl
        · split at h2
          · rw [h2] at hc; cases hc; rfl
          · obtain ⟨c2, h3, _⟩ := h2
            rw [h3] at hc; cases hc
      · injection hc with hc _; exact hc.symm
    subst hc1
    refine ⟨fun j hj => ⟨?_, fun t => ?_⟩, fun ht => ?_⟩
    · rw [Config.exists_spec hw1, Config.exists_spec hw, hf1, if_neg hj]
    · rw [Config.get_spec hw1, Config.get_spec hw, hf1, if_neg hj]
    · rw [ht] at hd; cases hd

/-- C47 fails for the property itself: a text that cannot be parsed replaces the old value by 0. -/
theorem c47_failed_conversion_violated : ∃ (c c' : Config Nat Unit) (id type value : Str),
    c.Reachable exampleIO ∧ c.get id .int = ok (.int 5) ∧
    c.convert exampleIO id type value [] = (c', throw) ∧ c'.get id .int = ok (.int 0) :=
  ⟨⟨[("n".toList, .int)], [("n".toList, ⟨.int 5, []⟩)], 1⟩,
    ⟨[("n".toList, .int)], [("n".toList, ⟨.int 0, []⟩)], 1⟩, "n".toList, "int".toList, "abc".toList,
    Config.Reachable.add Config.Reachable.empty (id := "n".toList) (v := .int 5) (desc := []) rfl,
    rfl, rfl, rfl⟩

/-! ### C48 -/

/-- The format text with the two separators. -/
def formatText (s1 s2 : Char) : Str :=
  "id".toList ++ s1 :: "type".toList ++ s2 :: "value".toList

theorem findSeparator_format (s1 s2 : Char) :
    findSeparator (formatText s1 s2) "id".toList "type".toList = ok s1 ∧
    findSeparator (formatText s1 s2) "type".toList "value".toList = ok s2 := by
  constructor <;> simp [formatText, findSeparator, strFind, List.isPrefixOf, vget]

theorem splitMany_two (s1 s2 : Char) (s : Str) :
    splitMany [s1, s2] s = (split s1 s).flatMap (split s2) := by
  simp [splitMany]

/-- C48, part that holds: with the format `id?type?value`, for any two separators, an argument made
of a name, a type and a value, none of them empty and none containing a separator, is converted as
exactly that; the other arguments are processed in order.

Missing from the full statement: arguments with an empty value, see the violation below. -/
theorem c48_arguments_partial (io : NumIO D M) (c : Config D M) (s1 s2 : Char) (id type value : Str)
    (args : List Str) (h1 : id ≠ []) (h2 : type ≠ []) (h3 : value ≠ [])
    (hs : ∀ s ∈ [id, type, value], s1 ∉ s ∧ s2 ∉ s) :
    c.initArgs io ((id ++ s1 :: type ++ s2 :: value) :: args) (formatText s1 s2) =
      match c.convert io id type value [] with
      | (c', ok _) => c'.initArgs io args (formatText s1 s2)
      | (c', e) => (c', e) := by
  simp only [List.mem_cons, List.not_mem_nil, or_false, forall_eq_or_imp, forall_eq] at hs
  obtain ⟨⟨a1, a2⟩, ⟨b1, b2⟩, d1, d2⟩ := hs
  have hsplit : splitMany [s1, s2] (id ++ s1 :: type ++ s2 :: value) = [id, type, value] := by
    rw [splitMany_two]
    have : id ++ s1 :: type ++ s2 :: value = id ++ s1 :: (type ++ s2 :: value) := by simp
    rw [this, split_append a1, List.flatMap_cons, split_single a2 h1]
    by_cases h12 : s1 = s2
    · subst h12
      rw [split_append b1, split_single d1 h3, List.flatMap_cons, split_single b1 h2,
        List.flatMap_cons, split_single d1 h3]
      rfl
    · rw [split_single (by simp [b1, d1, h12]) (by simp), List.flatMap_cons, split_append b2,
        split_single d2 h3]
      rfl
  unfold Config.initArgs
  rw [(findSeparator_format s1 s2).1, (findSeparator_format s1 s2).2]
  simp only
  rw [Config.overLines]
  unfold Config.argLine
  rw [hsplit]
  simp only
  rcases c.convert io id type value [] with ⟨c', r⟩
  cases r <;> rfl

/-- C48, further part: an argument made of a name and a value only is stored as a string. -/
theorem c48_untyped_argument (io : NumIO D M) (c : Config D M) (h : c.Reachable io) (s1 s2 : Char)
    (id value : Str) (h1 : id ≠ []) (h3 : value ≠ [])
    (hs : ∀ s ∈ [id, value], s1 ∉ s ∧ s2 ∉ s) :
    ∃ c', c.initArgs io [id ++ s2 :: value] (formatText s1 s2) = (c', ok ()) ∧
      c'.get id .string = ok (.string value) ∧
      ∀ j, j ≠ id → c'.exists_ j = c.exists_ j ∧ ∀ t, c'.get j t = c.get j t := by
  simp only [List.mem_cons, List.not_mem_nil, or_false, forall_eq_or_imp, forall_eq] at hs
  obtain ⟨⟨a1, a2⟩, d1, d2⟩ := hs
  have hsplit : splitMany [s1, s2] (id ++ s2 :: value) = [id, value] := by
    rw [splitMany_two]
    by_cases h12 : s1 = s2
    · subst h12
      rw [split_append a1, split_single d1 h3, List.flatMap_cons, split_single a1 h1,
        List.flatMap_cons, split_single d1 h3]
      rfl
    · rw [split_single (by simp [a1, d1, h12]) (by simp), List.flatMap_cons, split_append a2,
        split_single d2 h3]
      rfl
  have hw := Config.wf_of_reachable h
  obtain ⟨c', hc, hw', hf⟩ := Config.convert_readable (io := io) hw id [] (v := .string value)
    (.string _)
  refine ⟨c', ?_, ?_, fun j hj => ⟨?_, fun t => ?_⟩⟩
  · unfold Config.initArgs
    rw [(findSeparator_format s1 s2).1, (findSeparator_format s1 s2).2]
    simp only
    rw [Config.overLines]
    unfold Config.argLine
    rw [hsplit]
    simp only
    have : c.convert io id "string".toList value [] = (c', ok ()) := hc
    rw [this]
    rfl
  · rw [Config.get_spec hw', hf, if_pos rfl]; rfl
  · rw [Config.exists_spec hw', Config.exists_spec hw, hf, if_neg hj]
  · rw [Config.get_spec hw', Config.get_spec hw, hf, if_neg hj]

/-- C48 fails for an empty value: the argument `path:string=` stores the word "string" as the value
of `path`, and `n:int=` turns an integer property into the string "int". -/
theorem c48_empty_value_violated :
    (∃ c' : Config Nat Unit, Config.initArgs exampleIO Config.empty ["path:string=".toList]
        (formatText ':' '=') = (c', ok ()) ∧
      c'.get "path".toList .string = ok (.string "string".toList)) ∧
    ∃ c c' : Config Nat Unit, c.Reachable exampleIO ∧ c.get "n".toList .int = ok (.int 5) ∧
      c.initArgs exampleIO ["n:int=".toList] (formatText ':' '=') = (c', ok ()) ∧
      c'.get "n".toList .string = ok (.string "int".toList) :=
  ⟨⟨⟨[("path".toList, .string)], [("path".toList, ⟨.string "string".toList, []⟩)], 1⟩, rfl, rfl⟩,
    ⟨⟨[("n".toList, .int)], [("n".toList, ⟨.int 5, []⟩)], 1⟩,
      ⟨[("n".toList, .string)], [("n".toList, ⟨.string "int".toList, []⟩)], 1⟩,
      Config.Reachable.add Config.Reachable.empty (id := "n".toList) (v := .int 5) (desc := []) rfl,
      rfl, rfl, rfl⟩⟩

example : formatText ':' '=' = "id:type=value".toList := rfl

example : ∃ c' : Config Nat Unit, Config.initArgs exampleIO Config.empty
    ["n:int=-7".toList, "skipped".toList, "p=x".toList] (formatText ':' '=') = (c', ok ()) ∧
    c'.get "n".toList .int = ok (.int (-7)) ∧ c'.get "p".toList .string = ok (.string "x".toList) :=
  ⟨⟨[("n".toList, .int), ("p".toList, .string)],
    [("n".toList, ⟨.int (-7), []⟩), ("p".toList, ⟨.string "x".toList, []⟩)], 2⟩, rfl, rfl, rfl⟩

end Verif
