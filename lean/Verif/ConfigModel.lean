import Verif.StringModel

/-
Model of `GeDiM/src/IO/Configurations.{hpp,cpp}` and
`GeDiM/src/IO/ConfigurationPropertySupportedTypes.hpp`.

The two static hash maps are association lists, in the order in which a program would iterate them.
Files are texts; opening and closing files is not modelled. `double` and `MatrixXd` are types `D`
and `M` whose printing and parsing are parameters (`NumIO`).
-/
namespace Verif

open Res

/-! ### `std::unordered_map<std::string, T>` -/

abbrev SMap (β : Type) := List (Str × β)

/-- `find`. -/
def smFind {β : Type} (m : SMap β) (k : Str) : Option β :=
  match m with
  | [] => none
  | p :: m => if p.1 = k then some p.2 else smFind m k

/-- `insert`: does nothing if the key is present. -/
def smInsert {β : Type} (m : SMap β) (k : Str) (b : β) : SMap β :=
  match smFind m k with
  | some _ => m
  | none => m ++ [(k, b)]

/-- `erase`. -/
def smErase {β : Type} (m : SMap β) (k : Str) : SMap β := m.filter fun p => p.1 ≠ k

/-- Assignment to the object found under a key. -/
def smUpdate {β : Type} (m : SMap β) (k : Str) (f : β → β) : SMap β :=
  m.map fun p => if p.1 = k then (p.1, f p.2) else p

/-! ### Types and values -/

/-- `SupportedTypes` (`GeDiM/src/IO/ConfigurationPropertySupportedTypes.hpp:26-40`). -/
inductive CType
  | unknown | int | char | string | double | vectorInt | vectorDouble | bool | setUInt | uint
  | vectorUInt | matrix
  deriving DecidableEq, Repr

/-- A value together with its type; `GetSupportedType<K>`
(`GeDiM/src/IO/ConfigurationPropertySupportedTypes.hpp:43-81`) knows these and no other types. -/
inductive CVal (D M : Type)
  | int (i : Int) | char (c : Char) | string (s : Str) | double (d : D) | vectorInt (v : List Int)
  | vectorDouble (v : List D) | bool (b : Bool) | setUInt (s : List Nat) | uint (n : Nat)
  | vectorUInt (v : List Nat) | matrix (m : M)
  deriving DecidableEq

/-- `GetSupportedType` (`GeDiM/src/IO/ConfigurationPropertySupportedTypes.hpp:43-81`). -/
def CVal.type {D M : Type} : CVal D M → CType
  | .int _ => .int
  | .char _ => .char
  | .string _ => .string
  | .double _ => .double
  | .vectorInt _ => .vectorInt
  | .vectorDouble _ => .vectorDouble
  | .bool _ => .bool
  | .setUInt _ => .setUInt
  | .uint _ => .uint
  | .vectorUInt _ => .vectorUInt
  | .matrix _ => .matrix

/-- `TypeToString` (`GeDiM/src/IO/ConfigurationPropertySupportedTypes.hpp:89-118`). -/
def typeToString : CType → Str
  | .int => "int".toList
  | .char => "char".toList
  | .string => "string".toList
  | .double => "double".toList
  | .vectorInt => "vector_int".toList
  | .vectorDouble => "vector_double".toList
  | .bool => "bool".toList
  | .uint => "uint".toList
  | .setUInt => "set_uint".toList
  | .vectorUInt => "vector_uint".toList
  | .matrix => "Matrix".toList
  | .unknown => "unknown".toList

/-- `StringToType` (`GeDiM/src/IO/ConfigurationPropertySupportedTypes.hpp:121-149`). -/
def stringToType (s : Str) : CType :=
  let l := toLower s
  if l = "int".toList then .int
  else if l = "char".toList then .char
  else if l = "string".toList then .string
  else if l = "double".toList then .double
  else if l = "vector_int".toList then .vectorInt
  else if l = "vector_double".toList then .vectorDouble
  else if l = "bool".toList then .bool
  else if l = "set_uint".toList then .setUInt
  else if l = "uint".toList then .uint
  else if l = "vector_uint".toList then .vectorUInt
  else if l = "Matrix".toList then .matrix
  else .unknown

/-- Printing and parsing of floating point numbers, which the model leaves open. -/
structure NumIO (D M : Type) where
  zeroD : D
  showD : D → Str
  readD : Str → Res D
  showM : M → Str

/-! ### The store -/

/-- `ConfigurationProperty<T>` (`GeDiM/src/IO/Configurations.hpp:26-31`). -/
structure CProp (D M : Type) where
  val : CVal D M
  desc : Str

/-- The static members (`GeDiM/src/IO/Configurations.hpp:39-41`). -/
structure Config (D M : Type) where
  types : SMap CType
  props : SMap (CProp D M)
  number : Nat

variable {D M : Type}

namespace Config

/-- The initial values of the static members (`GeDiM/src/IO/Configurations.cpp:24-26`). -/
def empty : Config D M := ⟨[], [], 0⟩

/-- `ExistsProperty` (`GeDiM/src/IO/Configurations.hpp:96-99`). -/
def exists_ (c : Config D M) (id : Str) : Bool := (smFind c.types id).isSome

/-- `RemoveProperty(id, type)` (`GeDiM/src/IO/Configurations.cpp:29-72`). Deleting an object through
a pointer of another type is undefined; deleting a null pointer does nothing. -/
def removeTyped (c : Config D M) (id : Str) (t : CType) : Res (Config D M) :=
  if t = .unknown then throw
  else
    match smFind c.props id with
    | some p =>
      if p.val.type ≠ t then ub
      else ok { c with props := smErase c.props id, number := usub c.number 1 }
    | none => ok { c with props := smErase c.props id, number := usub c.number 1 }

/-- `RemoveProperty(id)` (`GeDiM/src/IO/Configurations.cpp:513-520`). -/
def remove (c : Config D M) (id : Str) : Res (Config D M) :=
  match smFind c.types id with
  | none => ok c
  | some t => do
    let c ← c.removeTyped id t
    ok { c with types := smErase c.types id }

/-- `GetProperty<T>` (`GeDiM/src/IO/Configurations.hpp:53-56`): a cast of the stored pointer. A null
pointer or an object of another type is undefined behaviour. -/
def getProp (c : Config D M) (id : Str) (t : CType) : Res (CProp D M) :=
  match smFind c.props id with
  | none => ub
  | some p => if p.val.type = t then ok p else ub

/-- `AddProperty<T>` (`GeDiM/src/IO/Configurations.hpp:113-132`); the overload for `const char*`
(`GeDiM/src/IO/Configurations.cpp:240-253`) does the same for strings. -/
def add (c : Config D M) (id : Str) (v : CVal D M) (desc : Str) : Res (Config D M) := do
  let c ← c.remove id
  let c : Config D M :=
    { types := smInsert c.types id v.type, props := smInsert c.props id ⟨v, []⟩,
      number := c.number + 1 }
  let _ ← c.getProp id v.type
  ok { c with props := smUpdate c.props id fun _ => ⟨v, desc⟩ }

/-- `SetPropertyValue<T>` (`GeDiM/src/IO/Configurations.hpp:138-152`). -/
def set (c : Config D M) (id : Str) (v : CVal D M) : Res (Config D M) :=
  match smFind c.types id with
  | none => throw
  | some t =>
    if t ≠ v.type then throw
    else do
      let _ ← c.getProp id v.type
      ok { c with props := smUpdate c.props id fun p => ⟨v, p.desc⟩ }

/-- `SetPropertyValue(id, const char*)` (`GeDiM/src/IO/Configurations.cpp:255-262`): no check of the
type. -/
def setCString (c : Config D M) (id : Str) (s : Str) : Res (Config D M) :=
  match smFind c.types id with
  | none => throw
  | some _ => do
    let _ ← c.getProp id .string
    ok { c with props := smUpdate c.props id fun p => ⟨.string s, p.desc⟩ }

/-- `GetPropertyValue<T>` (`GeDiM/src/IO/Configurations.hpp:158-173`). -/
def get (c : Config D M) (id : Str) (t : CType) : Res (CVal D M) :=
  match smFind c.types id with
  | none => throw
  | some t' =>
    if t' ≠ t then throw
    else do
      let p ← c.getProp id t
      ok p.val

/-- `Reset` (`GeDiM/src/IO/Configurations.cpp:499-511`). -/
def reset (c : Config D M) : Res (Config D M) := do
  let c ← foldRes (fun (c : Config D M) p => c.removeTyped p.1 p.2) c c.types
  ok { c with types := [], number := 0 }

end Config

/-! ### Text -/

/-- The value part of `GetPropertyForExport` (`GeDiM/src/IO/Configurations.cpp:74-147`). -/
def showVal (io : NumIO D M) : CVal D M → Str
  | .int i => showInt i
  | .char c => [c]
  | .string s => s
  | .double d => io.showD d
  | .vectorInt v => showVector 0 0 showInt v
  | .vectorDouble v => showVector 0 0 io.showD v
  | .bool b => if b then ['1'] else ['0']
  | .setUInt s => showSet 0 0 showUInt s
  | .uint n => showUInt n
  | .vectorUInt v => showVector 0 0 showUInt v
  | .matrix m => io.showM m

/-- The parsers called by `ConvertPropertyFromString`
(`GeDiM/src/IO/Configurations.cpp:149-238`). -/
def parseVal (io : NumIO D M) (t : CType) (s : Str) : Res (CVal D M) :=
  match t with
  | .int => do let v ← parseInt s; ok (.int v)
  | .char => ok (.char (parseChar s))
  | .string => ok (.string s)
  | .double => do let v ← io.readD s; ok (.double v)
  | .vectorInt => do let v ← parseVector parseInt s; ok (.vectorInt v)
  | .vectorDouble => do let v ← parseVector io.readD s; ok (.vectorDouble v)
  | .bool => do let v ← parseBool s; ok (.bool v)
  | .setUInt => do let v ← parseSet s; ok (.setUInt v)
  | .uint => do let v ← parseUInt s; ok (.uint v)
  | .vectorUInt => do let v ← parseVector parseUInt s; ok (.vectorUInt v)
  | .matrix => throw
  | .unknown => throw

/-- The default value `T()` passed to `AddProperty` in `ConvertPropertyFromString`. -/
def defaultVal (io : NumIO D M) : CType → Option (CVal D M)
  | .int => some (.int 0)
  | .char => some (.char (Char.ofNat 0))
  | .string => some (.string [])
  | .double => some (.double io.zeroD)
  | .vectorInt => some (.vectorInt [])
  | .vectorDouble => some (.vectorDouble [])
  | .bool => some (.bool false)
  | .setUInt => some (.setUInt [])
  | .uint => some (.uint 0)
  | .vectorUInt => some (.vectorUInt [])
  | .matrix => none
  | .unknown => none

/-- The outcome of a call without its value. -/
def Res.void {α : Type} : Res α → Res Unit
  | ok _ => ok ()
  | abort => abort
  | throw => throw
  | ub => ub
  | loop => loop

namespace Config

/-- `ConvertPropertyFromString` (`GeDiM/src/IO/Configurations.cpp:149-238`): the store after the call
and the outcome. The property is added with a default value before the text is parsed, so the store
has changed when the parser throws. -/
def convert (io : NumIO D M) (c : Config D M) (id type value desc : Str) : Config D M × Res Unit :=
  match defaultVal io (stringToType type) with
  | none => (c, throw)
  | some d =>
    match c.add id d desc with
    | ok c1 =>
      match parseVal io (stringToType type) value with
      | ok v =>
        match c1.set id v with
        | ok c2 => (c2, ok ())
        | e => (c1, e.void)
      | e => (c1, e.void)
    | e => (c, e.void)

/-- The lines that `while (!eof) getline(...)` reads: the pieces between line ends, including the
empty one after the last line end. -/
def readLines (cur : Str) : Str → List Str
  | [] => [cur]
  | x :: xs => if x = '\n' then cur :: readLines [] xs else readLines (cur ++ [x]) xs

/-- Body of the loop of `InitializeFromCsv` (`GeDiM/src/IO/Configurations.cpp:276-325`) for a line that
is not the header. -/
def csvLine (io : NumIO D M) (sep : Char) (c : Config D M) (line : Str) : Config D M × Res Unit :=
  match split sep line with
  | [id, value] => c.convert io id "string".toList value []
  | [id, type, value] => c.convert io id type value []
  | [id, type, value, desc] => c.convert io id type value desc
  | _ => (c, ok ())

/-- A loop over lines that ends with the first exception. -/
def overLines (f : Config D M → Str → Config D M × Res Unit) (c : Config D M) :
    List Str → Config D M × Res Unit
  | [] => (c, ok ())
  | l :: ls =>
    match f c l with
    | (c1, ok _) => overLines f c1 ls
    | (c1, e) => (c1, e)

/-- `InitializeFromCsv` (`GeDiM/src/IO/Configurations.cpp:264-326`) on the text of the file. -/
def importCsv (io : NumIO D M) (sep : Char) (hasHeader : Bool) (c : Config D M) (text : Str) :
    Config D M × Res Unit :=
  overLines (csvLine io sep) c
    (if hasHeader then (readLines [] text).drop 1 else readLines [] text)

/-- Body of the loop of `InitializeFromIni` (`GeDiM/src/IO/Configurations.cpp:341-379`). `line[0]` of an
empty line is the null character. -/
def iniLine (io : NumIO D M) (c : Config D M) (line : Str) : Config D M × Res Unit :=
  if line.headD (Char.ofNat 0) = '#' then (c, ok ())
  else
    match split ' ' line with
    | [id, value] => c.convert io id "string".toList value []
    | [id, type, value] => c.convert io id type value []
    | _ => (c, ok ())

/-- `InitializeFromIni` (`GeDiM/src/IO/Configurations.cpp:328-382`) on the text of the file. -/
def importIni (io : NumIO D M) (c : Config D M) (text : Str) : Config D M × Res Unit :=
  overLines (iniLine io) c (readLines [] text)

/-- Body of the loop of `Initialize` (`GeDiM/src/IO/Configurations.cpp:389-414`). -/
def argLine (io : NumIO D M) (s1 s2 : Char) (c : Config D M) (arg : Str) : Config D M × Res Unit :=
  match splitMany [s1, s2] arg with
  | [id, value] => c.convert io id "string".toList value []
  | [id, type, value] => c.convert io id type value []
  | _ => (c, ok ())

/-- `Initialize` (`GeDiM/src/IO/Configurations.cpp:384-415`). -/
def initArgs (io : NumIO D M) (c : Config D M) (args : List Str) (format : Str) :
    Config D M × Res Unit :=
  match findSeparator format "id".toList "type".toList with
  | ok s1 =>
    match findSeparator format "type".toList "value".toList with
    | ok s2 => overLines (argLine io s1 s2) c args
    | e => (c, e.void)
  | e => (c, e.void)

/-- `GetPropertyForExport` (`GeDiM/src/IO/Configurations.cpp:74-147`). -/
def forExport (io : NumIO D M) (c : Config D M) (id : Str) (t : CType) : Res (Str × Str) := do
  if t = .unknown then throw
  else
    let p ← c.getProp id t
    ok (showVal io p.val, p.desc)

/-- One row of `ExportToCsv` (`GeDiM/src/IO/Configurations.cpp:436-453`). -/
def csvRow (io : NumIO D M) (sep : Char) (c : Config D M) (text : Str) (q : Str × CType) :
    Res Str := do
  let p ← c.forExport io q.1 q.2
  ok (text ++ q.1 ++ sep :: typeToString q.2 ++ sep :: p.1 ++ sep :: p.2 ++ ['\n'])

/-- The header line of `ExportToCsv` (`GeDiM/src/IO/Configurations.cpp:429-435`). -/
def csvHeader (sep : Char) : Str :=
  "Id".toList ++ sep :: "Type".toList ++ sep :: "Value".toList ++ sep :: "Description".toList ++
    ['\n']

/-- `ExportToCsv` (`GeDiM/src/IO/Configurations.cpp:417-456`): the text written. -/
def exportCsv (io : NumIO D M) (sep : Char) (append : Bool) (c : Config D M) : Res Str :=
  foldRes (csvRow io sep c) (if append then [] else csvHeader sep) c.types

/-- One row of `ExportToIni` (`GeDiM/src/IO/Configurations.cpp:473-494`). -/
def iniRow (io : NumIO D M) (c : Config D M) (text : Str) (q : Str × CType) : Res Str := do
  let p ← c.forExport io q.1 q.2
  if q.1 = [] ∨ p.1 = [] ∨ typeToString q.2 = [] then ok text
  else
    ok (text ++ List.replicate 53 '#' ++ ['\n'] ++
      (if p.2 = [] then [] else "# ".toList ++ p.2 ++ ['\n']) ++
      q.1 ++ ' ' :: typeToString q.2 ++ ' ' :: p.1 ++ ['\n'])

/-- `ExportToIni` (`GeDiM/src/IO/Configurations.cpp:458-497`): the text written. -/
def exportIni (io : NumIO D M) (append : Bool) (sect : Str) (c : Config D M) : Res Str :=
  foldRes (iniRow io c)
    (if append = false ∧ sect ≠ [] then "# ".toList ++ sect ++ ['\n'] else []) c.types

end Config

end Verif
