import Verif.FilePathModel

/-
What the parts of a file name are, and what `mkdir` does.
-/
namespace Verif

/-- The text does not contain a separator of folders. -/
def NoSeparator (s : Str) : Prop := '/' ∉ s ∧ '\\' ∉ s

/-- The text of an extension, with its dot. -/
def dotted : Option Str → Str
  | some e => '.' :: e
  | none => []

/-- The text `s` consists of the folder `dir`, which is empty or ends with a separator, the name `base` and the extension with its dot;
the name and the extension have no separator, and the dot is the last one behind the folder. -/
structure PartsOf (s dir base : Str) (extension : Option Str) : Prop where
  joined : s = dir ++ base ++ dotted extension
  folder : dir = [] ∨ ∃ d c, dir = d ++ [c] ∧ (c = '/' ∨ c = '\\')
  name : NoSeparator base
  suffix : ∀ e, extension = some e → NoSeparator e ∧ '.' ∉ e
  plain : extension = none → '.' ∉ base

/-- A set of folders, each given by the names on the way to it. -/
abbrev Folders := List Str → Prop

/-- The names on the way to the folder with the given path: empty names and the name "." do not count. A path with the name ".." is not
described. -/
def wayTo (path : Str) : Option (List Str) :=
  if ['.', '.'] ∈ split '/' path then none else some ((split '/' path).filter fun f => f ≠ [] ∧ f ≠ ['.'])

/-- `mkdir`: the folder is made if the folder it belongs to exists. All paths start from the same folder. -/
def Made (F : Folders) (path : Str) (F' : Folders) : Prop :=
  ∃ w, wayTo path = some w ∧ ∀ d, F' d ↔ F d ∨ d = w ∧ F w.dropLast

/-- The calls of `mkdir` one after the other. -/
inductive MadeAll : Folders → List Str → Folders → Prop
  | nil (F) : MadeAll F [] F
  | cons {F F' F'' p ps} : Made F p F' → MadeAll F' ps F'' → MadeAll F (p :: ps) F''

end Verif
