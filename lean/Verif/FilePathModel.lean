import Verif.StringModel

/-
The names of files and folders: `GetFilePath` and `CreateFolder` (`GeDiM/src/IO/IOUtilities.cpp:87-108`, `:136-156`). A `size_t`
has 64 bits.
-/
namespace Verif

open Res

/-- `find_last_of`: the last position of a character of the given kind. -/
def findLastOf (p : Char → Bool) : Str → Option Nat
  | [] => none
  | x :: xs =>
    match findLastOf p xs with
    | some i => some (i + 1)
    | none => if p x = true then some 0 else none

/-- `substr(pos, n)` of `std::string`. -/
def substr (s : Str) (pos n : Nat) : Res Str := if s.length < pos then throw else ok ((s.drop pos).take n)

/-- `a - b - 1` for numbers of type `size_t` (`GeDiM/src/IO/IOUtilities.cpp:145`). -/
def sizeBetween (a b : Nat) : Nat := (a + 2 ^ 64 - (b + 1)) % 2 ^ 64

/-- `fileName` of `GetFilePath` (`GeDiM/src/IO/IOUtilities.cpp:144-151`). -/
def fileNameOf (s : Str) : Option Nat → Option Nat → Res Str
  | some p, some e => substr s (p + 1) (sizeBetween e p)
  | some p, none => substr s (p + 1) s.length
  | none, some e => substr s 0 e
  | none, none => ok s

/-- `fileExtension` of `GetFilePath` (`GeDiM/src/IO/IOUtilities.cpp:153-154`); `old` is the value before the call. -/
def fileExtensionOf (s old : Str) : Option Nat → Option Nat → Res Str
  | some p, some e => if p < e then substr s (e + 1) s.length else ok old
  | none, some e => substr s (e + 1) s.length
  | _, none => ok old

/-- `filePath` of `GetFilePath` (`GeDiM/src/IO/IOUtilities.cpp:141-142`); `old` is the value before the call. -/
def filePathOf (s old : Str) : Option Nat → Res Str
  | some p => substr s 0 (p + 1)
  | none => ok old

/-- `GetFilePath` (`GeDiM/src/IO/IOUtilities.cpp:136-156`): the values of `filePath`, `fileName` and `fileExtension` after the call.
`oldPath` and `oldExtension` are the values before it; the value of `fileName` is always replaced. -/
def getFilePath (s oldPath oldExtension : Str) : Res (Str × Str × Str) := do
  let p := findLastOf (fun c => c == '/' || c == '\\') s
  let e := findLastOf (fun c => c == '.') s
  let path ← filePathOf s oldPath p
  let name ← fileNameOf s p e
  let extension ← fileExtensionOf s oldExtension p e
  ok (path, name, extension)

/-- The loop of `CreateFolder` (`GeDiM/src/IO/IOUtilities.cpp:92-107`): the arguments of the calls of `mkdir`, in order. The text in
`nameFolderPath` is `path`. -/
def mkdirCalls (path : Str) : List Str → List Str
  | [] => []
  | f :: fs => if f = ['.'] then mkdirCalls (path ++ f ++ ['/']) fs else (path ++ f ++ ['/']) :: mkdirCalls (path ++ f ++ ['/']) fs

/-- `CreateFolder` (`GeDiM/src/IO/IOUtilities.cpp:87-108`): the arguments of the calls of `mkdir`. `Output::StringSplit`
(`:109-120`) is the same program as `StringsUtilities::Split`. The results of `mkdir` are not used. -/
def createFolder (name : Str) : List Str := mkdirCalls [] (split '/' name)

end Verif
