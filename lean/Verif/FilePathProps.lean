import Verif.FilePathLemmas

/-
C129 and C130: file names are taken apart, and folders are made.
-/
namespace Verif

open Res

/-! ### C129 -/

/-- C129, the part that holds: the name of a file is taken apart in folder, name and extension, also if the last dot is in the folder.

Missing from the full statement: if there is no folder or no extension, the argument keeps the value from before the call instead of
becoming empty, see below. -/
theorem c129_parts_partial {s : Str} (hs : s.length < 2 ^ 64) (oldPath oldExtension : Str) :
    ∃ dir base extension, PartsOf s dir base extension ∧
      getFilePath s oldPath oldExtension = ok (if dir = [] then oldPath else dir, base, extension.getD oldExtension) :=
  getFilePath_spec hs oldPath oldExtension

/-- C129: with empty strings as arguments the result is the one way to take the name apart. -/
theorem c129_unique_partial {s dir base : Str} {extension : Option Str} (hs : s.length < 2 ^ 64)
    (h : PartsOf s dir base extension) : getFilePath s [] [] = ok (dir, base, extension.getD []) := by
  obtain ⟨d, b, e, h1, h2⟩ := getFilePath_spec hs [] []
  obtain ⟨rfl, rfl, rfl⟩ := h1.unique h
  rw [h2]
  by_cases hd : d = []
  · rw [if_pos hd, hd]
  · rw [if_neg hd]

/-- C129 fails: a file without folder gets the folder that was in the argument before. -/
theorem c129_stale_violated : ∃ s old dir base extension, PartsOf s dir base extension ∧ s.length < 2 ^ 64 ∧ dir = [] ∧
    getFilePath s old [] = ok (old, base, extension.getD []) ∧ old ≠ dir :=
  ⟨"a.txt".toList, "old/".toList, [], "a".toList, some "txt".toList,
    ⟨by decide, .inl rfl, by unfold NoSeparator; decide, by rintro e ⟨⟩; unfold NoSeparator; decide, by simp⟩, by decide, rfl,
    by decide +kernel, by decide⟩

example : getFilePath "../mesh.v2/Cell0Ds.csv".toList [] [] = ok ("../mesh.v2/".toList, "Cell0Ds".toList, "csv".toList) ∧
    getFilePath "../mesh.v2/Cell0Ds".toList [] [] = ok ("../mesh.v2/".toList, "Cell0Ds".toList, []) ∧
    getFilePath "./Cell0Ds".toList [] "old".toList = ok ("./".toList, "Cell0Ds".toList, "old".toList) ∧
    getFilePath "a.tar.gz".toList [] [] = ok ([], "a.tar".toList, "gz".toList) := by
  decide +kernel

/-- The names of the example can be taken apart. -/
example : PartsOf "../mesh.v2/Cell0Ds".toList "../mesh.v2/".toList "Cell0Ds".toList none :=
  ⟨by decide, .inr ⟨"../mesh.v2".toList, '/', by decide, .inl rfl⟩, by unfold NoSeparator; decide, by simp, by decide⟩

/-! ### C130 -/

/-- C130: afterwards the folder and those on the way to it exist, and no others are made. -/
theorem c130_folders {name : Str} {w : List Str} (hw : wayTo name = some w) {F F' : Folders} (h0 : F [])
    (h : MadeAll F (createFolder name) F') (d : List Str) : F' d ↔ F d ∨ d <+: w := by
  unfold wayTo at hw
  split at hw
  · cases hw
  · rename_i hd
    cases hw
    have := (madeAll_spec (split '/' name) [] F (fun f hf => not_mem_of_mem_split hf) hd h0).2 F' h d
    rw [this]
    simp

/-- C130: the calls have a result. -/
theorem c130_defined {name : Str} {w : List Str} (hw : wayTo name = some w) {F : Folders} (h0 : F []) :
    ∃ F', MadeAll F (createFolder name) F' := by
  unfold wayTo at hw
  split at hw
  · cases hw
  · rename_i hd
    exact (madeAll_spec (split '/' name) [] F (fun f hf => not_mem_of_mem_split hf) hd h0).1

/-- C130: every folder that is asked for is the start of the given path. -/
theorem c130_start {name p : Str} (hp : p ∈ createFolder name) : p <+: name ++ ['/'] :=
  (mkdirCalls_prefix (split '/' name) [] p hp).trans (slashed_split name)

example : createFolder "./Export/./Mesh".toList = ["./Export/".toList, "./Export/./Mesh/".toList] ∧
    createFolder "/tmp//a/".toList = ["/".toList, "/tmp/".toList, "/tmp//".toList, "/tmp//a/".toList] ∧
    wayTo "./Export/./Mesh".toList = some ["Export".toList, "Mesh".toList] ∧
    wayTo "/tmp//a/".toList = some ["tmp".toList, "a".toList] := by
  decide +kernel

end Verif
