import Verif.Model.SceneList

/-!
# Specification: which files are scenes
-/

namespace Velato

/-- The name of a file in a directory ends in `.json`, with something before it. -/
def IsJsonFile (name : Text) : Prop := ∃ stem, stem ≠ [] ∧ name = stem ++ ".json".toList

/-- The path on the command line stands for the file `p`: it is this file, or a directory in which it is
listed as `name.json`. -/
def SceneArg.Gives (p : PathParts) : SceneArg → Prop
  | .file q => p = q
  | .directory dir entries =>
    ∃ es name, entries = some es ∧ some name ∈ es ∧ IsJsonFile name ∧ p = dir ++ [name]

/-- If the path on the command line is a directory, it and its entries can be read. -/
def SceneArg.Readable : SceneArg → Prop
  | .file _ => True
  | .directory _ entries => ∃ names : List Text, entries = some (names.map some)

end Velato
