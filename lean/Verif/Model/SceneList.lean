import Verif.Model.Download
import Mathlib.Data.List.Sort

/-!
# `/repo/examples/scenes/src/lottie.rs`: the scenes for the paths on the command line

What the file system says about a path is a parameter.  `str::to_lowercase` is a parameter, too.  Names of
files are valid Unicode, so that `to_string_lossy` changes nothing.  Loading a file (`lottie_function_of`) is
not part of this.
-/

namespace Velato

/-- A path on the command line: a file (or nothing at all), or a directory with what `read_dir` yields: `none`
if it fails, and for each entry its name, `none` if reading the entry fails.  Used at
`lottie.rs:43-70`. -/
inductive SceneArg where
  | file (path : PathParts)
  | directory (path : PathParts) (entries : Option (List (Option Text)))
  deriving DecidableEq, Repr, Inhabited

/-- An `ExampleScene`: its name and the path of its file.  Used at `lottie.rs:74-90`. -/
structure ListedScene where
  name : Text
  path : PathParts
  deriving DecidableEq, Repr, Inhabited

/-- `Path::extension` of a component other than `..`: the part after the last dot, unless there is nothing
before it.  Used at `lottie.rs:54-55`. -/
def fileExtension (file : Text) : Option Text :=
  match file.rfind ['.'] with
  | some (i + 1) => some (file.drop (i + 2))
  | _ => none

/-- `example_scene_of` (`lottie.rs:77-93`). -/
def exampleSceneOf (path : PathParts) : ListedScene :=
  match path.getLast? with
  | none => ⟨"unknown".toList, path⟩
  | some file => ⟨if file = ['.', '.'] then "unknown".toList else fileStem file, path⟩

/-- The loop over the entries of a directory (`lottie.rs:52-60`): the scenes, in the order of the entries. -/
def directoryScenes (path : PathParts) : List (Option Text) → Option (List ListedScene)
  | [] => some []
  | none :: _ => none
  | some name :: rest =>
    match directoryScenes path rest with
    | none => none
    | some scenes =>
      some (if fileExtension name = some "json".toList then exampleSceneOf (path ++ [name]) :: scenes
        else scenes)

/-- `sort_by_key(|scene| scene.config.name.to_lowercase())` (`lottie.rs:62`), a stable sort (the algorithm is
another one in the code, the result is the same); strings are compared by their code points. -/
def sortScenes (lower : Text → Text) (scenes : List ListedScene) : List ListedScene :=
  scenes.insertionSort fun a b => lower a.name ≤ lower b.name

/-- `scene_from_files_inner` (`lottie.rs:44-75`): the scenes and how often `empty_dir` is called, `none` for an
error. -/
def scenesFromFiles (lower : Text → Text) : List SceneArg → Option (List ListedScene × Nat)
  | [] => some ([], 0)
  | .file path :: rest =>
    match scenesFromFiles lower rest with
    | none => none
    | some (scenes, empty) => some (exampleSceneOf path :: scenes, empty)
  | .directory _ none :: _ => none
  | .directory path (some entries) :: rest =>
    match directoryScenes path entries with
    | none => none
    | some found =>
      match scenesFromFiles lower rest with
      | none => none
      | some (scenes, empty) =>
        some (sortScenes lower found ++ scenes, if found.length = 0 then empty + 1 else empty)

end Velato
