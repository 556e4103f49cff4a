import Verif.Model.TigerJson
import Verif.Model.PolyStarJson
import Verif.Model.Decode
import Verif.Model.Overlay
import Verif.Model.SceneList

/-!
# `/repo/examples/scenes/src/{test_scenes,lib}.rs`: the built-in scenes, and which scenes are displayed

The documents are `Model/TigerJson.lean` and `Model/PolyStarJson.lean`.  Whether a file can be read and loaded,
where the directory with the assets is, and whether the download command succeeds are parameters.  `parse_color`
(`lib.rs:155-157`) is left to the `color` crate.
-/

namespace Velato
open FloatOps (lit)

/-- The functions of the built-in scenes (`test_scenes.rs:64-83`, `picking.rs:35`). -/
inductive TestScene where
  | tiger
  | picking
  | polyStar
  deriving DecidableEq, Repr, Inhabited

/-- `test_scenes` (`test_scenes.rs:29-36`): the names and functions. -/
def testScenes : List (String × TestScene) :=
  [("Tiger", .tiger), ("Picking", .picking), ("PolyStarTest", .polyStar)]

section
variable {F : Type}

/-- The document that a built-in scene loads (`test_scenes.rs:65-68, 77-80`, `picking.rs:36-39`). -/
def TestScene.document (r : Int → Nat → F) : TestScene → Json F
  | .tiger => Assets.tiger r
  | .picking => Assets.tiger r
  | .polyStar => Assets.polyStar r

variable [FloatOps F]

/-- The lines of the splash screen (`test_scenes.rs:40-49`), not on the web. -/
def splashLines : List String :=
  ["Velato Demo",
   "  Arrow keys: switch scenes",
   "  Space: reset transform",
   "  S: toggle stats",
   "  V: toggle vsync",
   "  M: cycle AA method",
   "  Q, E: rotate"]

/-- `splash_screen` (`test_scenes.rs:39-62`).  Text without a brush is white
(`simple_text.rs:116`). -/
def splashScreen : List (OverlayOp F) :=
  let a := (Affine.scale (lit 1)).mul (Affine.translate ⟨lit (-90), lit (-50)⟩)
  splashLines.zipIdx.map fun p =>
    let textSize : F := if p.2 = 0 then lit 60 else lit 40
    .text textSize hoverText
      (a.mul (Affine.translate ⟨lit 100, lit 100 +. lit 60 *. FloatOps.ofUsize p.2⟩)) p.1

/-- One frame of a built-in scene (`test_scenes.rs:70-73, 82`, `lottie.rs:100-118`, `picking.rs:48-121`): the
calls on the scene, and the texts and overlays on top. -/
def TestScene.frame [Libm F] [Kurbo F] [KurboBox F] (scene : TestScene) (fuel : Nat) (r : Renderer F)
    (c : Composition F) (elapsed : F) (cursor viewport : Option (P2 F)) (camera : Affine F) :
    Except Fault (Renderer F × List (SceneOp F) × Except ViewerPanic (List (OverlayOp F))) :=
  match scene with
  | .tiger => do
    let (r', out) ← r.renderToScene fuel c (playFrame c elapsed) Affine.identity (lit 1)
    .ok (r', out, .ok splashScreen)
  | .polyStar => do
    let (r', out) ← r.renderToScene fuel c (playFrame c elapsed) Affine.identity (lit 1)
    .ok (r', out, .ok [])
  | .picking => do
    let (r', out, hits, hovered) ← pickingFrame fuel r c elapsed cursor viewport camera
    .ok (r', out, pickingOverlays c cursor viewport camera hits hovered)

end

/-- `Arguments` (`lib.rs:85-104`): the flag for the built-in scenes, the paths (at least one, if there are
any), and for the download command whether it succeeds.  The base colour is not part of this. -/
structure SceneArguments where
  testScenes : Bool
  lotties : Option (List SceneArg)
  command : Option Bool
  deriving DecidableEq, Repr, Inhabited

/-- A scene to display: a built-in one, or one that is loaded from a file.  Used at
`lib.rs:115-140`. -/
inductive ChosenScene where
  | builtIn (name : String) (scene : TestScene)
  | listed (scene : ListedScene)
  deriving DecidableEq, Repr, Inhabited

/-- What `select_scene_set` results in: nothing to display, the scenes to display, or an error or panic (in both
cases there is no window).  Used at `lib.rs:114-141`. -/
inductive SceneChoice where
  | nothing
  | scenes (scenes : List ChosenScene)
  | failure
  deriving DecidableEq, Repr, Inhabited

/-- The scenes of files (`lottie.rs:22-42, 77-100`): each file is loaded at once, and a file that cannot be
loaded is a panic. -/
def scenesOfFiles (lower : Text → Text) (loads : PathParts → Bool) (files : List SceneArg) : SceneChoice :=
  match scenesFromFiles lower files with
  | none => .failure
  | some (scenes, _) =>
    if scenes.all fun s => loads s.path then .scenes (scenes.map .listed) else .failure

/-- `Arguments::select_scene_set` (`lib.rs:114-141`) with `default_scene` (`lottie.rs:26-41`); `assets` is the
directory `../assets/`, if it exists.  `Tiger.json` is taken not to be a directory. -/
def selectSceneSet (lower : Text → Text) (loads : PathParts → Bool) (assets : Option PathParts)
    (args : SceneArguments) : SceneChoice :=
  match args.command with
  | some ok => if ok then .nothing else .failure
  | none =>
    if args.testScenes then .scenes (testScenes.map fun s => .builtIn s.1 s.2)
    else
      match args.lotties with
      | some lotties => scenesOfFiles lower loads lotties
      | none =>
        match assets with
        | none => .failure
        | some dir =>
          scenesOfFiles lower loads [.file (dir ++ ["google_fonts".toList, "Tiger.json".toList])]

end Velato
