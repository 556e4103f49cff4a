import Verif.Proofs.TestScenes
import Verif.Props.NoPanic
import Verif.Props.ImportedRender
import Verif.Props.Viewer
import Verif.Props.SceneList

/-!
# C125 — the built-in scenes can be played at any time; C126 — there is something to display
-/

namespace Velato
open FloatOps (lit)
open Decode

/-! ## C125 -/

section
variable {F : Type} [FloatOps F] [Libm F] [Kurbo F]

/-- The layers of the tiger: their names, the positions of their mattes and of their parents. -/
def tigerLayers : List (String × Option Nat × Option Nat) :=
  [("body_crouched 2", none, none), ("body_crouched ", some 0, none), ("head ", none, none),
   ("leg_FF", none, none), ("body mask", none, none), ("body ", some 4, none),
   ("body transi", none, none), ("body 3", none, none), ("body 2", some 7, none),
   ("leg_FB ", none, none), ("leg_RB ", none, none), ("Tail_Mask", none, some 12),
   ("Tail ", some 11, none), ("body shape", none, none)]

theorem tiger_checked (r : Int → Nat → F) : loadedWith (fun c => flat c && starsPass (fun _ => false) c
    && decide (c.width = 1024 ∧ c.height = 1024 ∧
      c.layers.map (fun l => (l.name, l.maskLayer.map (·.2), l.parent)) = tigerLayers ∧
      (c.layers.map fun l => l.geometries.length).sum = 101)) (fromJson (Assets.tiger r)) = true := by
  kernel_decide

/-- **C125.** The tiger is loaded, whatever numbers the parser reads for decimal fractions and in every
arithmetic: 14 layers of 101 outlines with the names, mattes and parents of the document.  It can be
rendered at every frame, with every transform and opacity, any number of times. -/
theorem C125_tiger [KurboPaths F] (read : Int → Nat → F) :
    ∃ c, fromJson (Assets.tiger read) = some (.ok c) ∧ c.width = 1024 ∧ c.height = 1024 ∧
      c.layers.map (fun l => (l.name, l.maskLayer.map (·.2), l.parent)) = tigerLayers ∧
      (c.layers.map fun l => l.geometries.length).sum = 101 ∧
      ∀ (r : Renderer F), Reachable r → ∀ frame T a, ∃ ops, AppendCalls r c frame T a Renderer.new ops := by
  obtain ⟨c, hc, h⟩ := loadedWith_ok (tiger_checked read)
  rw [Bool.and_eq_true, Bool.and_eq_true, decide_eq_true_eq] at h
  obtain ⟨⟨h1, h2⟩, hw, hh, hl, hn⟩ := h
  refine ⟨c, hc, hw, hh, hl, hn, fun r hr frame T a => ?_⟩
  obtain ⟨doc, -, hdoc⟩ := convAnimation_of_fromJson hc
  obtain ⟨r', ops, hops⟩ := C29_returns (imported_paths hdoc) (fun l hl s hs => by
    rw [allLayers_of_flat h1] at hl
    exact absurd (starsPass_iff h2 hl hs) Bool.false_ne_true) (noReferenceCycles_of_flat h1) hr frame T a
  obtain ⟨rfl, -⟩ := (C33_painters_order hr).mp hops
  exact ⟨ops, hops⟩

end

section
variable [Libm F64] [Kurbo F64]

theorem polyStar_checked (r : Int → Nat → F64) : loadedWith (fun c => flat c
    && starsPass (fun s => match s.points with
      | .fixed x => decide (FloatOps.toUsize (FloatOps.round x) ≤ 6)
      | _ => false) c
    && decide (c.width = 512 ∧ c.height = 256 ∧ c.layers.map (·.name) = ["Star", "Polygon"]))
      (fromJson (Assets.polyStar r)) = true := by
  kernel_decide

/-- **C125.** The same for the star and the polygon, in double precision (the number of points of a star is a
float in the document). -/
theorem C125_polyStar [KurboPaths F64] (read : Int → Nat → F64) :
    ∃ c, fromJson (Assets.polyStar read) = some (.ok c) ∧ c.width = 512 ∧ c.height = 256 ∧
      c.layers.map (·.name) = ["Star", "Polygon"] ∧
      ∀ (r : Renderer F64), Reachable r → ∀ frame T a, ∃ ops, AppendCalls r c frame T a Renderer.new ops := by
  obtain ⟨c, hc, h⟩ := loadedWith_ok (polyStar_checked read)
  rw [Bool.and_eq_true, Bool.and_eq_true, decide_eq_true_eq] at h
  obtain ⟨⟨h1, h2⟩, hw, hh, hl⟩ := h
  refine ⟨c, hc, hw, hh, hl, fun r hr frame T a => ?_⟩
  obtain ⟨doc, -, hdoc⟩ := convAnimation_of_fromJson hc
  obtain ⟨r', ops, hops⟩ := C29_returns (imported_paths hdoc) (fun l hl s hs fr => by
    rw [allLayers_of_flat h1] at hl
    have := starsPass_iff h2 hl hs
    unfold AnimStar.pointCount
    split at this
    · rename_i x hx
      rw [hx]
      exact (of_decide_eq_true this).trans (by norm_num)
    · cases this) (noReferenceCycles_of_flat h1) hr frame T a
  obtain ⟨rfl, -⟩ := (C33_painters_order hr).mp hops
  exact ⟨ops, hops⟩

/-- **C125.** Every built-in scene is loaded and displays a picture at all times, wherever the cursor and the
camera are, frame after frame. -/
theorem C125_plays [KurboPaths F64] [KurboBox F64] (read : Int → Nat → F64) {name : String} {scene : TestScene}
    (_h : (name, scene) ∈ testScenes) :
    ∃ c, fromJson (scene.document read) = some (.ok c) ∧ ∀ (r : Renderer F64), Reachable r →
      ∀ elapsed cursor viewport camera, ∃ fuel r' ops texts,
        scene.frame fuel r c elapsed cursor viewport camera = .ok (r', ops, .ok texts) ∧ Reachable r' := by
  cases scene with
  | tiger =>
    obtain ⟨c, hc, -, -, -, -, h⟩ := C125_tiger read
    refine ⟨c, hc, fun r hr el cu vi ca => ?_⟩
    obtain ⟨ops, n, hn⟩ := h r hr (playFrame c el) Affine.identity (lit 1)
    refine ⟨n, Renderer.new, ops.flatMap Op.toScene, splashScreen, ?_, .new⟩
    simp only [TestScene.frame, Renderer.renderToScene, hn]
    rfl
  | polyStar =>
    obtain ⟨c, hc, -, -, -, h⟩ := C125_polyStar read
    refine ⟨c, hc, fun r hr el cu vi ca => ?_⟩
    obtain ⟨ops, n, hn⟩ := h r hr (playFrame c el) Affine.identity (lit 1)
    refine ⟨n, Renderer.new, ops.flatMap Op.toScene, [], ?_, .new⟩
    simp only [TestScene.frame, Renderer.renderToScene, hn]
    rfl
  | picking =>
    obtain ⟨c, hc, -, -, -, -, h⟩ := C125_tiger read
    refine ⟨c, hc, fun r hr el cu vi ca => ?_⟩
    obtain ⟨ops, n, hn⟩ := h r hr (playFrame c el) Affine.identity (lit 1)
    obtain ⟨texts, htexts⟩ := overlays_ok
      (hits := ((Tracker.new (c.layers.map (·.name))).sinkAll ops).1.collected)
      (p := match cu, vi with
        | some cursor, some viewport =>
          some (cursorToScene cursor viewport ⟨FloatOps.ofUsize c.width, FloatOps.ofUsize c.height⟩ ca)
        | _, _ => none)
    refine ⟨n, Renderer.new, ((Tracker.new (c.layers.map (·.name))).sinkAll ops).2, texts, ?_, .new⟩
    simp only [TestScene.frame, pickingFrame, hn]
    cases cu <;> cases vi <;> exact congrArg (fun x => Except.ok (Renderer.new,
      ((Tracker.new (c.layers.map (·.name))).sinkAll ops).2, x)) htexts

end

/-- **C125.** The lines of the splash screen are white, one below the other, 60 units apart, from the left
border. -/
theorem C125_splash {i : Nat} {op : OverlayOp ℝ} (h : splashScreen[i]? = some op) :
    ∃ s, splashLines[i]? = some s ∧
      op = .text (if i = 0 then 60 else 40) ⟨1, 1, 1, 1⟩ ⟨1, 0, 0, 1, 10, 50 + 60 * i⟩ s := by
  unfold splashScreen at h
  rw [List.getElem?_map, Option.map_eq_some_iff] at h
  obtain ⟨⟨s, k⟩, hk, rfl⟩ := h
  rw [List.getElem?_zipIdx, Option.map_eq_some_iff] at hk
  obtain ⟨s', hs, e⟩ := hk
  cases e
  refine ⟨_, hs, ?_⟩
  simp [hoverText, Affine.scale, Affine.scaleNonUniform, Affine.translate, Affine.mul]
  norm_num
  ring

/-- There are seven lines. -/
example : (splashScreen : List (OverlayOp ℝ)).length = 7 := rfl

/-! ## C126 -/

/-- **C126.** With the command for downloads nothing is displayed. -/
theorem C126_command (lower : Text → Text) (loads : PathParts → Bool) (assets : Option PathParts)
    (args : SceneArguments) (h : args.command ≠ none) (scenes : List ChosenScene) :
    selectSceneSet lower loads assets args ≠ .scenes scenes := by
  unfold selectSceneSet
  cases hc : args.command with
  | none => exact absurd hc h
  | some ok => cases ok <;> simp

/-- **C126.** Without arguments the tiger is displayed, if its file can be loaded. -/
theorem C126_default (lower : Text → Text) (loads : PathParts → Bool) (dir : PathParts)
    (h : loads (dir ++ ["google_fonts".toList, "Tiger.json".toList]) = true) :
    selectSceneSet lower loads (some dir) ⟨false, none, none⟩ =
      .scenes [.listed ⟨"Tiger".toList, dir ++ ["google_fonts".toList, "Tiger.json".toList]⟩] := by
  have h1 := (C108_order lower).1 (dir ++ ["google_fonts".toList]) "Tiger".toList (by decide)
  have e : dir ++ ["google_fonts".toList] ++ ["Tiger".toList ++ ".json".toList]
      = dir ++ ["google_fonts".toList, "Tiger.json".toList] := by
    rw [List.append_assoc]
    rfl
  rw [e] at h1
  simp only [selectSceneSet, scenesOfFiles, h1, Bool.false_eq_true, if_false, List.all_cons, h, List.all_nil,
    Bool.and_self, if_true, List.map_cons, List.map_nil]

/-- **C126.** With the flag for them, the built-in scenes are displayed, whatever else is given (and they can be
loaded: C125). -/
theorem C126_test_scenes (lower : Text → Text) (loads : PathParts → Bool) (assets : Option PathParts)
    (files : Option (List SceneArg)) : selectSceneSet lower loads assets ⟨true, files, none⟩ =
      .scenes [.builtIn "Tiger" .tiger, .builtIn "Picking" .picking, .builtIn "PolyStarTest" .polyStar] :=
  rfl

/-- **C126.** Paths are displayed if and only if all directories can be read and all files that the paths stand
for can be loaded. -/
theorem C126_displayed (lower : Text → Text) (loads : PathParts → Bool) (assets : Option PathParts)
    (files : List SceneArg) :
    (∃ scenes, selectSceneSet lower loads assets ⟨false, some files, none⟩ = .scenes scenes) ↔
      (∀ a ∈ files, a.Readable) ∧ ∀ p, (∃ a ∈ files, a.Gives p) → loads p = true := by
  rw [← scenesFromFiles_isSome lower]
  show (∃ scenes, scenesOfFiles lower loads files = _) ↔ _
  unfold scenesOfFiles
  cases h : scenesFromFiles lower files with
  | none => simp
  | some x =>
    obtain ⟨scenes, k⟩ := x
    have hall : (scenes.all fun s => loads s.path) = true ↔
        ∀ p, (∃ a ∈ files, a.Gives p) → loads p = true := by
      rw [List.all_eq_true]
      constructor
      · intro hs p hp
        obtain ⟨l, hl, rfl⟩ := (scenesFromFiles_gives h p).mpr hp
        exact hs l hl
      · exact fun hs l hl => hs _ ((scenesFromFiles_gives h _).mp ⟨l, hl, rfl⟩)
    rw [← hall]
    dsimp only
    split_ifs with hl
    · exact ⟨fun _ => ⟨⟨_, rfl⟩, hl⟩, fun _ => ⟨_, rfl⟩⟩
    · simp [hl]

/-- **C126.** The scenes that are displayed then are those of the files for which the paths stand. -/
theorem C126_scenes {lower : Text → Text} {loads : PathParts → Bool} {assets : Option PathParts}
    {files : List SceneArg} {scenes : List ChosenScene}
    (h : selectSceneSet lower loads assets ⟨false, some files, none⟩ = .scenes scenes) :
    ∃ listed : List ListedScene, scenes = listed.map .listed ∧
      ∀ p, (∃ l ∈ listed, l.path = p) ↔ ∃ a ∈ files, a.Gives p := by
  have h : scenesOfFiles lower loads files = .scenes scenes := h
  unfold scenesOfFiles at h
  cases hf : scenesFromFiles lower files with
  | none => rw [hf] at h; cases h
  | some x =>
    obtain ⟨listed, k⟩ := x
    rw [hf] at h
    dsimp only at h
    split_ifs at h
    cases h
    exact ⟨listed, rfl, scenesFromFiles_gives hf⟩

/-- **C126 (partial).** If one of the paths is a file, or a directory with a file `name.json`, there is a scene to
display, or the application ends.  What is missing: directories without such files
(`C126_counterexample`). -/
theorem C126_something_partial {lower : Text → Text} {loads : PathParts → Bool} {assets : Option PathParts}
    {args : SceneArguments} {scenes : List ChosenScene}
    (hf : ∀ files, args.lotties = some files → ∃ a ∈ files, ∃ p, a.Gives p)
    (h : selectSceneSet lower loads assets args = .scenes scenes) : scenes ≠ [] := by
  obtain ⟨test, lotties, command⟩ := args
  cases command with
  | some ok => exact absurd h (C126_command lower loads assets ⟨test, lotties, some ok⟩ nofun scenes)
  | none =>
    cases test with
    | true =>
      cases h
      nofun
    | false =>
      cases lotties with
      | some files =>
        obtain ⟨listed, rfl, hl⟩ := C126_scenes h
        obtain ⟨a, ha, p, hp⟩ := hf files rfl
        obtain ⟨l, hm, -⟩ := (hl p).mpr ⟨a, ha, hp⟩
        intro he
        rw [List.map_eq_nil_iff] at he
        rw [he] at hm
        cases hm
      | none =>
        cases assets with
        | none => cases h
        | some dir =>
          have h' : selectSceneSet lower loads none
            ⟨false, some [.file (dir ++ ["google_fonts".toList, "Tiger.json".toList])], none⟩ = .scenes scenes := h
          obtain ⟨listed, rfl, hl⟩ := C126_scenes h'
          obtain ⟨l, hm, -⟩ := (hl _).mpr ⟨_, List.mem_singleton_self _, rfl⟩
          intro he
          rw [List.map_eq_nil_iff] at he
          rw [he] at hm
          cases hm

/-- **C126.** The claim is false for a directory with a file that is not called `name.json`: the application starts
without any scene, and its first frame panics. -/
theorem C126_counterexample (lower : Text → Text) (loads : PathParts → Bool) (dir : PathParts) :
    selectSceneSet lower loads none ⟨false, some [.directory dir (some [some "a.lottie".toList])], none⟩
      = .scenes [] ∧
    ∀ (v : Viewer ℝ) r l m, v.run ([] : List ChosenScene).length [.redraw r l m] = .error .remByZero := by
  constructor
  · have h1 := directory_single (lower := lower) (path := dir) (names := ["a.lottie".toList])
    have f1 : (["a.lottie".toList].filter fun n => fileExtension n = some "json".toList) = [] := by
      decide +kernel
    rw [f1] at h1
    rw [List.map_singleton] at h1
    simp only [selectSceneSet, scenesOfFiles, h1, Bool.false_eq_true, if_false]
    rfl
  · exact C99_no_scenes_counterexample.1

/-- Two paths: a file, and a directory with a file `a.json` and another one. -/
example (lower : Text → Text) :
    ∃ scenes, selectSceneSet lower (fun _ => true) none ⟨false, some [.file ["x.json".toList],
      .directory ["d".toList] (some [some "a.json".toList, some "b".toList])], none⟩ = .scenes scenes ∧
      scenes ≠ [] := by
  obtain ⟨scenes, h⟩ := (C126_displayed lower (fun _ => true) none [.file ["x.json".toList],
      .directory ["d".toList] (some [some "a.json".toList, some "b".toList])]).mpr ⟨by
    intro a ha
    rw [List.mem_pair] at ha
    rcases ha with rfl | rfl
    · trivial
    · exact ⟨["a.json".toList, "b".toList], rfl⟩, fun _ _ => rfl⟩
  exact ⟨scenes, h, C126_something_partial (fun files hf => by
    cases hf
    exact ⟨_, List.mem_cons_self, _, rfl⟩) h⟩

end Velato
