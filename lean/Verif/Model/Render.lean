import Verif.Model.Scene

/-!
# `/repo/src/runtime/render.rs`

The sink (`RenderSink`, `render.rs:14-43`) has no return values, so an execution is described by
the list of calls made on it, in order.  Panics are modelled for a build with debug assertions and
overflow checks.
-/

namespace Velato
open FloatOps (lit)

/-- Shapes passed to `push_layer` / `push_clip_layer`: a `kurbo::Rect` or a slice of elements.
Used at `render.rs:15-23,68-70,113-131`. -/
inductive ClipShape (F : Type) where
  | rect (x0 y0 x1 y1 : F)
  | path (els : List (PathEl F))
  deriving DecidableEq, Repr, Inhabited

/-- One call on the `RenderSink` (`render.rs:14-43`). -/
inductive Op (F : Type) where
  | pushLayer (blend : BlendMode) (alpha : F) (transform : Affine F) (shape : ClipShape F)
  | pushClip (transform : Affine F) (shape : ClipShape F)
  | pop
  | draw (stroke : Option (KStroke F)) (transform : Affine F) (brush : Brush F)
      (path : List (PathEl F))
  | beginGroup (name : String) (index : Nat)
  | endGroup
  deriving DecidableEq, Repr, Inhabited

/-- `GeometryData` (`render.rs:276-281`): a range into `Batch::elements` and a transform. -/
structure GeometryData (F : Type) where
  start : Nat
  stop : Nat
  transform : Affine F
  deriving DecidableEq, Repr, Inhabited

/-- `DrawData` (`render.rs:253-260`): `gstart..gstop` is the range into `Batch::geometries`. -/
structure DrawData (F : Type) where
  stroke : Option (KStroke F)
  brush : Brush F
  alpha : F
  gstart : Nat
  gstop : Nat
  deriving DecidableEq, Repr, Inhabited

/-- `Batch` (`render.rs:283-294`). -/
structure Batch (F : Type) where
  elements : List (PathEl F)
  geometries : List (GeometryData F)
  draws : List (DrawData F)
  repeatGeometries : List (GeometryData F)
  repeatDraws : List (DrawData F)
  drawnGeometry : Nat
  trimElements : List (PathEl F)
  deriving DecidableEq, Repr, Inhabited

/-- `Renderer` (`render.rs:45-50`). -/
structure Renderer (F : Type) where
  batch : Batch F
  maskElements : List (PathEl F)
  deriving DecidableEq, Repr, Inhabited

/-- `Batch::default()`, and the state after `Batch::clear` (`render.rs:492-500`). -/
def Batch.empty {F : Type} : Batch F := ⟨[], [], [], [], [], 0, []⟩

/-- `Batch::clear` (`render.rs:492-500`). -/
def Batch.clear {F : Type} (_b : Batch F) : Batch F := ⟨[], [], [], [], [], 0, []⟩

/-- `Renderer::new` (`render.rs:53-56`). -/
def Renderer.new {F : Type} : Renderer F := ⟨Batch.empty, []⟩

/-- `&v[s..e]`: panics unless `s ≤ e ≤ len`.  Used at `render.rs:328-333,374-394`. -/
def sliceRange {α : Type} (l : List α) (s e : Nat) : Except Fault (List α) :=
  if s ≤ e ∧ e ≤ l.length then .ok ((l.take e).drop s) else .error (.panic .sliceIndex)

/-- `usize` subtraction (overflow checks on).  Used at `render.rs:360,362`. -/
def checkedSub (a b : Nat) : Except Fault Nat :=
  if b ≤ a then .ok (a - b) else .error (.panic .underflow)

section
variable {F : Type} [FloatOps F] [Libm F] [Kurbo F]

/-- `DrawData::new` (`render.rs:262-274`). -/
def DrawData.new (draw : Draw F) (alpha : F) (gstart gstop : Nat) (frame : F) : DrawData F where
  stroke := draw.stroke.map (fun s => s.evaluate frame)
  brush := draw.brush.evaluate (lit 1) frame
  alpha := alpha *. draw.opacity.evaluate frame /. lit 100
  gstart := gstart
  gstop := gstop

omit [Libm F] [Kurbo F] in
/-- The merge condition (`render.rs:302-303`). -/
def Batch.canMerge (b : Batch F) (transform : Affine F) : Bool :=
  decide (b.drawnGeometry < b.geometries.length)
    && (match b.geometries.getLast? with
        | some g => g.transform.beq transform
        | none => false)

/-- `Batch::push_geometry` (`render.rs:297-316`). -/
def Batch.pushGeometry (b : Batch F) (g : Geometry F) (transform : Affine F) (frame : F) :
    Except Fault (Batch F) := do
  let els ← g.evaluate frame
  let elements := b.elements ++ els
  if b.canMerge transform then
    match b.geometries.getLast? with
    | some last =>
      .ok { b with
        elements := elements
        geometries := b.geometries.dropLast ++ [{ last with stop := elements.length }] }
    | none => .ok { b with elements := elements }
  else
    .ok { b with
      elements := elements
      geometries := b.geometries ++ [⟨b.elements.length, elements.length, transform⟩] }

/-- `Batch::push_draw` (`render.rs:318-326`). -/
def Batch.pushDraw (b : Batch F) (d : Draw F) (alpha : F) (geometryStart : Nat) (frame : F) :
    Batch F :=
  { b with
    draws := b.draws ++ [DrawData.new d alpha geometryStart b.geometries.length frame]
    drawnGeometry := b.geometries.length }

omit [Kurbo F] in
/-- The repeated geometries (`render.rs:335-342`). -/
def repeatGeomList (r : FixedRepeater F) (gs : List (GeometryData F)) : List (GeometryData F) :=
  gs.flatMap fun g =>
    (List.range r.copies).map fun i => { g with transform := g.transform.mul (r.transform i) }

omit [Libm F] [Kurbo F] in
/-- The alpha of copy `i` (`render.rs:345-354`). -/
def repeatAlpha (r : FixedRepeater F) (i : Nat) : F :=
  let startAlpha := r.startOpacity /. lit 100
  let endAlpha := r.endOpacity /. lit 100
  let deltaAlpha :=
    if 1 < r.copies then (endAlpha -. startAlpha) /. FloatOps.ofUsize r.copies else lit 0
  startAlpha +. deltaAlpha *. FloatOps.ofUsize i

omit [Libm F] [Kurbo F] in
/-- One repeated draw (`render.rs:358-365`).  The products with `copies` cannot overflow: they are
bounded by the number of geometries already pushed. -/
def repeatDraw (r : FixedRepeater F) (geometryStart : Nat) (alpha : F) (d : DrawData F) :
    Except Fault (DrawData F) := do
  let count ← checkedSub d.gstop d.gstart
  let off ← checkedSub d.gstart geometryStart
  let gstart := geometryStart + off * r.copies
  .ok { d with alpha := d.alpha *. alpha, gstart := gstart, gstop := gstart + count * r.copies }

omit [Libm F] [Kurbo F] in
/-- The repeated draws (`render.rs:353-366`). -/
def repeatDrawList (r : FixedRepeater F) (geometryStart : Nat) (ds : List (DrawData F)) :
    Except Fault (List (DrawData F)) := do
  let per ← (List.range r.copies).mapM fun i =>
    let alpha := repeatAlpha r i
    if alpha <=. lit 0 then .ok []
    else ds.mapM (repeatDraw r geometryStart alpha)
  .ok per.flatten

omit [Kurbo F] in
/-- `Batch::repeat` (`render.rs:328-372`). -/
def Batch.repeat (b : Batch F) (r : FixedRepeater F) (geometryStart drawStart : Nat) :
    Except Fault (Batch F) := do
  let drainedG ← sliceRange b.geometries geometryStart b.geometries.length
  let drainedD ← sliceRange b.draws drawStart b.draws.length
  let rg := b.repeatGeometries ++ drainedG
  let rd := b.repeatDraws ++ drainedD
  let geometries := b.geometries.take geometryStart ++ repeatGeomList r rg
  let newDraws ← repeatDrawList r geometryStart rd
  .ok { b with
    geometries := geometries
    draws := b.draws.take drawStart ++ newDraws
    repeatGeometries := []
    repeatDraws := []
    drawnGeometry := geometries.length }

omit [Libm F] in
/-- The segment loop of one trim range (`render.rs:416-454`). -/
def trimSegs (startLen endLen : F) : List (PathSeg F) → F → Bool → List (PathEl F)
  | [], _, _ => []
  | seg :: segs, currentLen, needMove =>
    let segLen := Kurbo.arclen seg
    let segEnd := currentLen +. segLen
    if segEnd <. (startLen -. tiny) then trimSegs startLen endLen segs segEnd needMove
    else if (endLen +. tiny) <. currentLen then []
    else
      let tStart :=
        if currentLen <. startLen then
          clamp (Kurbo.invArclen seg (startLen -. currentLen)) (lit 0) (lit 1)
        else lit 0
      let tEnd :=
        if endLen <. segEnd then
          clamp (Kurbo.invArclen seg (endLen -. currentLen)) (lit 0) (lit 1)
        else lit 1
      if (tStart +. tiny) <. tEnd then
        let sub := Kurbo.subsegment seg tStart tEnd
        (if needMove then [.moveTo sub.start] else []) ++ [sub.toEl]
          ++ trimSegs startLen endLen segs segEnd false
      else trimSegs startLen endLen segs segEnd needMove

omit [Libm F] in
/-- `segs.iter().map(|s| s.arclen(ACCURACY)).sum()` (`render.rs:399`).  (Rust's `f64` sum starts
from `-0.0`, which only shows in the sign of a zero sum.) -/
def totalLength (segs : List (PathSeg F)) : F :=
  (segs.map Kurbo.arclen).foldl (· +. ·) (lit 0)

omit [Libm F] in
/-- The trimmed path of one geometry (`render.rs:394-455`), empty if it has no length. -/
def trimPath (first : F × F) (second : Option (F × F)) (els : List (PathEl F)) :
    Except Fault (List (PathEl F)) :=
  if !bezPathOk els then .error (.panic .bezPathStart) else
  let segs := segments els
  let total := totalLength segs
  if (total <=. lit 0) || segs.isEmpty then .ok []
  else
    .ok ((first :: second.toList).flatMap fun range =>
      trimSegs (range.1 *. total) (range.2 *. total) segs (lit 0) true)

omit [Libm F] in
/-- The loop over the trimmed geometries (`render.rs:393-461`): returns the extended
`trim_elements` and the updated geometries. -/
def trimGeoms (first : F × F) (second : Option (F × F)) (elements : List (PathEl F)) :
    List (GeometryData F) → List (PathEl F) →
      Except Fault (List (PathEl F) × List (GeometryData F))
  | [], acc => .ok (acc, [])
  | g :: gs, acc => do
    let els ← sliceRange elements g.start g.stop
    let trimmed ← trimPath first second els
    let acc' := acc ++ trimmed
    let (accFinal, gs') ← trimGeoms first second elements gs acc'
    .ok (accFinal, { g with start := acc.length, stop := acc'.length } :: gs')

omit [FloatOps F] [Libm F] [Kurbo F] in
/-- Copying the elements of the geometries that are not trimmed (`render.rs:386-389`). -/
def copyElements (elements : List (PathEl F)) :
    List (GeometryData F) → List (PathEl F) → Except Fault (List (PathEl F))
  | [], acc => .ok acc
  | g :: gs, acc => do
    let els ← sliceRange elements g.start g.stop
    copyElements elements gs (acc ++ els)

omit [FloatOps F] [Libm F] [Kurbo F] in
/-- Renumbering the ranges of the geometries that are not trimmed (`render.rs:463-468`). -/
def renumber : List (GeometryData F) → Nat → List (GeometryData F)
  | [], _ => []
  | g :: gs, offset =>
    { g with start := offset, stop := offset + (g.stop - g.start) }
      :: renumber gs (offset + (g.stop - g.start))

omit [Libm F] in
/-- `Batch::apply_trim` (`render.rs:374-472`). -/
def Batch.applyTrim (b : Batch F) (t : FixedTrim F) (geometryStart : Nat) :
    Except Fault (Batch F) := do
  match t.normalized with
  | none =>
    let tail ← sliceRange b.geometries geometryStart b.geometries.length
    .ok { b with
      geometries := b.geometries.take geometryStart
        ++ tail.map fun g => { g with start := 0, stop := 0 } }
  | some (first, second) =>
    if (first.1 <=. tiny) && ((lit 1 -. tiny) <=. first.2) && second.isNone then .ok b
    else
      let head ← sliceRange b.geometries 0 geometryStart
      let tail ← sliceRange b.geometries geometryStart b.geometries.length
      let trim0 ← copyElements b.elements head b.trimElements
      let (trim1, tail') ← trimGeoms first second b.elements tail trim0
      .ok { b with
        elements := trim1
        geometries := renumber head 0 ++ tail'
        trimElements := [] }

omit [Libm F] [Kurbo F] in
/-- The brush of a draw with its alpha applied (`render.rs:478-483`). -/
def DrawData.finalBrush (d : DrawData F) : Brush F :=
  if !(d.alpha ==. lit 1) then d.brush.multiplyAlpha (FloatOps.toF32 d.alpha) else d.brush

omit [Libm F] [Kurbo F] in
/-- The draw calls of one `DrawData` (`render.rs:484-488`). -/
def Batch.renderDraw (b : Batch F) (d : DrawData F) : Except Fault (List (Op F)) := do
  let gs ← sliceRange b.geometries d.gstart d.gstop
  gs.mapM fun g => do
    let path ← sliceRange b.elements g.start g.stop
    .ok (Op.draw d.stroke g.transform d.finalBrush path)

omit [Libm F] [Kurbo F] in
/-- `Batch::render` (`render.rs:474-490`). -/
def Batch.render (b : Batch F) : Except Fault (List (Op F)) := do
  let per ← b.draws.reverse.mapM b.renderDraw
  .ok per.flatten

/-- The transform and opacity of a group (`render.rs:187-195`). -/
def groupParams (t : Option (GroupTransform F)) (frame : F) : Affine F × F :=
  match t with
  | some gt => (gt.transform.evaluate frame, gt.opacity.evaluate frame /. lit 100)
  | none => (Affine.identity, lit 1)

mutual
/-- One iteration of the loop of `Renderer::render_shapes` (`render.rs:184-219`). -/
def renderShape (shape : Shape F) (geometryStart drawStart : Nat) (transform : Affine F)
    (alpha frame : F) (b : Batch F) : Except Fault (Batch F) :=
  match shape with
  | .group shapes gt =>
    renderShapesFrom shapes b.geometries.length b.draws.length
      (transform.mul (groupParams gt frame).1) (alpha *. (groupParams gt frame).2) frame b
  | .geometry g => b.pushGeometry g transform frame
  | .draw d => .ok (b.pushDraw d alpha geometryStart frame)
  | .repeater r => b.repeat (r.evaluate frame) geometryStart drawStart
  | .trim t => b.applyTrim (t.evaluate frame) geometryStart

/-- The loop of `Renderer::render_shapes` (`render.rs:184-219`) with the local variables
`geometry_start` and `draw_start`. -/
def renderShapesFrom (shapes : List (Shape F)) (geometryStart drawStart : Nat)
    (transform : Affine F) (alpha frame : F) (b : Batch F) : Except Fault (Batch F) :=
  match shapes with
  | [] => .ok b
  | shape :: shapes => do
    let b' ← renderShape shape geometryStart drawStart transform alpha frame b
    renderShapesFrom shapes geometryStart drawStart transform alpha frame b'
end

/-- `Renderer::render_shapes` (`render.rs:177-220`). -/
def renderShapes (shapes : List (Shape F)) (transform : Affine F) (alpha frame : F)
    (b : Batch F) : Except Fault (Batch F) :=
  renderShapesFrom shapes b.geometries.length b.draws.length transform alpha frame b

/-- The parent-chasing loop (`render.rs:235-248`).  `n` is `layer_set.len() - count`, the number of
iterations the `count >= layer_set.len()` test still allows. -/
def chaseParents (layerSet : List (Layer F)) (frame : F) :
    (n : Nat) → (parent : Option Nat) → (transform : Affine F) → Affine F
  | _, none, transform => transform
  | 0, some _, transform => transform
  | n + 1, some index, transform =>
    match layerSet[index]? with
    | some parent =>
      chaseParents layerSet frame n parent.parent
        ((parent.transform.evaluate frame).mul transform)
    | none => transform

/-- `Renderer::compute_transform` (`render.rs:222-250`). -/
def computeTransform (layerSet : List (Layer F)) (layer : Layer F) (globalTransform : Affine F)
    (frame : F) : Affine F :=
  globalTransform.mul
    (chaseParents layerSet frame layerSet.length layer.parent (layer.transform.evaluate frame))

/-- The loop over the layer's masks (`render.rs:129-133`). -/
def renderMasks (transform : Affine F) (frame : F) :
    List (Mask F) → List (PathEl F) → Except Fault (List (PathEl F) × List (Op F))
  | [], maskElements => .ok (maskElements, [])
  | mask :: masks, maskElements => do
    let els ← mask.geometry.evaluate frame
    let (me, ops) ← renderMasks transform frame masks []
    .ok (me, Op.pushClip transform (.path (maskElements ++ els)) :: ops)

omit [FloatOps F] [Libm F] [Kurbo F] in
/-- A loop that renders layers one after the other: threads the renderer, appends the calls.  Used
at `render.rs:72-86,145-170`. -/
def renderSeq {α : Type} (step : α → Renderer F → Except Fault (Renderer F × List (Op F))) :
    List α → Renderer F → Except Fault (Renderer F × List (Op F))
  | [], r => .ok (r, [])
  | x :: xs, r => do
    let (r1, ops1) ← step x r
    let (r2, ops2) ← renderSeq step xs r1
    .ok (r2, ops1 ++ ops2)

/-- `full_rect` (`render.rs:108`) and the clip of `append` (`render.rs:68-71`). -/
def fullRect (animation : Composition F) : ClipShape F :=
  .rect (lit 0) (lit 0) (FloatOps.ofUsize animation.width) (FloatOps.ofUsize animation.height)

/-- The type of `Renderer::render_layer` (`render.rs:91-101`) without the composition argument:
layer set, layer, layer index, transform, alpha, frame, renderer. -/
abbrev LayerFn (F : Type) := List (Layer F) → Layer F → Nat → Affine F → F → F → Renderer F →
  Except Fault (Renderer F × List (Op F))

/-- The matte of a layer (`render.rs:109-128`); `rec` is the recursive call. -/
def renderMatte (animation : Composition F) (rec : LayerFn F) (layerSet : List (Layer F))
    (layer : Layer F) (parentTransform : Affine F) (alpha frame : F) (r : Renderer F) :
    Except Fault (Renderer F × List (Op F)) :=
  match layer.maskLayer with
  | none => .ok (r, [])
  | some (mode, maskIndex) =>
    (match layerSet[maskIndex]? with
      | some mask => rec layerSet mask 0 parentTransform alpha frame r
      | none => .ok (r, [])).map fun (res : Renderer F × List (Op F)) =>
      (res.1,
        [Op.pushLayer (BlendMode.ofMix .normal) (lit 1) parentTransform (fullRect animation)]
          ++ res.2
          ++ [Op.pushLayer mode (lit 1) parentTransform (fullRect animation)])

/-- The content of a layer (`render.rs:134-170`); `rec` is the recursive call. -/
def renderContent (animation : Composition F) (rec : LayerFn F) (layer : Layer F)
    (transform : Affine F) (alpha frame : F) (r : Renderer F) :
    Except Fault (Renderer F × List (Op F)) :=
  match layer.content with
  | .none => .ok (r, [])
  | .instance name _ =>
    match animation.asset name with
    | none => .ok (r, [])
    | some assetLayers =>
      let frame' := frame /. layer.stretch
      let frameDelta := FloatOps.neg layer.startFrame /. layer.stretch
      renderSeq
        (fun (l : Layer F) r => rec assetLayers l 0 transform alpha (frame' +. frameDelta) r)
        (assetLayers.reverse.filter (fun l => !l.isMask)) r
  | .shape shapes => do
    let batch ← renderShapes shapes transform alpha frame r.batch
    let ops ← batch.render
    .ok ({ r with batch := batch.clear }, ops)

/-- The body of `Renderer::render_layer` (`render.rs:102-175`); `rec` is the recursive call. -/
def renderLayerBody (animation : Composition F) (rec : LayerFn F) : LayerFn F :=
  fun layerSet layer layerIndex parentTransform alpha frame r0 =>
    if !layer.frames.contains frame then .ok (r0, []) else do
    let transform := computeTransform layerSet layer parentTransform frame
    let (r1, matteOps) ← renderMatte animation rec layerSet layer parentTransform alpha frame r0
    let alpha := alpha *. layer.opacity.evaluate frame /. lit 100
    let (maskElements, maskOps) ← renderMasks transform frame layer.masks r1.maskElements
    let (r3, contentOps) ← renderContent animation rec layer transform alpha frame
      { r1 with maskElements := maskElements }
    let pops := layer.masks.length + (if layer.maskLayer.isSome then 2 else 0)
    .ok (r3, [Op.beginGroup layer.name layerIndex] ++ matteOps ++ maskOps ++ contentOps
      ++ List.replicate pops Op.pop ++ [Op.endGroup])

/-- `Renderer::render_layer` (`render.rs:91-175`).  The Rust function recurses without a bound
(through mattes and asset instances); the first argument bounds the recursion depth and
`Fault.fuel` says the bound was exceeded. -/
def renderLayer (animation : Composition F) : (fuel : Nat) → LayerFn F
  | 0 => fun _ _ _ _ _ _ _ => .error .fuel
  | fuel + 1 => renderLayerBody animation (renderLayer animation fuel)

/-- `Renderer::append` (`render.rs:58-88`). -/
def Renderer.append (fuel : Nat) (r : Renderer F) (animation : Composition F) (frame : F)
    (transform : Affine F) (alpha : F) : Except Fault (Renderer F × List (Op F)) := do
  let r0 : Renderer F := { r with batch := r.batch.clear }
  let (r1, ops) ← renderSeq
    (fun (p : Layer F × Nat) r =>
      renderLayer animation fuel animation.layers p.1 p.2 transform alpha frame r)
    (animation.layers.zipIdx.reverse.filter (fun p => !p.1.isMask)) r0
  .ok (r1, [Op.pushClip transform (fullRect animation)] ++ ops ++ [Op.pop])

end
end Velato
