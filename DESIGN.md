# Formal model of linebender/velato in Lean 4

The model is a transcription of the Rust code in `/repo` (pinned commit) into Lean, function by
function; the theorems in `lean/Verif/Props` state the properties of `properties.jsonl` about it.
`MANIFEST.json` maps each property to its theorems; `AXIOMS.md` lists the axioms of each of them.

## 1. Layout

```
lean/Verif/
  Num/     Ops (the f64 operations velato uses, as a class without laws), Real (exact instance),
           Round, F64, F64Lemmas (IEEE-754 binary64), Cmp (laws of comparisons), Error (rounding errors),
           KernelDecide (a `decide +kernel` that allows free variables)
  Model/   the code:
           Fault    the places that can panic
           Kurbo    the parts of kurbo, peniko and libm that velato calls
           Value    runtime/model/value.rs
           Fixed    runtime/model/fixed.rs, spline.rs
           Scene    runtime/model/animated.rs, mod.rs
           Render   runtime/render.rs
           Vello    runtime/vello.rs
           Schema   schema/**
           Import   import/**
           Json, Decode, Encode   serde_json::Value, from_value, to_value of the schema
           Styles   schema/styles and the constants of text
           Player, Overlay, SceneList, TestScenes, Download, DefaultDownloads   examples/scenes
           AssetJson, TigerJson, PolyStarJson   examples/assets (generated by tools/assets.py)
           Stats, Touch, Viewer, App   examples/with_winit
  Spec/    small specifications used by property statements, written without the model's helpers
           where the property is not itself about such a helper; example documents
  Proofs/  helper lemmas
  Props/   the property theorems; a theorem of property C07 is named C07_...
tools/     props.py (properties.jsonl), manifest.py (MANIFEST.json), root.py (Verif.lean),
           axioms.py (AXIOMS.md), mutate.py (seeded bugs),
           automut.py (systematic small edits of the model), assets.py (documents in examples/assets)
seeded/    mutants.json (edits of the model), LOG.jsonl (which theorems fail for each)
```

## 2. How the code is modelled

* **Numbers.** Every definition is polymorphic in the number type `F` with `FloatOps F`, a class
  of *operations only*. A theorem for an arbitrary `F` holds for IEEE doubles whatever their
  rounding. Theorems that need arithmetic are about `F64` (rounding, overflow, NaN, signed zero)
  or about exact reals `ℝ`; the statement says which.
* **Panics** (`unimplemented!`, `todo!`, slice index or range, `usize` underflow, capacity
  overflow) are `Except.error (.panic site)`. Overflow checks are taken as enabled.
* **Non-termination.** `render_layer` is the only unbounded recursion; it takes fuel, and running
  out is the separate error `.fuel`. "Terminates" is "some amount of fuel suffices", and every
  statement about an execution holds for all amounts.
* **State.** `&mut self` becomes a state that is passed in and returned. A `RenderSink` returns
  nothing, so an execution is the list of the calls on it.
* **Sharing.** `Arc`, `Cow`, `Rc` and references are transparent. `HashMap` is a list of entries in
  insertion order in which the last entry of a key counts; the code never iterates over one in
  a way that can be observed.

## 3. What is modelled, and what is not

Modelled:

* `src/runtime/model/{value,fixed,spline,animated,mod}.rs`: everything except the derived
  `Clone`/`Debug` implementations;
* `src/runtime/render.rs`, `src/runtime/vello.rs`: everything;
* `src/import/{builders,converters,defaults}.rs` and `Composition::{from_animation via
  conv_animation}`: everything except unit tests;
* `src/schema/**`: all types reachable from `Animation`, their derived and hand-written
  `Deserialize` and `Serialize` implementations at the level of `serde_json::Value`, and
  `Animation::from_json`; also `schema/styles` and the constants that no type of `Animation` refers to;
* `examples/scenes/src/{lottie,picking,simple_text}.rs`: which frame is played, the tracker of drawn layers,
  picking, the place of the cursor, the overlays, the layout of text, and the list of scenes. Elapsed time, the
  font, the listing of directories and conversion to lower case are parameters;
* `examples/scenes/src/{test_scenes,lib}.rs`: the built-in scenes with their documents, and which scenes are
  displayed. Whether a file can be loaded is a parameter; the base colour is not modelled;
* `examples/scenes/src/download.rs` and its default downloads: arguments, file names, fetching, and the
  command. The server, the file system and the answers to questions are parameters; paths are lists of
  components (Unix);
* `examples/with_winit/src/{stats,multi_touch,lib}.rs`: the frame statistics and their panel (without text),
  touches and gestures, the events of the window as far as they change what is displayed (`Model/Viewer`), and
  the life of the window: creating it, its surfaces and renderers, suspending and resuming, the title, the
  present mode, reloading shaders (`Model/App`). What the system answers is a parameter; failures of `wgpu` and
  `winit` end the application and are not modelled, nor is the wasm variant.

Not modelled:

* lexing of JSON text and printing of numbers (`from_slice`, `FromStr`, `Display` beyond the value
  they read or write); duplicate keys and the recursion limit are properties of the text parser;
* the content of error values (`src/error.rs` and serde messages): an error is `none`;
* what vello does with a scene; the rest of `examples/`; time, memory and stack use.

## 4. Trusted base

* Lean's kernel, version 4.33, with the axioms `propext`, `Classical.choice` and `Quot.sound`.
  There are no other axioms, no `sorry`, and no compiled evaluation. `kernel_decide`
  builds the term that `decide +kernel` builds.
* The reading of `/repo` that the comments in `Verif/Model` record line by line.
* Rust: `slice::binary_search_by`, `f64::{clamp, min, max, rem_euclid, to_radians, round, abs}`,
  saturating casts, `f64`/`f32` as IEEE formats with round to nearest even.
  Results about keyframe lookup are also proved for *every* search that meets the documented
  contract of `binary_search_by` (`C02_any_conforming_search`).
* kurbo 0.13 and peniko 0.6: affine maps, `Point::lerp`, `CubicBez::eval`, `BezPath::segments`,
  `Brush::multiply_alpha` and so on are written out (`Model/Kurbo.lean`).
* serde, serde_json, serde_repr: the rules listed in the header of `Model/Decode.lean`.
* `tools/assets.py`: the documents in `Model/TigerJson` and `Model/PolyStarJson` are the values that a JSON parser
  reads from the files in `/repo/examples/assets` (C125 only).
* vello: a scene is the list of the method calls on it.
* The meaning of the sink calls at a pixel (`Spec/Picture.lean`, C80 – C83 only): Porter-Duff
  compositing of premultiplied colours in exact arithmetic; a pushed layer is a picture of its own
  that is clipped to its shape and composited when it is popped.

Numeric code of kurbo and libm is a parameter (classes `Kurbo F`, `Libm F`, `Atan2 F`); theorems hold for
every implementation, or state what they assume:

| assumption | says | used by |
|---|---|---|
| `KurboPaths` | outlines of ellipses and rectangles begin with `MoveTo`, pieces of segments are segments of the same kind | paths and panics (C24, C29, C37, C56) |
| `ExactSolver` | `solve_cubic` returns exactly the real roots | easing in exact arithmetic (C07–C09, C49) |
| `NanNoRoots` | `solve_cubic` returns no root for a NaN coefficient | the last keyframe in IEEE arithmetic (C03, C04, C16) |
| `SpanningFigures` | outlines of rectangles and ellipses touch the four sides of their box (an idealisation for large ellipses, which kurbo approximates by more than four arcs) | C18 except `C18_figures` |
| `ExactLines` | `arclen`, `inv_arclen`, `subsegment` are exact on line segments | C24 (`C24_lines_partial`, `C24_fraction_partial`) |
| `ExactCurves` | the same on all segments: arc length is the integral of the speed | C24 (`C24_cut`, `C24_curves_*`) |
| `ExactBoxes` | the bounding box of a segment is the smallest rectangle around its points (`exactBoxes_exist`) | C90 (rectangles) |
| `AccurateLibm` | sine and cosine within 2^-52 (for angles up to 1024), tangent within 2^-50 (up to 6/5), `hypot` within 2^-32 (up to 2^18), pi rounded (`accurateLibm_accurate`: one exists) | C115, C127, C129, C130 |
| `AccurateAngles` | the constants τ and π/2 are rounded (`accurateLibm_angles`: so they are in the Rust library) | C130 |
| `BoundedKurbo` | outlines of ellipses and rectangles of moderate size have moderate coordinates; a part of a segment is at most 8 times as far out as the segment (`diamondKurbo_bounded`: one such exists) | C130 |
| `SolverWithin δ` | the cubic solver is accurate up to δ: the polynomial is at most δ at what it returns near the unit interval, and a root in the unit interval is not missed unless an end of the interval is a root up to δ (`accurateKurbo_accurate`: one with δ = 2^-40 exists) | C116 |

The easing parameter returned by kurbo's `inv_arclen` is any number; that kurbo itself could
panic or loop inside these functions is outside the model.

## 5. Properties that the code does not have

For each of these the negation is proved with a concrete input (`..._counterexample` or the name
given) and the strongest true part with the suffix `_partial`.

| property | what happens instead |
|---|---|
| C11 | the alpha passed to a fixed gradient brush is multiplied in, to an animated one it is ignored |
| C14 | an omitted scale means 1 percent, not 100 (`C14_scale_omitted`) |
| C05 | a held path is cut short if the next shape has fewer points |
| C16 | at the last path keyframe every point is NaN (0/0); a shape with fewer points truncates its predecessor |
| C23 | geometry after an empty trim with the same transform revives the trimmed path |
| C24 | pieces of different subpaths of a trimmed path are joined by a line |
| C26 | with `n` copies, each copy of a fill paints all `n` copies of the geometry |
| C36 | a layer that is its own matte, or an asset that contains itself, recurses without end |
| C38 | geometry merges across group boundaries, and a fill can lose its path |
| C43 | layers of assets and mattes are announced with index 0 |
| C50 | hold keyframes of gradients hold colours, but not offsets |
| C54 | the declared opacity of gradients is ignored |
| C55 | matte mode Normal still composites with the matte |
| C56 | stars with about 2^59 points overflow the allocation (also the exception in C29) |
| C59 | an image asset of size `null` is written as something that cannot be read |
| C60 | with three or more opacity stops every colour is at most as opaque as every interior stop; exactly: the least of 1 and all ramps between consecutive stops |
| C62 | layer blend modes are imported and not used |
| C63 | mask modes, inversion, expansion and opacity are not used; several masks are intersected |
| C64 | hidden shapes are drawn |
| C65 | every fill uses the non-zero rule |
| C68 | with easing given per coordinate, that of the second coordinate is used for all; vector keyframes with one handle are not eased |
| C69 | luma mattes are treated like alpha mattes |
| C70 | precompositions are not clipped to their size |
| C71 | inside a transformed precomposition a matted layer is cut off at the rectangle of the whole composition, taken in the coordinates of the precomposition |
| C83 | opacity is applied to each brush: overlapping shapes of a faded layer show through each other, and `append` with an opacity fades a matted layer twice |
| C88 | unless the composition starts at frame 0, the frame can be rounded to the end of the range, where no layer is visible |
| C94, C99 | frame times of less than 0.75 ms with a single one three times as long: the panel of the statistics underflows; after the key C its bars are NaN until the next frame |
| C95 | several fingers at one place: the zoom is 0/0; one finger is a gesture, too |
| C96 | the picture slips under fingers that move and zoom at once |
| C101 | lifting a navigation finger swallows the movement of the other fingers in that frame |
| C121 | the previous scene is initially the one before that of the command line; if that is the first to be displayed (`--scene 1` with one scene, or key left at once), the title is not set |
| C122 | the key V changes the present mode of the surface, but a surface created on resuming is always `AutoVsync`, while the label keeps the state of the key |
| C102 | a URL with an `@` is cut in two: the part before it becomes the name |
| C103 | the part of a name after its last dot is dropped: `v1.2` and `v1.3` are the same file; a URL that ends with a slash is stored beside the directory |
| C105 | a failed download leaves an empty or incomplete file, which the next run takes for a download |
| C108 | the order of scenes whose names differ only in case depends on the listing of the directory |
| C111 | eased values may jump by up to 1e-6 of the step between two keyframes, as far as the specification of the solver goes |
| C130 | at the last keyframe of an animated path, unless it is held, the path is drawn with NaN coordinates (as C16, for a whole document) |
| C134 | the easing handles of path keyframes are ignored: paths always progress steadily |
| C135 | during a hold keyframe of a gradient the offsets of the stops move on (C50), seen from the document |
| C150 | a gradient with fewer stops than declared shows those that are there if it is static, and none if it has keyframes with the same numbers (`C150_missing_stops`) |
| C139 | an animated path is closed at all frames if any of its keyframes, however far away, says that it is closed |
| C131 | assets that show each other twice are drawn twice each: `n` of them take `2ⁿ` fills, at every frame |

C06 and C08 hold up to rounding and up to the code's tolerance; `C06_overflow_counterexample` and
`C08_tolerance_needed` show that the restrictions in their statements are necessary.
C29 (no panic) was first listed without the exception for stars with too many points, and C48 with
a shorter list of unsupported parts; the listed texts now say what is true of the code.

## 6. How each property is proved

| id | modelled by | method |
|----|-------------|--------|
| C01 C02 C05 | `Value.evaluate`, `framesAndWeight`, `binarySearchBy` | loop invariant of the search; generic in `F` |
| C03 C04 C06 | the same in `F64` | IEEE laws, derived from the definition of rounding |
| C07 C08 C09 | `tweenF` | Bernstein form of the easing curve over `ℝ` |
| C10 C11 | `Tween` instances, `intoModel` | cases, generic in `F` |
| C12 C13 C14 C61 | `Transform.evaluate`, `convTransform`, group transforms | affine algebra and trigonometry over `ℝ` |
| C15 C16 | `toPath`, `convSpline`, `Spline.evaluate` | induction on vertices; `F64` for the NaN weight |
| C17 C18 | `Star`, `Rect`, `Ellipse` evaluation | induction on the vertex list, trigonometry |
| C19 C20 C21 | `Trim.normalized` | rounding argument in `F64`; `ℝ` |
| C22 – C26 | `Batch.applyTrim`, `Batch.repeat` | invariant of the batch over all reachable states |
| C27 C28 C31 – C33 C40 – C43 | `renderLayer`, `append` | call-list grammar `LayerCalls`, equivalence by induction on fuel |
| C29 C56 | batch invariant, spline lengths | preserved by every operation |
| C30 | renderer state | buffers are empty after every append |
| C34 C35 | `computeTransform` | induction on the chain of parents |
| C36 | fuel | rank function on references |
| C37 – C39 | `renderShapes` | refinement to a tree-level description |
| C44 – C48 C53 – C55 C57 | `Import` | list induction; complete list of failing parts |
| C49 C50 C60 | gradient stops | lists of stops, exact arithmetic for the ramps |
| C51 C52 | keyframe import, `deserializeKeyframes` | list induction; every path of a parsed document |
| C58 C59 | `Decode`, `Encode` | cases; structural induction over the schema |
| C68 | keyframe import and evaluation | entries per keyframe, easing curve over `ℝ`; with any handles, a keyframe may contribute two entries and only the last one counts |
| C69 | import | document maps that import does not see |
| C70, C71 | renderer calls | invariance under `forget`; induction over the calls of a layer |
| C72 | renderer | left action of a transform on batches, induction over shapes and recursion depth |
| C73, C74 | renderer and evaluation | relation `SameAt` between two compositions, each at its own frame |
| C75 | evaluation and import of stars | trigonometry of consecutive corners, list induction over the corners |
| C76 | import, evaluation and renderer | cases on the shape; the paints of imported shapes (no repeaters) are those of their fills and strokes |
| C77 | import of layers | list induction; cases on the layer |
| C78 | parser, `from_json` | one equivalence per structure; induction on the JSON value for shapes |
| C79 | renderer | fading commutes with every step of the batch, induction over shapes and recursion depth |
| C80 – C83 | renderer calls and their meaning at a pixel | induction over the calls of a layer: what they do to any state is to put one pixel over it; invariants of the compositing state |
| C84 | `fixed::Trim::normalized`, `animated::Trim::evaluate`, trims in `conv_shape` | the set of kept positions, exact arithmetic |
| C85 | import and renderer | renaming commutes with import; induction over the recursion depth of the renderer |
| C86 | import and renderer | layers in use have similar content; induction over the recursion depth |
| C87 | import and renderer | refinement: the calls of the old composition one level deeper |
| C88 | `playFrame` | remainders, exact and in IEEE arithmetic |
| C89 – C91 | `Tracker`, `pickingFrame` | the tracker's state along well nested calls (induction on the calls), list induction over the layers |
| C92 | `cursorToScene` | algebra of affine maps |
| C93, C94 | `Stats`, `Snapshot.drawLayer` | invariant over the events; algebra of affine maps |
| C95, C96 | `TouchState` | invariant over frames of events; the plane as complex numbers |
| C97 – C101 | `Viewer.run` | invariants over the events (similarity, determinant, indices modulo, statistics); simulation for C101 |
| C102 – C107 | `parseDownload`, `filePath`, `fetch`, `downloadAction`, `defaultDownloads` | list induction over texts; induction over the downloads; distinctness of the default names by kernel computation |
| C108 | `scenesFromFiles` | stable sorting: permutation and order |
| C109, C110 | `pickingOverlays`, `textGlyphs` | list induction over hits; over lines and characters |
| C111 | `Animated.evaluate`, `Easing` through the specification of C68 | an inverse of the easing curve exists (strictly monotone and onto), so the value follows a continuous path closely |
| C112 | `convAnimation`, `computeTransform`, `renderLayer` | simulation: the layers of both documents correspond with shifted positions; induction on fuel and on chains of parents |
| C113 | `jSatinStyle` etc. (Model/Styles) | as C78 and C59: field by field |
| C114 | `tweenScalar`, `easeParam`, `cubicEvalY` over `F64` | forward error analysis: `F64.Near x r e` (Num/Error) is carried through every operation, with the half-unit rounding error proved from the definition of rounding |
| C115 | `Transform.evaluate`, `Affine.mul`, `skewMatrix` over `F64` | forward error analysis of the six matrix products; the ranges of the values come from C114; the exact product is the formula of C61 |
| C116 | `Animated.evaluate`, `Tween`, `easeParam`, `Time.framesAndWeight` over `F64` | forward error analysis of the weight, the coefficients and the curve; a parameter up to 1e-11 outside of the unit interval is moved to its end |
| C117 | `convAnimation` and everything below it, `Renderer.append` and everything below it | inductive relation from documents to calls (Spec/DocDraws) over any arithmetic with lawful comparisons, with the order of all operations fixed, both directions by induction over rendering runs and over derivations of the relation; uniqueness from determinism |
| C118 | `Renderer.append` and everything below it, `convAnimation` | accessibility of the relation "needs" (Spec/Finish): by induction over rendering runs in one direction, by well-founded induction with monotonicity in the depth in the other; the relation of the document is that of the imported composition |
| C119 | `convAnimation` and everything below it, `Renderer.append` and everything below it; meaning of the calls: Spec/Picture | relation from documents to pixels (Spec/DocShows), shown equivalent to the calls of C117 followed by the meaning of calls, by induction over derivations in both directions |
| C120 – C122 | `App.run` | one relation for the effect of an event; invariants over the events (renderer for the surface, id of the window, title, present mode); refinement to `Viewer.run` on the delivered events |
| C123 | `convAnimation`, `Renderer.append` and everything below it | simulation at one frame (Proofs/SameAt) for other in and out points; the copy that is absent is removed by C112 |
| C124 | `convShape`, `convAnimation`, `renderShapes` | rendering of a list does the same to every batch; congruence over nesting, then simulation of the documents (Proofs/SameDoc) |
| C125 | `TestScene.frame`, `fromJson`, `Renderer.append` | evaluation of the importer on the documents by the kernel, for every reading of fractions; then C24/C118: no references, hence rendering returns at every frame |
| C126 | `selectSceneSet`, `scenesFromFiles` | induction over the paths; counterexample: a directory without documents |
| C127 | `Renderer.append` over `F64` | from C117, by mutual induction over layers and content and induction over shapes: entries grow by at most 2^24 per transform (ranges from C114, C115), opacities by a factor 1 + 6e-11, which rounding to single precision absorbs |
| C128 | `jAnimation`, `fromJson` | each decoder respects exchanges and additions (a relation between objects through `lookup`), by induction along the change; then along the chain of changes |
| C129 | `Renderer.append`, `computeTransform`, `groupParams` over `F64` | a matrix fits an exact map up to an error per unit of (Euclidean) length and one at the origin; these add up when matrices are multiplied; by induction along parents, groups and instances. From C117, every call is on such a way |
| C130 | `Renderer.append`, `AnimStar.evaluate`, `AnimSpline.evaluate`, `trimPath` over `F64` | ranges from C114 through each kind of geometry; the angle of a star by induction over its vertices; each trim adds 3 bits, by induction over shapes; layers by induction over C117 |
| C131 | `Renderer.append` | from C117, by induction over what is drawn: the calls for shapes are at most pairs of paints and geometries, those of a list at most the sum of its budget. The counterexample by induction over the assets |
| C132 | `Renderer.append` | from C117, by induction over what is drawn: the computed opacity is that of the layers and groups around it up to `n / 2⁵⁰`, by induction over the way into the document; then two roundings to single precision and one product |
| C133 | `AnimStar.evaluate`, `AnimRect.evaluate`, `AnimEllipse.evaluate` | error bounds step by step: the accumulated angle is off by at most `(i + 1) / 2⁴³` at corner `i` (induction), sine, cosine and tangent are Lipschitz; the tests for roundness and straightness decide as in exact arithmetic or within the error |
| C134 | `AnimSpline.evaluate` | the keyframes found and the weight as in C03 and C116, then error bounds for the difference, the product and the sum, and for the control points; handles: evaluation after removing them from every keyframe, by induction over the import |
| C135 | `convGradientColors`, `AnimColorStops.evaluateInner` | entry by entry: each stored number is an animated number with the same times, to which the argument of C68 applies; the opacities at the keyframes are those of C60, and the offsets are those of the times without hold flags |
| C136 | `Time.framesAndWeight`, `tweenScalar`, `AnimColorStops.evaluateInner` | C03 before, at and after the ends, C05 during holds, C116 in between, selected by the specification of the search; then the rounding to single precision; with any handles as in C68 |
| C137, C74 (documents) | importer, evaluation and renderer | relation `Imports` between two imports: every converter, applied to a property and to the property moved in time, gives values that agree at the two frames; then `SameAt` as for C73. The search ends at the last keyframe when all are earlier, sorted or not |
| C138 | importer, evaluation and renderer | as C137, with agreement of weights up to the fraction of time during holds; the search ends at the last of the entries of the keyframe that holds, as all before it are not after the frame and all after it are |
| C139 | importer, evaluation and renderer | the keyframes found and the weight are functions of the keyframes around the frame (the search ends there, whatever the other keyframes are); importing keyframes is entry by entry; then as C137, for two documents side by side |
| C140 | importer, evaluation and renderer | the calls are a function of what C117 reads from the document at the frame: by induction on the drawing of one document the other is drawn with the same calls |
| C141 | evaluation, importer and renderer (reals) | the two keyframes found with and without the added one, in all cases; the two linear pieces (for paths: the points of the outline are linear in those of the shape); the simulation of C139 with another relation between keyframes for documents |
| C142 | importer and renderer (any arithmetic), places and opacities (F64) | invariant of the outlines collected: each consists of outlines of geometry seen so far in its list, with an allowance for each outline of the lists around it that inner geometry may be merged with; then C129 and C132 along the same way |
| C143 | importer and renderer, any arithmetic | all outlines of the layer collected so far, from any position that nothing is merged across, are those of the geometry since; nothing is merged across the beginning of a group if everything before is painted |
| C144 | importer and renderer (F64, single precision for colours) | C142 for the fill or stroke, then C136 for each number it is drawn with, and error bounds for differences, squares and the root of the radius |
| C145 | `convAnimation`, `computeTransform`, `renderLayer` | simulation: the layers of both documents correspond by a map of positions; induction on fuel and on chains of parents |
| C146 | importer and renderer | on the specification of C117 (calls of a document): the layers moved, and those not moved, correspond by maps of positions that keep parents and mattes; chains of parents are shorter than the lists |
| C147 | importer and renderer | on the specification of C117: every chain of parents ends at the new layer, so its matrix comes first; associativity of matrix products in exact arithmetic |
| C148 | importer and renderer | on the specification of C117, by induction on how the document is drawn; the relation is symmetric |
| C149 | importer, evaluation and renderer (any arithmetic) | the imported times have the same frame, easing and hold; then the simulation of C139 with this relation between keyframes; documents that agree have the same causes of failure (C48) |
| C150 | importer, folding, evaluation and renderer (any arithmetic for held keyframes, reals otherwise) | the two keyframes found have the same value, and mixing a value (or the outline of a path, or the stops of a gradient) with itself gives it back; folding is unobservable (C11; brushes are only evaluated with alpha 1); then the simulation of C139, in which the values of properties, not only their keyframes, are related |
| C151 | importer, evaluation and renderer (any arithmetic) | the imported times have the same frame and hold, and the same easing where it is used; at weight 0 the easing has no effect; then the simulation of C139, and for import that of C149 |
| C152 | importer, evaluation and renderer (any arithmetic) | points, sizes and positions are imported from the first two numbers, colours from the first three, numbers from the first, paths from the first shape: the imported values are equal; then the simulation of C139, and for import that of C149 |
| C153 | importer (any arithmetic) | import of every part of a document with its defaults written out equals import of that part; induction on shapes and on the keyframes of paths |
| C154 | importer, evaluation and renderer (any arithmetic) | induction on keyframes: the three lists of times are equal, and the points have the two numbers as coordinates; points are animated coordinate by coordinate (C10); then the simulation of C139 |
| C62 – C66 | import and renderer | non-interference: erasing the attribute changes no execution |
| C67 | `Renderer.renderToScene` | simulation of sink calls by scene calls |

## 7. Testing the theorems

`seeded/mutants.json` lists realistic bugs as edits of model definitions. `tools/mutate.py` applies
each to a copy of the last commit, rebuilds, and records in `seeded/LOG.jsonl` the definition, the
edit, the claim that is now false and the theorems that no longer prove. A mutant whose claim still
proves leads to a stronger statement; the entry then names the tightened theorems.

Not every listed bug has been run: one without an entry in `LOG.jsonl` was still to be tried, and nothing
is claimed about it. (At the last commit these are 21 of 496.) One logged bug, `scalar-empty-zero`, is not
caught: it changes only the label of a panic.
