{"id": "C01", "title": "Keyframe evaluation is total", "statement": "Evaluating an animated value never panics or reads out of bounds: for any keyframe times (empty, unsorted, duplicated, NaN), any list of values (even of another length) and any frame number (NaN and infinities included) it returns a value; it returns the supplied default exactly when there are no times or the chosen keyframes have no value, and otherwise the two keyframes it mixes are adjacent (or the same, at the end).", "quantifier": "all keyframe lists, value lists and frame numbers", "why_tests_cant": "the lists are unbounded and include unsorted and NaN input that a binary search can mis-handle", "anchors": ["src/runtime/model/value.rs:Time::frames_and_weight", "src/runtime/model/value.rs:Animated::evaluate_or", "src/runtime/model/value.rs:Value::evaluate"]}
{"id": "C02", "title": "Keyframe lookup brackets the frame", "statement": "When keyframe times are sorted, evaluation at a frame between the first and the last keyframe mixes two consecutive keyframes k, k+1 with time(k) <= frame < time(k+1), whatever the number of keyframes.", "quantifier": "all sorted keyframe lists of any length and all frames", "why_tests_cant": "correctness of a binary search for every length and position cannot be sampled", "anchors": ["src/runtime/model/value.rs:Time::frames_and_weight"]}
{"id": "C03", "title": "Values are clamped outside the keyframe range", "statement": "Before the first keyframe an animated scalar has the first keyframe's value; from the last keyframe on it has the last keyframe's value (in IEEE double arithmetic, including the 0/0 weight produced exactly at the last keyframe).", "quantifier": "all strictly increasing keyframe times without overflowing gaps, all finite values, all frames outside the range, infinities included", "why_tests_cant": "unbounded lists, and the 0/0 corner only occurs at one exact float", "anchors": ["src/runtime/model/value.rs:Time::frames_and_weight", "src/runtime/model/value.rs:Tween for f64"]}
{"id": "C04", "title": "Keyframes are hit exactly", "statement": "Evaluating an animated scalar, point, size or colour exactly at the time of a keyframe gives exactly (bit for bit up to the sign of zero) that keyframe's value, regardless of easing handles.", "quantifier": "all strictly sorted keyframe lists with finite values, all keyframe indices, all easing handles", "why_tests_cant": "the quantifier ranges over all floats and all easing curves; rounding could break it at isolated points", "anchors": ["src/runtime/model/value.rs:Tween for f64", "src/runtime/model/value.rs:Animated::evaluate_or"]}
{"id": "C05", "title": "Hold keyframes hold", "statement": "If keyframe k is a hold keyframe, the animated value is keyframe k's value at every frame in [time(k), time(k+1)), for scalars, points and paths.", "quantifier": "all sorted keyframe lists, all frames inside a hold interval", "why_tests_cant": "a flicker occurs at isolated frames", "anchors": ["src/runtime/model/value.rs:Animated::evaluate_or", "src/runtime/model/animated.rs:Spline::evaluate"]}
{"id": "C06", "title": "Interpolation weight is in [0,1]", "statement": "For strictly increasing keyframe times whose differences do not overflow, the weight used to mix two keyframes is a number between 0 and 1 in IEEE double arithmetic, except exactly at the last keyframe (where it is NaN).", "quantifier": "all strictly sorted finite keyframe times and all finite frames, with IEEE rounding", "why_tests_cant": "rounding of the quotient has to be bounded for all floats", "anchors": ["src/runtime/model/value.rs:Time::frames_and_weight"]}
{"id": "C07", "title": "Linear easing is linear interpolation", "statement": "With the linear easing (handles (0,0),(1,1), the default when a keyframe has no tangents) a tween at weight t is exactly a+(b-a)*t (exact arithmetic, for any root the cubic solver may return).", "quantifier": "all values, all weights in [0,1], every solver returning a genuine root", "why_tests_cant": "continuum of weights; depends on an iterative external solver", "anchors": ["src/runtime/model/value.rs:Easing::LERP", "src/runtime/model/value.rs:Tween for f64"]}
{"id": "C08", "title": "No overshoot inside the unit square", "statement": "If both easing handles lie in the unit square, a tweened scalar stays between the two keyframe values: exactly at every weight that is not within 1e-21 of an end, and up to 4e-11 of their distance at all weights (the code accepts curve parameters slightly outside [0,1]).", "quantifier": "all handles in the unit square, all weights, every solver that returns a genuine root in its accepted range", "why_tests_cant": "continuum of curves and weights", "anchors": ["src/runtime/model/value.rs:Tween for f64"]}
{"id": "C09", "title": "Monotone easing", "statement": "If both easing handles lie in the unit square, the tweened value moves monotonically from the first keyframe value to the second as the frame advances: exactly at weights that are not within 1e-21 of an end, and up to 1e-10 of the distance of the values at all weights.", "quantifier": "all handles in the unit square, all pairs of weights", "why_tests_cant": "relates every pair of frames", "anchors": ["src/runtime/model/value.rs:Tween for f64"]}
{"id": "C10", "title": "Vector values animate componentwise", "statement": "Points, vectors, sizes and colours are tweened component by component, each component exactly as a scalar with the same weight and easing.", "quantifier": "all vectors, weights, easings", "why_tests_cant": "for all inputs", "anchors": ["src/runtime/model/value.rs:Tween for kurbo::Point", "src/runtime/model/value.rs:Tween for peniko::Color"]}
{"id": "C11", "title": "Constant folding is unobservable", "statement": "Converting an animated transform, stroke, repeater, trim, star or brush with no animated property into its fixed form does not change the result of evaluating it at any frame; a rectangle or ellipse that counts as fixed has the same outline at all frames.", "quantifier": "all such objects, all frames (brush: all alphas)", "why_tests_cant": "every frame and every object; the folding evaluates once, at frame 0", "anchors": ["src/runtime/model/animated.rs:Transform::into_model", "src/runtime/model/animated.rs:Brush::into_model", "src/runtime/model/animated.rs:Trim::into_model", "src/runtime/model/animated.rs:Star::into_model", "src/runtime/model/animated.rs:Stroke::into_model", "src/runtime/model/animated.rs:Repeater::into_model", "src/runtime/model/mod.rs:Brush::evaluate"]}
{"id": "C12", "title": "A transform moves the anchor to the position", "statement": "The affine map obtained from an animated transform sends the anchor point to the position, whatever the rotation, scale and skew.", "quantifier": "all transforms, all frames (exact real arithmetic)", "why_tests_cant": "continuum of parameters", "anchors": ["src/runtime/model/animated.rs:Transform::evaluate"]}
{"id": "C13", "title": "A transform scales areas by its scale only", "statement": "The determinant of an evaluated transform is (scale.x/100)*(scale.y/100): rotation, skew and position never change areas.", "quantifier": "all transforms and frames (exact real arithmetic)", "why_tests_cant": "continuum of parameters", "anchors": ["src/runtime/model/animated.rs:Transform::evaluate"]}
{"id": "C14", "title": "Omitted transform fields mean identity", "statement": "A layer or group transform whose optional fields (anchor, scale, skew, skew axis, opacity; rotation for groups) are omitted behaves as if they had their neutral values: no scaling, no skew, full opacity.", "quantifier": "all transforms with omitted fields", "why_tests_cant": "must hold for every combination of omitted fields", "anchors": ["src/import/converters.rs:conv_transform", "src/import/converters.rs:conv_shape_transform", "src/import/defaults.rs"]}
{"id": "C15", "title": "Bezier paths keep their vertices and tangents", "statement": "Importing a bezier with n>0 vertices gives a path that starts with a move to vertex 0 and has one segment per following vertex (plus a closing one back to vertex 0 and a close, iff closed); each segment ends at its vertex and is a straight line if both tangents are zero, otherwise a cubic whose control points are vertex+tangent; missing tangents count as zero. No vertex list makes it panic.", "quantifier": "all vertex/tangent lists of any (mismatched) lengths", "why_tests_cant": "unbounded lists with index arithmetic 3*i+k", "anchors": ["src/runtime/model/spline.rs:SplineToPath::to_path", "src/import/converters.rs:conv_spline", "src/import/converters.rs:conv_shape_geometry"]}
{"id": "C16", "title": "Animated paths hit their keyframes", "statement": "Evaluating an animated path exactly at a keyframe's time produces the path of that keyframe's start shape (every keyframe including the last).", "quantifier": "all strictly sorted path keyframes", "why_tests_cant": "the failing frame is a single float value", "anchors": ["src/runtime/model/animated.rs:Spline::evaluate", "src/runtime/model/spline.rs:SplineToPath for (&[Point],&[Point],f64)"]}
{"id": "C17", "title": "Stars and polygons have their vertices on the radii", "statement": "A star with n points is a closed path with 2n vertices alternately at the outer and inner radius from its centre (a polygon: n vertices at the outer radius); with zero or negative points nothing is drawn.", "quantifier": "all stars, all frames (exact real arithmetic for distances)", "why_tests_cant": "number of points is unbounded and angles are a continuum", "anchors": ["src/runtime/model/animated.rs:Star::evaluate"]}
{"id": "C18", "title": "Rectangles and ellipses are centred on their position", "statement": "A rectangle spans position +- size/2 with the declared corner radius and an ellipse has centre position and radii size/2 at every frame.", "quantifier": "all rectangles, ellipses and frames", "why_tests_cant": "continuum", "anchors": ["src/runtime/model/animated.rs:Rect::evaluate", "src/runtime/model/animated.rs:Ellipse::evaluate"]}
{"id": "C19", "title": "Normalised trim segments are valid", "statement": "The segments produced for a trim lie within [0,1], each with start <= end, and the wrapped second segment starts at 0 and is present only if the first ends at 1 (IEEE double arithmetic, bounded start/end/offset, including the rem_euclid corner where the remainder rounds up to 100).", "quantifier": "all finite trims whose sums do not overflow, with IEEE rounding", "why_tests_cant": "floating-point remainder corners are isolated", "anchors": ["src/runtime/model/fixed.rs:Trim::normalized"]}
{"id": "C20", "title": "Trim keeps the requested length", "statement": "The total length of the normalised trim segments is |end-start|/100, capped at 1 (exact arithmetic, up to the 1e-9 snapping the code performs).", "quantifier": "all trims", "why_tests_cant": "continuum", "anchors": ["src/runtime/model/fixed.rs:Trim::normalized"]}
{"id": "C21", "title": "Trim symmetry and periodicity", "statement": "Swapping start and end, or rotating the offset by whole turns of 360 degrees, does not change a trim.", "quantifier": "all trims, all whole numbers of turns (exact arithmetic)", "why_tests_cant": "continuum, unbounded turns", "anchors": ["src/runtime/model/fixed.rs:Trim::normalized"]}
{"id": "C22", "title": "Trim affects only its own scope", "statement": "Applying a trim leaves the drawn path of every geometry outside the enclosing group unchanged, never changes any transform or the number of geometries, and keeps all later path lookups in bounds.", "quantifier": "all renderer states reachable by rendering shapes, all trims", "why_tests_cant": "buffers are rebuilt and re-indexed for an arbitrary number of geometries", "anchors": ["src/runtime/render.rs:Batch::apply_trim"]}
{"id": "C23", "title": "Full and empty trims", "statement": "A trim covering 100% leaves the picture unchanged; a trim of zero length removes its geometry from the picture, whatever follows it in the group.", "quantifier": "all shape lists containing such a trim", "why_tests_cant": "depends on every possible continuation", "anchors": ["src/runtime/render.rs:Batch::apply_trim", "src/runtime/render.rs:Batch::push_geometry"]}
{"id": "C24", "title": "A trimmed path is a set of sub-segments of the right length", "statement": "Each trimmed path consists of sub-segments of the original path's segments, in order, and (where arc lengths are computed exactly) its length is the requested fraction of the original length.", "quantifier": "all paths, all trims", "why_tests_cant": "unbounded number of segments and continuum of cut points", "anchors": ["src/runtime/render.rs:Batch::apply_trim"]}
{"id": "C25", "title": "Repeater copies geometry with the right transforms", "statement": "A repeater with n copies replaces each geometry of its scope by n copies with the same path, the i-th transformed by the i-th repeater transform, keeps draws attached to the copies of the geometry they painted, and leaves geometry and draws outside its scope untouched; all ranges stay valid.", "quantifier": "all renderer states, all n", "why_tests_cant": "index arithmetic over unbounded lists", "anchors": ["src/runtime/render.rs:Batch::repeat", "src/runtime/model/fixed.rs:Repeater::transform"]}
{"id": "C26", "title": "Each repeater copy is painted once with its own opacity", "statement": "With an n-copy repeater, copy i of the geometry is painted by each draw exactly once, with opacity start+(end-start)*i/n.", "quantifier": "all n, all draws", "why_tests_cant": "all n", "anchors": ["src/runtime/render.rs:Batch::repeat"]}
{"id": "C27", "title": "Layers pushed to the sink are balanced", "statement": "For every composition, frame, transform and alpha, the calls made to the render sink by one append are balanced: every push has a matching pop, every group begin a matching end, properly nested, and no pop ever underflows.", "quantifier": "all compositions (any nesting of instances, masks, mattes), all frames", "why_tests_cant": "unbounded nesting", "anchors": ["src/runtime/render.rs:Renderer::append", "src/runtime/render.rs:Renderer::render_layer"]}
{"id": "C28", "title": "Everything is clipped to the composition", "statement": "The first sink call of an append is a clip layer with the caller's transform and the rectangle (0,0,width,height), its matching pop is the last call, and every draw happens between them.", "quantifier": "all compositions and frames", "why_tests_cant": "for all inputs", "anchors": ["src/runtime/render.rs:Renderer::append"]}
{"id": "C29", "title": "Rendering never panics", "statement": "Rendering any composition whose explicit paths are empty or begin with a move never panics (all slice indexing, subtraction and path construction succeed), for any frame, transform and alpha; the one exception is the allocation for the vertices of a star with more than 2^56 points.", "quantifier": "all compositions with well-formed explicit paths, all frames", "why_tests_cant": "index arithmetic over arbitrary nested shape trees with trims and repeaters", "anchors": ["src/runtime/render.rs:Renderer::render_shapes", "src/runtime/render.rs:Batch"]}
{"id": "C30", "title": "A renderer can be reused", "statement": "The calls made by an append depend only on its arguments, not on anything rendered before with the same renderer: any sequence of appends produces the same calls as fresh renderers.", "quantifier": "all histories of appends", "why_tests_cant": "all histories", "anchors": ["src/runtime/render.rs:Renderer", "src/runtime/render.rs:Batch::clear"]}
{"id": "C31", "title": "Layers render only inside their frame range", "statement": "A layer whose range [in,out) does not contain the frame makes no sink call at all (nor does a NaN frame); in particular at a frame outside every layer's range an append only pushes and pops the clip.", "quantifier": "all compositions and frames", "why_tests_cant": "for all inputs", "anchors": ["src/runtime/render.rs:Renderer::render_layer"]}
{"id": "C32", "title": "Matte layers are not painted by themselves", "statement": "A top-level or precomposition layer marked as a matte makes no sink call unless another rendered layer uses it as its matte.", "quantifier": "all compositions", "why_tests_cant": "for all inputs", "anchors": ["src/runtime/render.rs:Renderer::append"]}
{"id": "C33", "title": "Painter's order", "statement": "Top-level layers are rendered from last to first; the sequence of calls is the concatenation of each non-matte layer's calls in reverse layer order, and layer groups are announced with their position in the list.", "quantifier": "all compositions", "why_tests_cant": "unbounded number of layers", "anchors": ["src/runtime/render.rs:Renderer::append"]}
{"id": "C34", "title": "Parent chains compose", "statement": "A layer's geometry is placed by global * T(ancestor_n) * ... * T(parent) * T(layer) when its parent chain is acyclic; a dangling parent index ends the chain.", "quantifier": "all layer lists and parent assignments", "why_tests_cant": "unbounded chains", "anchors": ["src/runtime/render.rs:Renderer::compute_transform"]}
{"id": "C35", "title": "Parent cycles terminate", "statement": "Computing a layer transform terminates for every parent assignment, cyclic ones included, after at most as many steps as there are layers.", "quantifier": "all parent assignments", "why_tests_cant": "cycles of any length", "anchors": ["src/runtime/render.rs:Renderer::compute_transform"]}
{"id": "C36", "title": "Rendering terminates", "statement": "Rendering any imported composition terminates.", "quantifier": "all imported compositions", "why_tests_cant": "non-termination cannot be observed by a test", "anchors": ["src/runtime/render.rs:Renderer::render_layer", "src/import/converters.rs:process_layers"]}
{"id": "C37", "title": "Opacity is multiplicative", "statement": "The opacity factor applied to a painted brush is the product of the caller's alpha, the opacities (percent) of the enclosing instance layers and of the layer itself, of the enclosing groups, and of the fill or stroke (and, for the copies a repeater makes, of the copy); nothing else, in particular a parent layer's opacity does not leak into its children.", "quantifier": "all compositions, shapes, frames", "why_tests_cant": "unbounded nesting", "anchors": ["src/runtime/render.rs:Renderer::render_layer", "src/runtime/render.rs:Renderer::render_shapes", "src/runtime/render.rs:DrawData::new", "src/runtime/render.rs:Batch::render"]}
{"id": "C38", "title": "Fills and strokes paint exactly the preceding geometry of their group", "statement": "A fill or stroke paints exactly the geometry that precedes it in its own group, including geometry in nested groups, each with the transform of the group it is in, and nothing else.", "quantifier": "all shape trees without trims/repeaters", "why_tests_cant": "unbounded trees and index ranges", "anchors": ["src/runtime/render.rs:Renderer::render_shapes", "src/runtime/render.rs:Batch::push_geometry", "src/runtime/render.rs:Batch::push_draw"]}
{"id": "C39", "title": "Draw order within a layer", "statement": "The fills and strokes of a shape layer reach the sink in the reverse of their document order (first shape on top).", "quantifier": "all shape trees without repeaters", "why_tests_cant": "unbounded trees", "anchors": ["src/runtime/render.rs:Batch::render"]}
{"id": "C40", "title": "Precompositions are time-mapped and composed", "statement": "An instance of a precomposition renders the asset's non-matte layers, last to first, at frame frame/stretch - start/stretch, under the instance layer's transform and opacity; an unknown asset renders nothing.", "quantifier": "all compositions, instances and frames", "why_tests_cant": "unbounded nesting", "anchors": ["src/runtime/render.rs:Renderer::render_layer"]}
{"id": "C41", "title": "Masks enclose exactly the layer's content", "statement": "Each mask of a layer pushes one clip with the layer's transform and the mask's path at that frame, in order, before the layer's content, and is popped right after it.", "quantifier": "all layers, masks, frames", "why_tests_cant": "unbounded numbers of masks", "anchors": ["src/runtime/render.rs:Renderer::render_layer"]}
{"id": "C42", "title": "Mattes are composited by their blend mode", "statement": "A layer with a matte emits: an isolation layer, the matte layer's calls, a layer with the matte blend mode, the layer's own content, two pops, nothing else; the matte is rendered with the caller's transform and alpha, not the layer's.", "quantifier": "all compositions", "why_tests_cant": "unbounded nesting", "anchors": ["src/runtime/render.rs:Renderer::render_layer"]}
{"id": "C43", "title": "Layer groups report the layer's index", "statement": "Every rendered layer is announced to the sink with its name and its position in the layer array it belongs to.", "quantifier": "all rendered layers, including those in precompositions and mattes", "why_tests_cant": "unbounded nesting", "anchors": ["src/runtime/render.rs:RenderSink::begin_layer_group", "src/runtime/render.rs:Renderer::render_layer"]}
{"id": "C44", "title": "Import preserves the layer list", "statement": "Import keeps exactly one runtime layer per source layer, in order, with its name, frame range, stretch and start; composition size, frame rate and frame range are copied.", "quantifier": "all animations", "why_tests_cant": "unbounded lists", "anchors": ["src/import/converters.rs:process_layers", "src/import/converters.rs:conv_animation", "src/import/converters.rs:conv_layer", "src/import/builders.rs"]}
{"id": "C45", "title": "Parent references are resolved", "statement": "After import a layer's parent is the position of the last layer in the same list whose index (0 if absent) is the one referenced, or none if there is none; it is always in bounds.", "quantifier": "all layer lists, with duplicate or missing indices", "why_tests_cant": "unbounded lists with hash-map semantics", "anchors": ["src/import/converters.rs:process_layers"]}
{"id": "C46", "title": "Matte references are resolved", "statement": "After import a layer with a matte mode is matted by the last layer whose index is its explicit matte index if given, otherwise by the nearest preceding matte layer not already consumed by another matted layer; the resulting index is always in bounds, and layers without matte mode get none.", "quantifier": "all layer lists", "why_tests_cant": "state carried along an unbounded list", "anchors": ["src/import/converters.rs:process_layers"]}
{"id": "C47", "title": "Hidden layers only transform", "statement": "A hidden layer draws nothing and is not a matte, but keeps its transform, opacity and parent, so the transforms of its children are the same as if it were visible.", "quantifier": "all animations", "why_tests_cant": "for all inputs and all descendants", "anchors": ["src/import/converters.rs:conv_layer", "src/import/converters.rs:is_layer_hidden"]}
{"id": "C48", "title": "Import fails only on the documented unsupported features", "statement": "Importing an animation panics exactly when one of the parts it converts (the content of hidden layers is not converted) is one of: an asset that is not a precomposition, an Add/HardMix layer blend mode, a layer transform with missing or split rotation, a group transform with split position or rotation, an animated scalar keyframe without value, an easing handle with an array of length other than 1, a star that is not animated and whose vertices do not fit in the address space, or (impossible for parsed animations, C52) a path whose first keyframe has no shape. In every other case it returns a composition.", "quantifier": "all parsed animations", "why_tests_cant": "exact characterisation of a predicate over unbounded documents", "anchors": ["src/import/converters.rs:conv_animation", "src/import/converters.rs:conv_scalar", "src/import/converters.rs:conv_keyframe_handle", "src/import/converters.rs:conv_blend_mode"]}
{"id": "C49", "title": "Gradient stops", "statement": "Import of gradient data yields min(count, len/4) stops (count >= 1) with offsets and colours copied in order and opacity 1 when there is no opacity data; with opacity data in [0,1] every stop opacity is in [0,1].", "quantifier": "all gradient arrays and counts", "why_tests_cant": "unbounded arrays with chunk arithmetic", "anchors": ["src/import/converters.rs:conv_stops", "src/import/converters.rs:conv_gradient_colors"]}
{"id": "C50", "title": "Hold keyframes hold gradients", "statement": "On a hold keyframe an animated gradient keeps the keyframe's stops (offsets and colours) until the next keyframe.", "quantifier": "all animated gradients and frames in a hold interval", "why_tests_cant": "isolated keyframes", "anchors": ["src/runtime/model/animated.rs:ColorStops::evaluate_inner"]}
{"id": "C51", "title": "Keyframe import keeps times and values", "statement": "Importing animated properties yields as many values as times, times in the order of the keyframes, each carrying its keyframe's value and hold flag; sorted documents give sorted times.", "quantifier": "all keyframe lists", "why_tests_cant": "unbounded lists; one keyframe may yield two entries", "anchors": ["src/import/converters.rs:conv_keyframes", "src/import/converters.rs:conv_scalar"]}
{"id": "C52", "title": "Path keyframe validation makes import safe", "statement": "Every animated path accepted by the parser has a start shape on all keyframes but possibly the last, and at least two keyframes if the last has none; consequently importing it never underflows the keyframe index.", "quantifier": "all keyframe arrays", "why_tests_cant": "unbounded arrays", "anchors": ["src/schema/animated_properties/shape_property.rs:deserialize_keyframes", "src/import/converters.rs:conv_shape_geometry"]}
{"id": "C53", "title": "Group import keeps supported shapes in order", "statement": "Importing a shape list keeps geometry, fills, strokes, trims and non-empty groups in document order, drops the rest, and takes the last transform element of a group as the group's transform.", "quantifier": "all shape trees", "why_tests_cant": "unbounded trees", "anchors": ["src/import/converters.rs:conv_shape", "src/import/converters.rs:conv_draw", "src/import/converters.rs:conv_geometry"]}
{"id": "C54", "title": "Declared opacity is honoured", "statement": "The opacity of an imported fill or stroke, solid or gradient, is the one declared in the document.", "quantifier": "all fills, strokes, gradient fills and gradient strokes", "why_tests_cant": "for all inputs", "anchors": ["src/import/converters.rs:conv_draw"]}
{"id": "C55", "title": "Matte mode Normal means no matte", "statement": "A layer with matte mode 0 (Normal) renders like a layer with no matte mode.", "quantifier": "all compositions", "why_tests_cant": "for all inputs", "anchors": ["src/import/builders.rs", "src/import/converters.rs:process_layers", "src/runtime/render.rs:Renderer::render_layer"]}
{"id": "C56", "title": "Imported pictures never panic the renderer", "statement": "Any composition obtained by parsing and importing a document can be rendered at any frame without panicking.", "quantifier": "all documents, all frames", "why_tests_cant": "composition of parser, importer and renderer over all documents", "anchors": ["src/runtime/mod.rs:Composition::from_json", "src/import/converters.rs:conv_animation", "src/runtime/render.rs:Renderer::append"]}
{"id": "C57", "title": "Assets: last definition wins", "statement": "If several precomposition assets share an id, instances use the last; distinct ids never interfere.", "quantifier": "all asset lists", "why_tests_cant": "hash-map semantics over unbounded lists", "anchors": ["src/import/converters.rs:conv_animation"]}
{"id": "C58", "title": "Layer and asset dispatch", "statement": "A layer object is parsed by its integer type 0..4 only and any other type (or none) is rejected; an asset with layers is a precomposition, otherwise type 3, or lacking both width and height, is rejected.", "quantifier": "all JSON objects", "why_tests_cant": "for all JSON values", "anchors": ["src/schema/layers/mod.rs:AnyLayer::deserialize", "src/schema/assets/mod.rs:AnyAsset::deserialize"]}
{"id": "C59", "title": "Schema round trip", "statement": "Serialising a parsed animation and parsing it again gives the same animation.", "quantifier": "all parsed animations", "why_tests_cant": "unbounded documents, untagged unions and flattened fields", "anchors": ["src/schema/animation/animation.rs", "src/schema"]}
{"id": "C60", "title": "Gradient opacity ramps", "statement": "A colour stop at the offset of one of the gradient's opacity stops is imported with that opacity.", "quantifier": "all gradient arrays with opacity data at increasing offsets", "why_tests_cant": "unbounded arrays", "anchors": ["src/import/converters.rs:conv_stops"]}
{"id": "C61", "title": "What a transform does to a point", "statement": "At every frame a transform maps a point by subtracting the anchor, scaling by scale/100, shearing by tan(skew) along the skew axis, rotating by rotation degrees and adding the position (x and y given separately or together), with the values the properties have at that frame; likewise for imported layer and group transforms.", "quantifier": "all transforms, frames and points (exact real arithmetic)", "why_tests_cant": "continuum of parameters", "anchors": ["src/runtime/model/animated.rs:Transform::evaluate", "src/import/converters.rs:conv_transform", "src/import/converters.rs:conv_shape_transform"]}
{"id": "C62", "title": "Layer blend modes are honoured", "statement": "A layer with a blend mode is composited with that blend mode: its content is enclosed in a pushed layer with the mode.", "quantifier": "all compositions and frames", "why_tests_cant": "unbounded nesting", "anchors": ["src/import/converters.rs:conv_blend_mode", "src/runtime/render.rs:Renderer::render_layer"]}
{"id": "C63", "title": "Masks are applied as declared", "statement": "A layer shows the part of its content selected by its masks: added, subtracted, intersected as each mask's mode says, inverted and expanded if declared, with the mask's opacity.", "quantifier": "all documents and frames", "why_tests_cant": "combinations of any number of masks", "anchors": ["src/import/builders.rs", "src/runtime/render.rs:Renderer::render_layer"]}
{"id": "C64", "title": "Hidden shapes are not drawn", "statement": "A document renders as if its shapes marked hidden were absent.", "quantifier": "all documents", "why_tests_cant": "unbounded shape trees", "anchors": ["src/import/converters.rs:conv_shape", "src/import/converters.rs:conv_draw"]}
{"id": "C65", "title": "Fill rules are honoured", "statement": "A fill with the even-odd rule is filled with the even-odd rule, one with the non-zero rule with the non-zero rule.", "quantifier": "all documents", "why_tests_cant": "for all inputs", "anchors": ["src/import/converters.rs:conv_draw", "src/runtime/vello.rs:draw"]}
{"id": "C66", "title": "Unsupported attributes have no effect", "statement": "Attributes that are not implemented do not influence import and rendering at all: spatial tangents of positions, expressions, animated flags, dashes, shape directions, trim modes, gradient highlights, auto-orientation, motion blur, solid colours, names of shapes, markers and metadata do not change the imported composition (nor whether import panics), and time remapping and layer sizes do not change the calls made when rendering.", "quantifier": "all pairs of documents that differ only in such attributes", "why_tests_cant": "non-interference over unbounded documents", "anchors": ["src/import/converters.rs:conv_animation", "src/runtime/render.rs:Renderer::append"]}
{"id": "C67", "title": "A vello scene shows what the renderer draws", "statement": "Rendering to a vello scene paints exactly what the renderer draws, in the same order, strokes as strokes and the rest as fills; pushed layers are balanced and everything is clipped to the composition.", "quantifier": "all compositions and frames", "why_tests_cant": "unbounded nesting", "anchors": ["src/runtime/vello.rs:RenderSink for vello::Scene", "src/runtime/vello.rs:render_to_vello_scene"]}
{"id": "C68", "title": "Imported properties play as the document says", "statement": "At every frame each coordinate of an imported animated property (scalar, vector, position, colour) has the value given by the document's keyframes: the first value before the first keyframe, the last value from the last keyframe on, in between the value held or moved along the easing curve with the handles which the earlier keyframe has for that coordinate (missing handles mean linear ends).", "quantifier": "all animated properties with keyframes in order, all frames (exact arithmetic, exact cubic solver)", "why_tests_cant": "continuum of frames and handles, unbounded keyframe lists; one keyframe may yield two entries", "anchors": ["src/import/converters.rs:conv_keyframes", "src/import/converters.rs:conv_scalar", "src/runtime/model/value.rs:Time::frames_and_weight", "src/runtime/model/value.rs:Tween"]}
{"id": "C69", "title": "Luma mattes look at the luminance", "statement": "A layer with a luma matte mode is composited according to the luminance of its matte, a layer with an alpha matte mode according to its alpha (SrcIn, SrcOut if inverted).", "quantifier": "all documents and layers", "why_tests_cant": "the two kinds of matte differ only in rendered pixels, which tests do not compare", "anchors": ["src/import/builders.rs:setup_layer_base", "src/import/builders.rs:setup_precomp_layer", "src/import/builders.rs:setup_shape_layer", "src/runtime/render.rs:Renderer::render_layer"]}
{"id": "C70", "title": "Precompositions are clipped to their size", "statement": "What a precomposition layer shows is clipped to the rectangle of the layer's width and height.", "quantifier": "all compositions, frames and transforms", "why_tests_cant": "unbounded nesting", "anchors": ["src/runtime/render.rs:Renderer::render_layer", "src/import/builders.rs:setup_precomp_layer"]}
{"id": "C71", "title": "Mattes take nothing away from the picture", "statement": "The layers pushed on the sink to composite a matte cover everything that is visible: they cut off nothing but what the matte removes.", "quantifier": "all compositions, frames and transforms", "why_tests_cant": "needs a matte inside a transformed precomposition", "anchors": ["src/runtime/render.rs:Renderer::render_layer"]}
{"id": "C72", "title": "The transform given to append is applied to everything", "statement": "Rendering with the transform T*S makes the calls of rendering with S, with every transform multiplied by T from the left, and the same panics and non-termination.", "quantifier": "all compositions and frames, all invertible T and all S (exact arithmetic)", "why_tests_cant": "continuum of transforms, unbounded nesting", "anchors": ["src/runtime/render.rs:Renderer::append", "src/runtime/render.rs:Renderer::compute_transform", "src/runtime/render.rs:Batch::push_geometry", "src/runtime/render.rs:Batch::repeat"]}
{"id": "C73", "title": "Still pictures do not change", "statement": "If no property of a composition is animated, rendering does exactly the same at any two frames at which the same layers are visible.", "quantifier": "all compositions without animation, all pairs of frames with the same visible layers (including those of assets at the frames they are shown at)", "why_tests_cant": "continuum of frames, unbounded nesting", "anchors": ["src/runtime/render.rs:Renderer::render_layer", "src/runtime/render.rs:Renderer::render_shapes", "src/runtime/model/value.rs:Value::evaluate"]}
{"id": "C74", "title": "Retiming", "statement": "If all times of a document or of a composition (keyframes, layer ranges, starts of precompositions) are moved by t -> a*t+b with a > 0 and the stretch of precompositions is multiplied by a, it can be imported if it could be before, and rendering at frame a*t+b does what it did before at frame t.", "quantifier": "all documents and compositions, frames, a > 0 and b (exact arithmetic)", "why_tests_cant": "continuum, unbounded keyframe lists and nesting", "anchors": ["src/runtime/model/value.rs:Time::frames_and_weight", "src/runtime/model/animated.rs", "src/runtime/render.rs:Renderer::render_layer"]}
{"id": "C75", "title": "Outline of stars and polygons", "statement": "At every frame a star or polygon is drawn as the closed outline that starts at the top and runs clockwise: corners at equal angles on the outer (and, for stars, alternately the inner) radius, turned by the rotation; each edge a curve whose handles are tangent to the circles at its ends and 4/3*tan(step/2)*radius*roundness/100 long, or a line where the handles are negligible; with the values the document's properties have at the frame.", "quantifier": "all stars and polygons with at least half a point and at most 2^56 points, all frames (exact arithmetic)", "why_tests_cant": "continuum of parameters, unbounded number of corners", "anchors": ["src/runtime/model/animated.rs:Star::evaluate", "src/import/converters.rs:conv_geometry", "src/import/converters.rs:conv_polystar_geometry"]}
{"id": "C76", "title": "Fills and strokes paint with what the document says", "statement": "Every draw call of a rendered document is that of one of its fills and strokes, with the properties these have at the frame: the declared colour, or the gradient from the start to the end point (linear) or around the start point through the end point (radial) with the declared stops; strokes with the declared width, miter limit (4 if none), join and cap (bevel and butt, for gradients round, if none); the declared opacity (gradients: C54) multiplied in.", "quantifier": "all documents that can be imported, all frames, all draw calls, double precision (the very same numbers) and exact arithmetic", "why_tests_cant": "continuum of parameters, unbounded shape trees", "anchors": ["src/import/converters.rs:conv_draw", "src/import/converters.rs:conv_gradient_colors", "src/runtime/model/animated.rs:Stroke::evaluate", "src/runtime/model/animated.rs:Gradient::evaluate", "src/runtime/model/animated.rs:Brush::evaluate", "src/runtime/render.rs:Renderer::render_shapes"]}
{"id": "C77", "title": "Layers have the attributes the document gives them", "statement": "Every imported layer, of the composition or of an asset, has the transform, opacity (100 if none), blend mode (none for Normal, otherwise the mix function with the same number), masks (those with a path, in order, with path and opacity), matte flag and content (shapes, reference to a precomposition with its time remapping, nothing for solid, null, image and hidden layers) of the layer at the same position of the document.", "quantifier": "all documents that can be imported, all layers", "why_tests_cant": "unbounded layer lists, masks, shape trees and keyframes", "anchors": ["src/import/converters.rs:conv_layer", "src/import/converters.rs:conv_transform", "src/import/converters.rs:conv_blend_mode", "src/import/builders.rs"]}
{"id": "C78", "title": "The format of documents", "statement": "The parser accepts a JSON value exactly if it describes an animation in the format (which key holds which attribute of documents, layers, transforms, masks, shapes, properties and keyframes, of what type, and which keys may be missing), and reads exactly what the value describes; a value describes at most one animation, and an animation that was read is written in the same format (if its image assets have a size). Loading fails with an error exactly if the value describes no animation, and a loaded composition has the frame range, rate, size, layers and assets with the attributes that the value describes.", "quantifier": "all JSON values", "why_tests_cant": "untagged unions, flattened structures and unbounded nesting; round trips cannot notice a key that is misread and miswritten alike", "anchors": ["src/schema", "src/runtime/mod.rs:Composition::from_json", "src/import/converters.rs:conv_animation"]}
{"id": "C79", "title": "Opacity multiplies the opacity of every brush", "statement": "Rendering with the opacity x*a makes the calls of rendering with a, except that the opacity of the colour or of all gradient stops of every draw call is multiplied by x (and the same panics and non-termination); a layer with opacity o percent and no matte makes the calls it would make with 100 percent, with the opacity of all brushes multiplied by o/100.", "quantifier": "all compositions, frames, transforms and opacities (exact arithmetic)", "why_tests_cant": "continuum of opacities, unbounded nesting", "anchors": ["src/runtime/render.rs:Renderer::append", "src/runtime/render.rs:Renderer::render_layer", "src/runtime/render.rs:Batch::render", "src/runtime/render.rs:Batch::repeat"]}
{"id": "C80", "title": "A composition shows its layers one in front of the other", "statement": "What a rendered composition shows at a pixel is the picture of its layers that are not mattes, each in front of the layers after it in the list, cut off at the borders of the composition, in front of what was there: nothing changes outside of the composition, and where the first layer is opaque no other layer is visible.", "quantifier": "all compositions, frames and transforms, all pixels, all rasterisers, all backgrounds (exact compositing)", "why_tests_cant": "a statement about the pixels of all pictures", "anchors": ["src/runtime/render.rs:Renderer::append", "src/runtime/render.rs:Renderer::render_layer"]}
{"id": "C81", "title": "A matted layer shows through its matte", "statement": "At every pixel inside the composition a layer with an alpha matte shows its own picture with its opacity multiplied by the opacity of the picture of the matte layer at that pixel, one with an inverted alpha matte multiplied by one minus that opacity.", "quantifier": "all compositions, layers, frames and transforms, all pixels and rasterisers (exact compositing)", "why_tests_cant": "a statement about the pixels of all pictures", "anchors": ["src/runtime/render.rs:Renderer::render_layer", "src/import/builders.rs"]}
{"id": "C82", "title": "A masked layer shows only what is inside all its masks", "statement": "At every pixel a layer with masks shows its own picture times the part of the pixel that is inside each mask; outside of any of its masks it shows nothing. The order of the masks does not matter.", "quantifier": "all layers, masks and frames, all pixels and rasterisers (exact compositing)", "why_tests_cant": "a statement about the pixels of all pictures, any number of masks", "anchors": ["src/runtime/render.rs:Renderer::render_layer"]}
{"id": "C83", "title": "Opacity fades a picture as a whole", "statement": "With opacity x, a layer or composition shows at every pixel the picture it shows with opacity 1, faded by x; in particular nothing at opacity 0.", "quantifier": "all layers and compositions, all opacities, all pixels and rasterisers (exact compositing)", "why_tests_cant": "a statement about the pixels of all pictures; overlapping shapes and mattes differ only in pixels", "anchors": ["src/runtime/render.rs:Renderer::append", "src/runtime/render.rs:Renderer::render_layer"]}
{"id": "C84", "title": "A trim keeps the declared part of an outline", "statement": "A trim with start s and end e percent and an offset of o degrees keeps the positions x of an outline (0 its start, 1 its end) for which x + k lies between s/100 + o/360 and e/100 + o/360 for some whole number k, and no others; s, e and o are the values which the properties of the document have at the frame.", "quantifier": "all trims whose range is not within 1e-9 of 0 or 100 percent or is exactly 0 or at least 100 percent, all positions, all frames (exact arithmetic)", "why_tests_cant": "continuum of parameters", "anchors": ["src/runtime/model/fixed.rs:Trim::normalized", "src/runtime/model/animated.rs:Trim::evaluate", "src/import/converters.rs:conv_shape"]}
{"id": "C85", "title": "Numbers of layers and ids of assets are only names", "statement": "If the layers of a document (and of each asset) get other numbers and its assets other ids, different ones staying different and all references changed alike, the document is imported with the same panics, and rendering makes the same calls on the sink at every frame.", "quantifier": "all documents, all renamings, all frames", "why_tests_cant": "non-interference over unbounded documents", "anchors": ["src/import/converters.rs:conv_animation", "src/import/builders.rs", "src/runtime/render.rs:Renderer::append"]}
{"id": "C86", "title": "Only assets in use matter", "statement": "Assets that no visible layer refers to (directly, or through the layers of other assets in use), earlier assets with the same id as a later one, and the order of assets with different ids have no influence on the calls made when rendering.", "quantifier": "all documents that can be imported, all frames", "why_tests_cant": "reachability over unbounded, possibly cyclic asset graphs", "anchors": ["src/import/converters.rs:conv_animation", "src/runtime/render.rs:Renderer::render_layer"]}
{"id": "C87", "title": "Precomposing changes nothing", "statement": "If the layers of a document are moved into a new asset and replaced by one instance of it with a neutral transform, over the same frames, the document is still imported, and rendering makes the same calls in the same order inside one more group; only the positions of the layers in the list are not announced any more.", "quantifier": "all documents that can be imported, all frames in the range (exact arithmetic)", "why_tests_cant": "refinement over unbounded documents", "anchors": ["src/import/converters.rs:conv_animation", "src/runtime/render.rs:Renderer::append", "src/runtime/render.rs:Renderer::render_layer"]}
{"id": "C88", "title": "Playback loops", "statement": "The player of the example application shows, t seconds after the start, the frame start + t*rate, less a whole number of passes through the composition, so that the frame is in the range [start, end) of the composition: the first pass runs from the start towards the end, and the same frame is shown a whole number of passes later.", "quantifier": "all compositions with a non-empty range, all frame rates and times", "why_tests_cant": "continuum of times; the end is reached by rounding only", "anchors": ["examples/scenes/src/lottie.rs:render_lottie_contents", "examples/scenes/src/picking.rs:picking_scene"]}
{"id": "C89", "title": "Picking does not change the picture", "statement": "Rendering a frame through the sink of the picking example makes the same calls on the scene, leaves the same renderer and panics alike as rendering the frame without it, wherever the cursor is; only overlays are added.", "quantifier": "all compositions, times, cursors, windows and cameras", "why_tests_cant": "refinement over unbounded compositions", "anchors": ["examples/scenes/src/picking.rs:RenderSink for PickingScene", "examples/scenes/src/picking.rs:picking_scene"]}
{"id": "C90", "title": "Hits of the picking example", "statement": "The hits of a frame are the layers of the composition that draw something, from the back to the front, each with its name and the smallest rectangle that contains the images of the bounding boxes of everything drawn on its behalf (its content, its matte, the layers of its asset); every point of a drawn outline is in the rectangle of its layer, and an outline without segments counts as the origin.", "quantifier": "all compositions and frames (rectangles: exact arithmetic)", "why_tests_cant": "unbounded nesting of groups", "anchors": ["examples/scenes/src/picking.rs:LayerBoundsTracker"]}
{"id": "C91", "title": "Picking finds the front-most layer", "statement": "The layer found under the cursor is the first layer of the composition whose rectangle contains the place of the cursor in the scene; none is found if there is no such layer or no cursor; its index is always one of the hits.", "quantifier": "all compositions, frames, cursors, windows and cameras", "why_tests_cant": "unbounded number of layers", "anchors": ["examples/scenes/src/picking.rs:pick_layer", "examples/scenes/src/picking.rs:LayerBoundsTracker"]}
{"id": "C92", "title": "The cursor's place in the scene", "statement": "The place of the cursor in the scene is the one point that is displayed under the cursor, the scene being displayed by the camera after the largest scale at which the picture fits the window.", "quantifier": "all cursors, windows, resolutions and invertible cameras (exact arithmetic)", "why_tests_cant": "continuum of parameters", "anchors": ["examples/scenes/src/picking.rs:cursor_to_scene"]}
{"id": "C93", "title": "Frame statistics are those of the last hundred frames", "statement": "The statistics of the example application never panic when a frame time is added and always hold the times of the last hundred frames, their number and sum; the extreme values are those since they were cleared; the average displayed is the mean of the held times and the frame rate its reciprocal.", "quantifier": "all sequences of frame times (at most 2^57 microseconds) and of clearing the extreme values", "why_tests_cant": "unbounded sequences", "anchors": ["examples/with_winit/src/stats.rs:Stats"]}
{"id": "C94", "title": "The statistics can be drawn", "statement": "The panel of the statistics is drawn without panicking: it is a rectangle in the lower right corner of the window, with one bar for each frame in order, standing on the lower edge, with heights in proportion to the frame times (times beyond the scale fill the graph) inside the panel, and lines at 8.33, 16.66 and 33.33 ms as far as they are below the scale.", "quantifier": "all statistics and windows", "why_tests_cant": "continuum of sizes, all combinations of frame times", "anchors": ["examples/with_winit/src/stats.rs:Snapshot::draw_layer"]}
{"id": "C95", "title": "Fingers on the screen", "statement": "The touch state always lists exactly the fingers that are down, with their positions; the gesture of a frame compares their average position, spread and direction with the last frame, never the fingers before one was put down or lifted: putting a finger down or lifting it does not move the picture.", "quantifier": "all sequences of touch events and frames (gestures: exact arithmetic)", "why_tests_cant": "unbounded sequences of events", "anchors": ["examples/with_winit/src/multi_touch.rs:TouchState"]}
{"id": "C96", "title": "The picture follows the fingers", "statement": "When the fingers are moved by a similarity (moved, turned, spread), every point of the picture under a finger stays under it.", "quantifier": "all positions and movements of one or more fingers, all cameras (exact arithmetic)", "why_tests_cant": "continuum of movements", "anchors": ["examples/with_winit/src/multi_touch.rs:TouchState::info", "examples/with_winit/src/lib.rs:run"]}
{"id": "C97", "title": "Mouse and keys move the camera as documented", "statement": "Scrolling zooms about the cursor, Q and E rotate about the cursor, dragging moves the picture with the cursor, space resets the camera; whatever the events, the picture is displayed without distortion (by a similarity), which is invertible as long as there are never several fingers at one place.", "quantifier": "all sequences of events (exact arithmetic)", "why_tests_cant": "unbounded sequences of events, continuum of positions", "anchors": ["examples/with_winit/src/lib.rs:run"]}
{"id": "C98", "title": "Going through the scenes", "statement": "Every redraw displays the scene reached from the first one by the arrow keys and touches in the lower corners, in a circle, with the antialiasing reached by the key M, and tells the scene the cursor, the size of the window and the number set by the arrow keys; when the scene changes, the camera is reset, otherwise it is kept.", "quantifier": "all sequences of less than 2^31 events, all numbers of scenes", "why_tests_cant": "unbounded sequences of events", "anchors": ["examples/with_winit/src/lib.rs:run"]}
{"id": "C99", "title": "The viewer does not panic", "statement": "With at least one scene to display, no sequence of events makes the viewer panic.", "quantifier": "all sequences of events", "why_tests_cant": "unbounded sequences of events and frame times", "anchors": ["examples/with_winit/src/lib.rs:run", "examples/with_winit/src/stats.rs:Snapshot::draw_layer"]}
{"id": "C100", "title": "What is picked is what is displayed", "statement": "Whatever has happened to the camera and the window, the place in the scene that picking computes for a point of the window is the one that is displayed at that point.", "quantifier": "all sequences of events, all points (exact arithmetic)", "why_tests_cant": "unbounded sequences of events, two independent computations in two crates", "anchors": ["examples/with_winit/src/lib.rs:run", "examples/scenes/src/picking.rs:cursor_to_scene"]}
{"id": "C101", "title": "Navigation fingers do nothing else", "statement": "A finger put down in the lower third of the window does what an arrow key does (in the left and right thirds) and otherwise, until and including when it is lifted, has no influence on what is displayed.", "quantifier": "all sequences of events", "why_tests_cant": "unbounded interleavings of events of several fingers", "anchors": ["examples/with_winit/src/lib.rs:run"]}
{"id": "C102", "title": "Downloads on the command line", "statement": "An argument name@url is downloaded from url under that name; a URL alone is downloaded from that URL under the name of the file it ends with, without .json.", "quantifier": "all arguments", "why_tests_cant": "unbounded texts; several slashes and several .json in one URL", "anchors": ["examples/scenes/src/download.rs:parse_download"]}
{"id": "C103", "title": "Each download has its own file", "statement": "A download is stored in the directory of downloads under its name with the extension json; different names are different files.", "quantifier": "all names and directories", "why_tests_cant": "for all texts", "anchors": ["examples/scenes/src/download.rs:LottieDownload::file_path"]}
{"id": "C104", "title": "Completed downloads are complete", "statement": "A download that is reported complete has created its file with exactly the bytes that the server sent, within the size limit and of the expected size if one is known; no file is ever overwritten and no other file is touched; nothing is requested if the server reports another size; a file that the server has in the expected size is downloaded.", "quantifier": "all servers, files and limits", "why_tests_cant": "all behaviours of the server and the file system", "anchors": ["examples/scenes/src/download.rs:LottieDownload::fetch"]}
{"id": "C105", "title": "Failed downloads leave nothing behind", "statement": "After a failed download the file is not there, so that the next run downloads it.", "quantifier": "all servers, files and limits", "why_tests_cant": "all behaviours of the server and the file system", "anchors": ["examples/scenes/src/download.rs:LottieDownload::fetch", "examples/scenes/src/download.rs:Download::action"]}
{"id": "C106", "title": "The download command counts right", "statement": "The download command does not panic, attempts the wanted downloads in order, goes on after a failure exactly if the answer is yes, and reports the numbers of complete, failed and skipped downloads; after success without questions all wanted files are there and the next run has nothing to do; no existing file is changed and only wanted files are created.", "quantifier": "all arguments, servers, files and answers", "why_tests_cant": "unbounded lists of downloads, all interleavings of failures and answers", "anchors": ["examples/scenes/src/download.rs:Download::action", "examples/scenes/src/download.rs:LottieDownload::fetch"]}
{"id": "C107", "title": "The default downloads fit together", "statement": "With an empty directory and a server that has the default files in their expected sizes, the download command completes all of the default downloads, each under its name.", "quantifier": "all servers and directories of this kind", "why_tests_cant": "hundreds of entries whose names, sizes and URLs must not clash, over all servers", "anchors": ["examples/scenes/src/download/default_downloads.rs:default_downloads", "examples/scenes/src/download.rs:Download::action"]}
{"id": "C108", "title": "The list of scenes", "statement": "A directory on the command line gives one scene for each of its files name.json, with that name, ordered by name without regard to case, whatever the order in which the system lists the files; if something cannot be read there are no scenes but an error.", "quantifier": "all directories, all orders of listing", "why_tests_cant": "unbounded directories, orders of listing that do not occur in tests", "anchors": ["examples/scenes/src/lottie.rs:scene_from_files_inner", "examples/scenes/src/lottie.rs:example_scene_of"]}
{"id": "C109", "title": "Overlays of the picking example", "statement": "The overlays of a frame are drawn without panicking: each hit is covered by its rectangle and labelled with its name at its upper left corner; the layer found under the cursor, and no other, has the bright colours, the thick outline and the large label; its name is shown beside the cursor.", "quantifier": "all compositions, frames, cursors, windows and cameras (exact arithmetic)", "why_tests_cant": "unbounded number of layers", "anchors": ["examples/scenes/src/picking.rs:picking_scene"]}
{"id": "C110", "title": "Layout of text", "statement": "In the text drawn by the example application each glyph of a line stands where the previous one ends, and each line begins at the left one line height below the previous line; line breaks have no glyph.", "quantifier": "all texts and fonts (exact arithmetic)", "why_tests_cant": "unbounded texts", "anchors": ["examples/scenes/src/simple_text.rs:RobotoText::add_var_run"]}
{"id": "C111", "title": "Animated values do not jump", "statement": "Between and at keyframes that are not held, an animated number, vector, position or colour changes continuously with the frame: no jumps, and without easing no faster than the fastest pair of adjacent keyframes demands.", "quantifier": "all animations with keyframes in order and easing handles in the unit square, all frames (exact arithmetic)", "why_tests_cant": "continuum of frames; a jump between two tested frames is not seen", "anchors": ["src/runtime/model/value.rs:Animated::evaluate", "src/runtime/model/value.rs:Time::frames_and_weight"]}
{"id": "C112", "title": "Removing a layer nobody refers to", "statement": "If a layer is no other layer's parent or matte, and is itself neither a matte nor matted, in a document without cycles of parents, the document without it is imported, and rendering makes the same calls at every frame except those of the removed layer, which were all in one place; the positions announced with the groups may shift. Outside the frames of the layer nothing else changes, and removing a hidden layer removes no drawing.", "quantifier": "all documents that can be imported, all layers of this kind, all frames", "why_tests_cant": "all references of the document are renumbered by the importer; unbounded lists and chains of parents", "anchors": ["src/import/converters.rs:conv_animation", "src/import/builders.rs", "src/runtime/render.rs:Renderer::append", "src/runtime/render.rs:Renderer::compute_transform"]}
{"id": "C113", "title": "The format of layer styles and text constants", "statement": "A JSON value is read as a layer style (colour overlay, gradient overlay, outer glow, satin) exactly if it is an object whose keys hold the attributes as documented, all optional except the kind; each constant (kind of style, capitals, justification, grouping, units, shape of a range, origin of a font) has the documented number; what is written of a style or constant is read back as the same.", "quantifier": "all JSON values", "why_tests_cant": "unbounded JSON values; all combinations of missing keys", "anchors": ["src/schema/styles/satin_style.rs:SatinStyle", "src/schema/styles/gradient_overlay_style.rs:GradientOverlayStyle", "src/schema/styles/layer_style.rs:StyleType", "src/schema/constants/text_justify.rs:TextJustify"]}
{"id": "C114", "title": "Animated values stay in range in double precision", "statement": "In the double precision arithmetic that the code uses, rounding included, an imported animated number, vector, position or colour whose easing handles are in the unit square is a finite number at every frame and stays in the range of the values of its keyframes, up to 5e-11 of the width of the range plus one rounding error of the size of its ends (an opacity from 0 to 100 is never below -1e-8 or above 100 + 1e-8); colour channels are never above 1 and the alpha of an opaque colour is exactly 1.", "quantifier": "all properties with at least one keyframe and values up to 2^1000, in any order of times, all frames including NaN and infinities, whatever roots the cubic solver returns", "why_tests_cant": "rounding errors at every step over the continuum of handles, values and frames", "anchors": ["src/runtime/model/value.rs:Animated::evaluate", "src/runtime/model/value.rs:Tween for f64", "src/import/converters.rs:conv_scalar"]}
{"id": "C115", "title": "Placement in double precision is accurate", "statement": "In the double precision arithmetic that the code uses, rounding included, the matrix of an imported layer transform with moderate numbers (coordinates up to 8000, scales up to 1500 per cent, rotations up to 4000 degrees, skews up to 59 degrees) is finite at every frame and puts every point with coordinates up to 8192 within 2^-20 of a pixel of the place given by the transform's definition (skew, scale, rotate about the anchor, move to the position) from the values of the properties at that frame; within 2^-26 if there is no skew.", "quantifier": "all layer transforms of this kind, animated or not, all frames including NaN and infinities, all points, all mathematical libraries whose sine, cosine and tangent are accurate to 2^-52 and 2^-50", "why_tests_cant": "rounding errors of some fifty operations over the continuum of values and points", "anchors": ["src/runtime/model/animated.rs:Transform::evaluate", "src/import/converters.rs:conv_transform"]}
{"id": "C116", "title": "Eased values are accurate in double precision", "statement": "In the double precision arithmetic that the code uses, rounding included, an animated number or point whose easing handles are in the unit square is, at a frame between two keyframes, within 1e-10 of the difference of their values (plus one rounding error) of the value that the easing curve prescribes at a moment that differs by at most 1e-10 of the time between the keyframes, plus the error of the cubic solver; without easing handles it is the linear interpolation up to these errors.", "quantifier": "all properties with keyframes in order, at least 2^-1000 of a frame apart, values and times up to 2^1000; all frames between two keyframes of which the first is not held; all cubic solvers of any given accuracy", "why_tests_cant": "rounding errors at every step over the continuum of handles, values and frames", "anchors": ["src/runtime/model/value.rs:Animated::evaluate", "src/runtime/model/value.rs:Tween for f64", "src/runtime/model/value.rs:Time::frames_and_weight", "src/import/converters.rs:conv_scalar"]}
{"id": "C117", "title": "What is drawn is what the document says", "statement": "Rendering a document at a frame clips to its size and draws its layers, the last one first: each layer that is there at the frame, unless it is a matte, is announced with its name and position, composed with its matte, clipped by its masks, placed by its transform after those of its parents (if they go round in a circle, as many of them as there are layers) and the given one, with its opacity times the given one; a shape layer makes its fills and strokes from the last to the first, each of all the outlines before it in its group (those of inner groups included), where geometry with the same transform without a fill or stroke in between is one outline, also across groups, under the transforms and opacities of all enclosing groups; a trim cuts all outlines before it in its group, also those of fills and strokes before it (if it leaves nothing, and geometry with the same transform follows without a fill or stroke in between, then this geometry is drawn with all geometry of the layer before it); repeaters and other modifiers do nothing; a precomposition draws the layers of the last asset with its name at the time (frame - start) / stretch. No other calls are made.", "quantifier": "all documents that can be imported; all frames, transforms and opacities; double precision (the calls are the same to the last bit, every product and quotient taken in the order that is specified) and exact arithmetic", "why_tests_cant": "unbounded documents; the whole way from the document to the calls", "anchors": ["src/import/converters.rs:conv_animation", "src/import/converters.rs:conv_shape", "src/import/builders.rs", "src/runtime/render.rs:Renderer::append", "src/runtime/render.rs:Batch"]}
{"id": "C118", "title": "Exactly when rendering returns", "statement": "Rendering a document at a frame returns if and only if there is no endless chain of layers that begins with a layer of the document other than a matte and goes on from a layer that is there at its frame to its matte at the same frame, or, if it is a precomposition that is not hidden, to a layer other than a matte of the last asset with its name at the time frame / stretch + -start / stretch. If there is such a chain, no depth of recursion suffices; a precomposition that shows itself later in time is therefore fine.", "quantifier": "all documents that can be imported, with star points bounded and not animated; all frames, transforms and opacities, double precision and exact arithmetic", "why_tests_cant": "cycles through mattes, assets and times; the absence of an endless chain is not observable in a test", "anchors": ["src/runtime/render.rs:Renderer::append", "src/runtime/render.rs:Renderer::render_layer"]}
{"id": "C119", "title": "What is seen is what the document says", "statement": "At each pixel, rendering a document at a frame shows its layers (other than mattes) one in front of the other, the first one on top, cut off at the borders of the document; each layer that is there at the frame shows its content as far as it lies inside all of its masks, multiplied by the opacity of its matte (or by what is missing to 1 for inverted mattes); the content of a shape layer are its fills and strokes, the first one in front, of the trimmed outlines before them in their groups, that of a precomposition the layers of its asset at the mapped time; all this in front of what was there.", "quantifier": "all documents that can be imported, all frames, transforms, opacities and pixels, whatever the coverage of outlines and the colours of brushes at the pixel (exact arithmetic)", "why_tests_cant": "unbounded documents; every pixel", "anchors": ["src/import/converters.rs:conv_animation", "src/import/builders.rs", "src/runtime/render.rs:Renderer::append", "src/runtime/render.rs:RenderSink"]}
{"id": "C120", "title": "One window, drawn only while it is shown", "statement": "However often the example application is suspended and resumed, it creates one window, before anything else is done with it, and all its surfaces and frames are of this window; a device draws or compiles shaders only after a renderer was created for it, and no device gets two renderers (if the system never takes devices away); while the application is suspended nothing is done and it does not run continuously; the pictures are those for the events that reach the window while it is shown, with the size that the window has when it is resumed; and no sequence of events makes the application panic unless these events make the picture panic.", "quantifier": "all sequences of events of the application, all answers of the system, all arithmetics", "why_tests_cant": "unbounded sequences of suspending and resuming, devices that change in between", "anchors": ["examples/with_winit/src/lib.rs:run", "examples/with_winit/src/lib.rs:create_window"]}
{"id": "C121", "title": "The title names the scene", "statement": "In every frame that the example application displays, the title of the window names the scene that is displayed.", "quantifier": "all scene numbers on the command line, all numbers of scenes, all sequences of events", "why_tests_cant": "unbounded sequences of events", "anchors": ["examples/with_winit/src/lib.rs:run"]}
{"id": "C122", "title": "The panel tells the present mode", "statement": "In every frame that the example application displays, what the panel of the statistics says about waiting for the display is how the surface is configured.", "quantifier": "all sequences of events of the application", "why_tests_cant": "unbounded sequences of events, suspending in between", "anchors": ["examples/with_winit/src/lib.rs:run", "examples/with_winit/src/stats.rs:Snapshot::draw_layer"]}
{"id": "C123", "title": "Cutting a layer in two changes nothing", "statement": "If a layer (neither a matte nor matted, and to which no layer refers, in a document without cycles of parents) is replaced by two copies of it, one from its in point to a time in between and one from there to its out point, the document is imported and rendering makes the same calls at every frame, except that the positions announced with the groups may shift. More generally, at a given frame only whether a layer is present matters, not its in and out points themselves.", "quantifier": "all documents that can be imported, all layers of this kind, all times to cut at, all frames including NaN and infinities, double precision and exact arithmetic", "why_tests_cant": "all references of the document are renumbered by the importer; the two halves must meet without gap or overlap at every frame", "anchors": ["src/import/converters.rs:conv_animation", "src/import/builders.rs", "src/runtime/render.rs:Renderer::append", "src/runtime/render.rs:Renderer::render_layer"]}
{"id": "C124", "title": "Groups that change nothing", "statement": "Putting the first elements of a list of shapes, of a layer or of a group at any depth, in a group of their own, without transform or with one that does nothing, changes nothing, and neither does taking them out of such a group: both documents are imported or neither is, and rendering makes the same calls.", "quantifier": "all documents, all lists of shapes in them, any number of groups put in and taken out, all frames, transforms and opacities (exact arithmetic)", "why_tests_cant": "unbounded nesting; the merging of geometry across groups and the ranges of fills and trims depend on where groups begin", "anchors": ["src/import/converters.rs:conv_shape", "src/import/converters.rs:conv_animation", "src/runtime/render.rs:Renderer::render_shapes", "src/runtime/render.rs:Batch"]}
{"id": "C125", "title": "The built-in scenes can be played", "statement": "The documents that are part of the example application can be loaded (with the sizes, rates and frames they declare), and at every frame, with every transform and opacity, rendering them returns a picture; the built-in scenes display one at all times, wherever the cursor and the camera are, frame after frame.", "quantifier": "all frames, transforms, opacities, elapsed times, cursors, windows and cameras; all conforming readings of decimal fractions in the documents; double precision (the tiger: all arithmetics)", "why_tests_cant": "continuum of frames; the documents have hundreds of properties", "anchors": ["examples/scenes/src/test_scenes.rs:test_scenes", "examples/scenes/src/test_scenes.rs:splash_with_tiger", "examples/scenes/src/test_scenes.rs:polystar_test", "examples/scenes/src/picking.rs:picking_scene", "examples/assets/google_fonts/Tiger.json", "examples/assets/PolyStarTest.json"]}
{"id": "C126", "title": "Choosing the scenes to display", "statement": "The example application displays the built-in scenes if asked to, otherwise exactly the files for which the paths on the command line stand (for a directory, its files name.json), if all of them can be read and loaded, and by default the tiger; the download command displays nothing. Whenever it displays scenes there is at least one.", "quantifier": "all arguments, directories and files", "why_tests_cant": "unbounded lists of paths", "anchors": ["examples/scenes/src/lib.rs:Arguments::select_scene_set", "examples/scenes/src/lottie.rs:scene_from_files", "examples/scenes/src/lottie.rs:default_scene"]}
{"id": "C127", "title": "Drawing does not overflow", "statement": "In the double precision arithmetic that the code uses, rounding included, all matrices with which a document with moderate numbers is drawn are finite, and so are the widths of strokes and the points and radii of gradients; the opacity and the channels of the colours drawn, those of the stops of gradients included, and the offsets of the stops are never above 1 and never below 0 by more than 1e-9.", "quantifier": "all documents that can be imported with transforms as in C115, opacities from 0 to 100, colours and the numbers of gradients from 0 to 1, widths and the points of gradients up to 8000, in which at most 40 transforms (of layers, their parents, precompositions and groups) apply to anything drawn; all frames including NaN and infinities, all given transforms with entries up to 2^22 and opacities from 0 to 1", "why_tests_cant": "products of unboundedly many combinations of animated transforms and opacities, each step rounded", "anchors": ["src/import/converters.rs:conv_animation", "src/runtime/render.rs:Renderer::append", "src/runtime/render.rs:Renderer::render_layer", "src/runtime/render.rs:Renderer::render_shapes"]}
{"id": "C128", "title": "The order of keys and unknown keys do not matter", "statement": "Two files that differ only in the order of the entries of objects and in entries with keys that are not part of the format, at any depth, are both rejected or both loaded as the same composition; what is parsed differs at most in the free-form descriptions of the document (meta, metadata).", "quantifier": "all JSON values, any number of exchanges, additions and removals of such entries at any depth (except in objects that are empty or hold nothing but one null or empty object, which spell constants)", "why_tests_cant": "unbounded documents and permutations; the hand-written and untagged parsers look at entries in their own order", "anchors": ["src/schema/animation/animation.rs:Animation", "src/schema/layers/mod.rs:AnyLayer", "src/lib.rs:Composition::from_slice"]}
{"id": "C129", "title": "Everything is drawn in the right place", "statement": "In the double precision arithmetic that the code uses, rounding included, every call that draws or clips places its outline by a matrix that is on a way into the document (a layer, its parents, the assets it shows, groups), and puts every point within (d+1)^2 * s^(d+1) * 2^-26 of where the transforms on this way, taken exactly, put it; d is the number of transforms that are nested, s the factor by which each of them stretches at most (a skew of d degrees counts as the factor 1 + d/28). With 10 transforms of 100 per cent this is less than 0.000002 pixels.", "quantifier": "all documents that can be imported with moderate numbers as in C127 (skews up to 59 degrees), nested at most 40 deep, stretching up to 15 times each; all frames including NaN and infinities; all given transforms that stretch by at most s; all points with coordinates up to 8192", "why_tests_cant": "accumulated rounding over unboundedly many combinations of transforms", "anchors": ["src/import/converters.rs:conv_animation", "src/runtime/render.rs:Renderer::append", "src/runtime/render.rs:Renderer::compute_transform", "src/runtime/render.rs:Renderer::render_shapes", "src/runtime/model/animated.rs:Transform::evaluate"]}
{"id": "C130", "title": "No coordinate is infinite or undefined", "statement": "In the double precision arithmetic that the code uses, rounding included, the outlines of everything that is filled or stroked and of all masks have finite coordinates, at most 2^26 in magnitude, and eight times as much for each trim in the layer.", "quantifier": "all documents that can be imported with coordinates, sizes and radii up to 8000, roundness up to 1500 per cent, rotations up to 4000 degrees, stars and polygons with 3 to 100000 points, at most 8 trims in a layer; all frames, transforms and opacities", "why_tests_cant": "all double precision numbers, unbounded documents; an undefined coordinate at a single frame is easily missed", "anchors": ["src/runtime/render.rs:Renderer::append", "src/runtime/model/animated.rs:Star::evaluate", "src/runtime/model/animated.rs:Spline::evaluate", "src/runtime/model/spline.rs:SplineToPath::to_path", "src/runtime/render.rs:Batch::apply_trim"]}
{"id": "C131", "title": "Small documents are drawn with few calls", "statement": "The number of calls with which a document is drawn is bounded by a polynomial in its size (its layers, assets, shapes and masks).", "quantifier": "all documents that can be imported, all frames, transforms and opacities", "why_tests_cant": "unbounded documents and nesting; documents on which drawing takes forever are small but rare", "anchors": ["src/runtime/render.rs:Renderer::append", "src/runtime/render.rs:Renderer::render_layer", "src/runtime/render.rs:Batch::render"]}
{"id": "C132", "title": "Everything is drawn with the right opacity", "statement": "In the double precision arithmetic that the code uses and the single precision of colours, rounding included, everything that is filled or stroked has the brush that some fill or stroke of the document has at its frame, with its opacity multiplied by the given one and those of exactly the layers (precompositions included) and groups in which it is, and, if it is painted in a single colour, its own (for gradients see C54); the error of this opacity is at most 2^-22.", "quantifier": "all documents that can be imported with moderate numbers as in C127, nested at most 40 deep; all frames including NaN and infinities, all given transforms, all given opacities from 0 to 1", "why_tests_cant": "accumulated rounding over unboundedly many combinations of layers and groups", "anchors": ["src/import/converters.rs:conv_animation", "src/runtime/render.rs:Renderer::append", "src/runtime/render.rs:Renderer::render_layer", "src/runtime/render.rs:Renderer::render_shapes", "src/runtime/render.rs:Batch::render", "src/runtime/model/fixed.rs:Brush::with_alpha"]}
{"id": "C133", "title": "Stars, polygons, rectangles and ellipses are drawn accurately", "statement": "In the double precision arithmetic that the code uses, rounding included, a star or polygon is drawn, at every frame, as the closed outline of the figure which its properties have at this frame, with all corners and all ends of the handles within 4 millionths plus one billionth per corner (the angle is accumulated from corner to corner); a straight side drawn instead of a curve is within this error too. A rectangle is drawn with its sides within 10^-11 of those given by its position and size, an ellipse with its exact centre and its radii within 10^-12.", "quantifier": "all stars, polygons, rectangles and ellipses with moderate numbers as in C130 (3 to 100000 points, coordinates and radii up to 8000, roundness up to 1500 per cent, rotations up to 4000 degrees), static or animated; all frames including NaN and infinities", "why_tests_cant": "continuum of values; errors accumulate over an unbounded number of corners and depend on the rounding of every step", "anchors": ["src/runtime/model/animated.rs:Star::evaluate", "src/runtime/model/animated.rs:Rect::evaluate", "src/runtime/model/animated.rs:Ellipse::evaluate", "src/import/converters.rs:conv_geometry", "src/import/converters.rs:conv_polystar_geometry"]}
{"id": "C134", "title": "Animated paths go from shape to shape", "statement": "At every frame the outline of an animated path is the mixture of the shapes of the two keyframes around it: every corner and every tangent is between those of the two shapes, as far as the easing curve of the earlier keyframe says; before the first and after the last keyframe it is the shape of that, and after a hold keyframe the shape does not change. All points are off by at most 2^-32 for coordinates up to 8000.", "quantifier": "all animated paths with coordinates up to 8000 whose shapes do not lose corners, all frames", "why_tests_cant": "all shapes, times, handles and frames, in double precision", "anchors": ["src/runtime/model/animated.rs:Spline::evaluate", "src/runtime/model/spline.rs:SplineToPath", "src/runtime/model/value.rs:Time::frames_and_weight"]}
{"id": "C135", "title": "Animated gradients play as the document says", "statement": "At every frame an animated gradient has the declared number of stops, and every stop has the offset, red, green and blue that its keyframes give it at that frame: the first values before the first keyframe, the last ones from the last keyframe on, the held values after a hold keyframe, and otherwise the mixture that the easing handles of the earlier keyframe prescribe. Without opacity data all stops are opaque; with opacity data their opacity is played in the same way, from the opacities that the data give them at the keyframes.", "quantifier": "all animated gradients with keyframes in order and values for every stop, all numbers of stops and keyframes, all easing handles, all frames", "why_tests_cant": "tests play gradients with two stops and two keyframes and look at a few frames", "anchors": ["src/runtime/model/animated.rs:ColorStops::evaluate_inner", "src/import/converters.rs:conv_gradient_colors", "src/runtime/model/value.rs:Time::frames_and_weight"]}
{"id": "C136", "title": "Numbers, vectors, colours and gradients play accurately at every frame", "statement": "At every frame, before, between and after its keyframes, an animated number of a document (opacity, rotation, width and so on) is what its keyframes, hold flags and easing handles say, up to a billionth of its largest value; so is each coordinate of an animated vector or position with the handles for that coordinate; red, green and blue of an animated colour are what they say up to 2^-22; and every stop of an animated gradient has the offset and colour they say, up to 2^-23. All of this in the floating point numbers of the implementation.", "quantifier": "all animated numbers, vectors, positions, colours and gradients with keyframes in order and handles in the unit square, all numbers of keyframes and stops, all frames that are not NaN", "why_tests_cant": "rounding errors and the places where they accumulate depend on the numbers; tests compare a few frames with a tolerance", "anchors": ["src/runtime/model/value.rs:Time::frames_and_weight", "src/runtime/model/animated.rs:ColorStops::evaluate_inner", "src/import/converters.rs:conv_gradient_colors", "src/import/converters.rs:conv_scalar"]}
{"id": "C137", "title": "After the last keyframe nothing moves", "statement": "Rendering a document does exactly the same at any two frames that are both after all of its keyframes and at which the same layers are shown (for assets: at the frames they are shown at): same calls, same panics, same non-termination.", "quantifier": "all documents that can be imported (also with unsorted keyframes), all pairs of frames after the last keyframe, all transforms; double precision, exact equality", "why_tests_cant": "continuum of frames, unbounded documents", "anchors": ["src/runtime/model/value.rs:Time::frames_and_weight", "src/runtime/model/animated.rs", "src/runtime/render.rs:Renderer::append", "src/import/converters.rs:conv_keyframes"]}
{"id": "C138", "title": "Nothing moves while every property rests", "statement": "Rendering a document does exactly the same at any two frames between which nothing moves: at both frames every property is before its first keyframe, or after all its keyframes, or is held by the same hold keyframe, and the same layers are shown (for assets: at the frames they are shown at). Same calls, same panics, same non-termination.", "quantifier": "all documents that can be imported, all pairs of such frames, all transforms; double precision, exact equality", "why_tests_cant": "continuum of frames, unbounded documents, every kind of property", "anchors": ["src/runtime/model/value.rs:Time::frames_and_weight", "src/runtime/model/value.rs:Animated::evaluate", "src/runtime/model/animated.rs", "src/runtime/render.rs:Renderer::append", "src/import/converters.rs:conv_keyframes"]}
{"id": "C139", "title": "A keyframe matters only between its neighbours", "statement": "Two documents that are the same apart from keyframes away from a frame are rendered in the same way at that frame: if the last keyframe at or before the frame and the one after it are the same for every property (or the last of all, or the first two), and likewise in the assets at the frames they are shown at, rendering makes the same calls, panics in the same way and stops or not in the same way. So changing, adding or removing a keyframe changes the picture only between its neighbours.", "quantifier": "all pairs of documents that can be imported, any number of differing keyframes in any properties and assets, all frames including infinities, all transforms; double precision and exact arithmetic, exact equality", "why_tests_cant": "unbounded numbers of keyframes; the search for the keyframes around a frame looks at others first", "anchors": ["src/runtime/model/value.rs:Time::frames_and_weight", "src/runtime/model/value.rs:Animated::evaluate", "src/runtime/model/animated.rs", "src/import/converters.rs:conv_keyframes", "src/import/converters.rs:conv_shape_geometry", "src/runtime/render.rs:Renderer::append"]}
{"id": "C140", "title": "The picture at a frame depends only on the values at that frame", "statement": "Two documents of the same size that are the same at a frame are drawn with the same calls at that frame, or rendering returns for neither: if their layers correspond one by one, with the same names, indices, parents and mattes, are there or not, have the same matrices, opacities and clips, and show the same (figures with the same outlines, fills and strokes with the same paints, trims, groups with the same matrices and opacities, in the same order; or assets for which this holds at the frame at which they are shown), it makes no difference from which keyframes and kinds of figures these values come, what the assets are called, and which elements there are that are not supported.", "quantifier": "all pairs of documents that can be imported, all frames including NaN and infinities, all transforms and opacities; double precision and exact arithmetic, exact equality", "why_tests_cant": "unbounded documents; anything else that leaks into the picture, like the index of a keyframe, the name of an asset or the state of the renderer, does so in rare documents", "anchors": ["src/runtime/render.rs:Renderer::append", "src/runtime/render.rs:Renderer::render_layer", "src/runtime/render.rs:Renderer::render_shapes", "src/import/converters.rs:conv_animation", "src/runtime/model/mod.rs"]}
{"id": "C141", "title": "Keyframes added on straight pieces change nothing", "statement": "If a number, vector, position, colour, gradient without opacity data or path gets one more keyframe, without handles, between two keyframes the first of which has no handles and is not held, with the value on the straight line between the two, it has the same value at every frame. Rendering a document in which this is done any number of times, in any of these properties, in layers, masks, shapes and the layers of assets, makes the same calls at every frame.", "quantifier": "all keyframes in order, all times and values, all frames (exact arithmetic, in which the solver of kurbo is exact)", "why_tests_cant": "continuum of frames; the weight is computed anew between every two keyframes", "anchors": ["src/runtime/model/value.rs:Time::frames_and_weight", "src/runtime/model/value.rs:Animated::evaluate", "src/import/converters.rs:conv_scalar", "src/import/converters.rs:conv_keyframes", "src/runtime/render.rs:Renderer::append"]}
{"id": "C142", "title": "Each call draws some geometry with the fill or stroke behind it", "statement": "Every call that draws comes from one fill or stroke of a layer that is there at its frame and not hidden, and from geometry before it in the same list of shapes or in groups there, never from geometry after it or in another group or layer: it draws exactly the outlines of this geometry (if the layer has no trims), with the stroke style and brush of this fill or stroke. In the double precision that the code uses, the place of each of these outlines and the opacity of the brush are both right for this same geometry and this same fill or stroke: within (d+1)^2 * s^(d+1) * 2^-26 of the place, as in C129, and within 2^-22 of the opacity, as in C132.", "quantifier": "all documents that can be imported, all frames, transforms, opacities and arithmetics; for places and opacities documents with moderate numbers as in C129", "why_tests_cant": "unbounded nesting of groups, layers and assets; geometry is collected and merged across groups", "anchors": ["src/import/converters.rs:conv_animation", "src/runtime/render.rs:Renderer::append", "src/runtime/render.rs:Renderer::render_layer", "src/runtime/render.rs:Renderer::render_shapes", "src/runtime/render.rs:Batch"]}
{"id": "C143", "title": "Fills and strokes paint all geometry before them", "statement": "In a shape layer that is shown, every fill and stroke paints the outlines of all geometry before it in its list of shapes, groups included: all of it, once, in order and nothing else, each outline with the matrix of its place, and with the brush and stroke style of the fill or stroke, in calls that follow each other. For a fill or stroke in groups this is so if all geometry before one of these groups has its own fill or stroke before the group begins.", "quantifier": "all documents that can be imported, all shown layers without trims (also in precompositions, with masks and mattes), all fills and strokes in them at any depth of such groups, all frames, transforms, opacities and arithmetics", "why_tests_cant": "unbounded nesting; geometry is collected and merged across groups", "anchors": ["src/import/converters.rs:conv_animation", "src/runtime/render.rs:Renderer::append", "src/runtime/render.rs:Renderer::render_layer", "src/runtime/render.rs:Renderer::render_shapes", "src/runtime/render.rs:Batch"]}
{"id": "C144", "title": "Colours, widths and gradients are what the document says, in double precision", "statement": "Everything drawn comes from a fill or stroke in a layer that is reached, and is drawn with what the document says about this fill or stroke at the frame: with the declared colour up to 2^-22, or with a gradient of the declared kind and number of stops, whose colours and offsets are right up to 2^-23, start and end points up to 1/10^5 and radius (the distance of these points) up to 1/500; strokes with the declared width up to 1/10^5, miter limit, join and cap.", "quantifier": "all documents that can be imported, all frames, transforms and opacities, all fills and strokes with moderate numbers and keyframes in order with handles in the unit square; IEEE double and single precision, all cubic solvers accurate up to some error and all accurate square roots", "why_tests_cant": "continuum of colours and frames, rounding errors through easing, interpolation and conversion to single precision", "anchors": ["src/import/converters.rs:conv_draw", "src/import/converters.rs:conv_gradient_colors", "src/runtime/model/animated.rs:Brush::evaluate", "src/runtime/model/animated.rs:Stroke::evaluate", "src/runtime/model/value.rs:Tween", "src/runtime/render.rs:Renderer::append"]}
{"id": "C145", "title": "Rearranging layers rearranges their calls", "statement": "If the layers of a document are put in another order, such that every layer that uses the matte before it still has the same one, the document is imported, and each layer makes the same calls as before, in the new order, the last layer first; positions announced with the groups may shift. Parents and mattes are found wherever they are. So the order of layers that are not there at the same frame does not matter: exchanging two of them that follow each other changes no call at this frame.", "quantifier": "all documents that can be imported with layers different from each other, whose numbers are unique if a layer refers to them (cycles of parents included); all such orders, frames, transforms and opacities, double precision and exact arithmetic", "why_tests_cant": "all references of the document are renumbered by the importer; all permutations of unbounded lists", "anchors": ["src/import/converters.rs:conv_animation", "src/import/converters.rs:process_layers", "src/runtime/render.rs:Renderer::append", "src/runtime/render.rs:Renderer::render_layer", "src/runtime/render.rs:Renderer::compute_transform"]}
{"id": "C146", "title": "Moving some layers to a precomposition changes nothing", "statement": "If layers of a document that follow each other are moved to a new asset, and a layer that shows this asset from the first frame on, unstretched, untransformed and opaque, takes their place, the document can still be imported, and at every frame at which this layer is there the picture is the same at each pixel. The calls are the same but for one group around those of the moved layers and the positions announced with the groups. The moved layers may have parents and mattes among themselves, but not across the borders, and parents must not go round in circles.", "quantifier": "all documents that can be imported, all such runs of layers, all frames, transforms and opacities (exact arithmetic; the calls are the same in all arithmetics in which the matrix, opacity and time of the new layer change nothing)", "why_tests_cant": "unbounded lists, chains of parents and nesting; the importer resolves the references anew in each list", "anchors": ["src/import/converters.rs:conv_animation", "src/import/converters.rs:process_layers", "src/runtime/render.rs:Renderer::append", "src/runtime/render.rs:Renderer::render_layer", "src/runtime/render.rs:Renderer::compute_transform"]}
{"id": "C147", "title": "Layers with a common parent move together", "statement": "If a null layer is added at the end of a document and made the parent of all layers that had none, the document can still be imported, and rendering it is as if the document before had been rendered with the matrix of the null layer applied first: every call has the same outline, paint, opacity and matrix, in the same order, except that the document is still clipped to its area, and the null layer announces a group of its own if it is there at the frame. Whether the null layer is there or hidden does not matter for its children, and its opacity does not either.", "quantifier": "all documents that can be imported without mattes among their layers, in which all parents exist and do not go round in circles; all null layers with a new number, without parent and masks; all frames, transforms and opacities (exact arithmetic)", "why_tests_cant": "unbounded lists and chains of parents; the importer resolves parents by number", "anchors": ["src/import/converters.rs:conv_animation", "src/import/converters.rs:process_layers", "src/runtime/render.rs:Renderer::append", "src/runtime/render.rs:Renderer::compute_transform"]}
{"id": "C148", "title": "A matte may be named or come before its layer", "statement": "Two documents that differ only in how layers refer to their mattes, also in assets, such that each layer has the same matte in both, are rendered with the same calls. In particular, if a layer that uses the matte before it names this matte by its number instead (and no later layer has the same number), the document is still imported and nothing changes; nor does it if the number is taken away again.", "quantifier": "all documents that can be imported (cycles of parents included), any number of such changes in all lists of layers, all frames, transforms and opacities, double precision and exact arithmetic", "why_tests_cant": "unbounded lists; the importer resolves both kinds of references in one pass", "anchors": ["src/import/converters.rs:conv_animation", "src/import/converters.rs:process_layers", "src/runtime/render.rs:Renderer::append", "src/runtime/render.rs:Renderer::render_layer"]}
{"id": "C149", "title": "The handles of keyframes can be written in several ways", "statement": "Rendering two documents that are the same, apart from how the easing handles of their keyframes are written, makes the same calls at every frame, and if one of them can be imported so can the other: the coordinates of a handle may be numbers or lists of one number, handles at (0,0) and (1,1) may be left out together, and the hold flag may be left out or 0.", "quantifier": "all documents, all keyframes of numbers, vectors, colours, gradients, positions and paths in layers, masks, shapes and assets; all frames; any arithmetic, in particular double precision", "why_tests_cant": "every keyframe of a document of any size may be written in several ways", "anchors": ["src/import/converters.rs:conv_keyframe_handle", "src/import/converters.rs:conv_keyframes", "src/import/converters.rs:conv_scalar", "src/runtime/model/value.rs:Time::frames_and_weight", "src/runtime/render.rs:Renderer::append"]}
{"id": "C150", "title": "A property that does not change may have keyframes or be static", "statement": "Rendering two documents that are the same, except that some properties are static in one and in the other have one or more keyframes, all with that value, makes the same calls at every frame. This holds for numbers, points, sizes and positions with held keyframes in the floating point numbers of the implementation, and in exact arithmetic with any keyframes, also for colours, paths and gradients with all their declared stops. A gradient with fewer stops shows these if it is static, and none if it has keyframes.", "quantifier": "all documents that can be imported, any number of such properties in layers, masks, shapes, gradients and assets; all numbers of keyframes, all handles, all frames, transforms and opacities", "why_tests_cant": "static properties and those with keyframes are imported, folded and evaluated by different code, for each kind of object", "anchors": ["src/runtime/model/value.rs:Value::evaluate", "src/runtime/model/value.rs:Time::frames_and_weight", "src/runtime/model/animated.rs", "src/import/converters.rs:conv_scalar", "src/import/converters.rs:conv_keyframes", "src/runtime/render.rs:Renderer::append"]}
{"id": "C151", "title": "The handles of held keyframes do not matter", "statement": "Rendering two documents that are the same, apart from the easing handles of held keyframes, makes the same calls at every frame, and if one of them can be imported so can the other: the handles may be left out or be anywhere. The same is true of the handles of all keyframes of paths. The colours of gradients are the same in both.", "quantifier": "all documents, all held keyframes of numbers, points, sizes, positions and colours and all keyframes of paths, in layers, masks, shapes and assets; all frames; any arithmetic, in particular double precision", "why_tests_cant": "every held keyframe may have any handles; handles also decide how keyframes are imported", "anchors": ["src/runtime/model/value.rs:Animated::evaluate_inner", "src/runtime/model/value.rs:Time::frames_and_weight", "src/import/converters.rs:conv_keyframes", "src/import/converters.rs:conv_scalar", "src/import/converters.rs:conv_shape_geometry", "src/runtime/render.rs:Renderer::append"]}
{"id": "C152", "title": "Numbers that are not read do not matter", "statement": "Rendering two documents that are the same, apart from the third and later coordinates of points, sizes and positions, the fourth and later numbers of colours, the second and later numbers of keyframes of a single number, the second and later shapes in a keyframe of a path, the tangents of position keyframes and the deprecated end values of keyframes, makes the same calls at every frame, and if one of them can be imported so can the other.", "quantifier": "all documents, all these numbers in layers, masks, shapes and assets, also any number of them left out or added; all frames; any arithmetic, in particular double precision", "why_tests_cant": "unbounded documents; lists of every length are accepted everywhere", "anchors": ["src/import/converters.rs:conv_keyframes", "src/import/converters.rs:conv_pos", "src/import/converters.rs:conv_multi", "src/import/converters.rs:conv_multi_color", "src/import/converters.rs:conv_scalar", "src/import/converters.rs:conv_shape_geometry"]}
{"id": "C153", "title": "What is left out can be written out", "statement": "A document is imported as the same composition, or rejected in the same way, if what it leaves out is written out: shapes that are not closed; the origin as anchor, no skew and full opacity of transforms, no rotation of groups; linear gradients; bevel joins and butt caps of strokes, round ones of strokes with gradients; inner radius and roundness 0 of stars; full opacity of masks; for layers the empty name, number 0, start time 0, stretch 1, normal blend mode, no masks, not hidden, not a matte; the empty list of assets.", "quantifier": "all documents, any number of these in layers, masks, shapes at any depth and assets; any arithmetic", "why_tests_cant": "unbounded documents; every subset of the optional attributes", "anchors": ["src/import/converters.rs:conv_animation", "src/import/converters.rs:conv_draw", "src/import/converters.rs:conv_transform", "src/import/converters.rs:conv_spline", "src/import/defaults.rs", "src/import/builders.rs:setup_layer_base"]}
{"id": "C154", "title": "A position may be split into its coordinates", "statement": "Rendering two documents that are the same, except that some positions of layers are given as two numbers, x and y, in one of them and as a position in the other, makes the same calls at every frame: both static, or with keyframes at the same times, with the same values, easing handles and hold flags.", "quantifier": "all documents that can be imported, any number of such positions in layers and in the layers of assets, split in one document or the other; all frames; any arithmetic, in particular double precision", "why_tests_cant": "every keyframe list of every layer; two code paths import and evaluate the two forms", "anchors": ["src/import/converters.rs:conv_transform", "src/import/converters.rs:conv_pos_point", "src/import/converters.rs:conv_scalar", "src/runtime/model/animated.rs:Position::evaluate"]}
