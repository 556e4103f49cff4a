import json
V="src/runtime/model/value.rs"; A="src/runtime/model/animated.rs"; X="src/runtime/model/fixed.rs"; S="src/runtime/model/spline.rs"; R="src/runtime/render.rs"; M="src/runtime/model/mod.rs"
C="src/import/converters.rs"; B="src/import/builders.rs"; D="src/import/defaults.rs"
P=[]
def p(title,statement,quantifier,why,*anchors):
    P.append(dict(id="C%02d"%(len(P)+1),title=title,statement=statement,quantifier=quantifier,why_tests_cant=why,anchors=list(anchors)))
# ---- values
p("Keyframe evaluation is total","Evaluating an animated value never panics or reads out of bounds: for any keyframe times (empty, unsorted, duplicated, NaN), any list of values (even of another length) and any frame number (NaN and infinities included) it returns a value; it returns the supplied default exactly when there are no times or the chosen keyframes have no value, and otherwise the two keyframes it mixes are adjacent (or the same, at the end).","all keyframe lists, value lists and frame numbers","the lists are unbounded and include unsorted and NaN input that a binary search can mis-handle",V+":Time::frames_and_weight",V+":Animated::evaluate_or",V+":Value::evaluate")
p("Keyframe lookup brackets the frame","When keyframe times are sorted, evaluation at a frame between the first and the last keyframe mixes two consecutive keyframes k, k+1 with time(k) <= frame < time(k+1), whatever the number of keyframes.","all sorted keyframe lists of any length and all frames","correctness of a binary search for every length and position cannot be sampled",V+":Time::frames_and_weight")
p("Values are clamped outside the keyframe range","Before the first keyframe an animated scalar has the first keyframe's value; from the last keyframe on it has the last keyframe's value (in IEEE double arithmetic, including the 0/0 weight produced exactly at the last keyframe).","all strictly increasing keyframe times without overflowing gaps, all finite values, all frames outside the range, infinities included","unbounded lists, and the 0/0 corner only occurs at one exact float",V+":Time::frames_and_weight",V+":Tween for f64")
p("Keyframes are hit exactly","Evaluating an animated scalar, point, size or colour exactly at the time of a keyframe gives exactly (bit for bit up to the sign of zero) that keyframe's value, regardless of easing handles.","all strictly sorted keyframe lists with finite values, all keyframe indices, all easing handles","the quantifier ranges over all floats and all easing curves; rounding could break it at isolated points",V+":Tween for f64",V+":Animated::evaluate_or")
p("Hold keyframes hold","If keyframe k is a hold keyframe, the animated value is keyframe k's value at every frame in [time(k), time(k+1)), for scalars, points and paths.","all sorted keyframe lists, all frames inside a hold interval","a flicker occurs at isolated frames",V+":Animated::evaluate_or",A+":Spline::evaluate")
p("Interpolation weight is in [0,1]","For strictly increasing keyframe times whose differences do not overflow, the weight used to mix two keyframes is a number between 0 and 1 in IEEE double arithmetic, except exactly at the last keyframe (where it is NaN).","all strictly sorted finite keyframe times and all finite frames, with IEEE rounding","rounding of the quotient has to be bounded for all floats",V+":Time::frames_and_weight")
p("Linear easing is linear interpolation","With the linear easing (handles (0,0),(1,1), the default when a keyframe has no tangents) a tween at weight t is exactly a+(b-a)*t (exact arithmetic, for any root the cubic solver may return).","all values, all weights in [0,1], every solver returning a genuine root","continuum of weights; depends on an iterative external solver",V+":Easing::LERP",V+":Tween for f64")
p("No overshoot inside the unit square","If both easing handles lie in the unit square, a tweened scalar stays between the two keyframe values: exactly at every weight that is not within 1e-21 of an end, and up to 4e-11 of their distance at all weights (the code accepts curve parameters slightly outside [0,1]).","all handles in the unit square, all weights, every solver that returns a genuine root in its accepted range","continuum of curves and weights",V+":Tween for f64")
p("Monotone easing","If both easing handles lie in the unit square, the tweened value moves monotonically from the first keyframe value to the second as the frame advances: exactly at weights that are not within 1e-21 of an end, and up to 1e-10 of the distance of the values at all weights.","all handles in the unit square, all pairs of weights","relates every pair of frames",V+":Tween for f64")
p("Vector values animate componentwise","Points, vectors, sizes and colours are tweened component by component, each component exactly as a scalar with the same weight and easing.","all vectors, weights, easings","for all inputs",V+":Tween for kurbo::Point",V+":Tween for peniko::Color")
p("Constant folding is unobservable","Converting an animated transform, stroke, repeater, trim, star or brush with no animated property into its fixed form does not change the result of evaluating it at any frame; a rectangle or ellipse that counts as fixed has the same outline at all frames.","all such objects, all frames (brush: all alphas)","every frame and every object; the folding evaluates once, at frame 0",A+":Transform::into_model",A+":Brush::into_model",A+":Trim::into_model",A+":Star::into_model",A+":Stroke::into_model",A+":Repeater::into_model",M+":Brush::evaluate")
# ---- transforms
p("A transform moves the anchor to the position","The affine map obtained from an animated transform sends the anchor point to the position, whatever the rotation, scale and skew.","all transforms, all frames (exact real arithmetic)","continuum of parameters",A+":Transform::evaluate")
p("A transform scales areas by its scale only","The determinant of an evaluated transform is (scale.x/100)*(scale.y/100): rotation, skew and position never change areas.","all transforms and frames (exact real arithmetic)","continuum of parameters",A+":Transform::evaluate")
p("Omitted transform fields mean identity","A layer or group transform whose optional fields (anchor, scale, skew, skew axis, opacity; rotation for groups) are omitted behaves as if they had their neutral values: no scaling, no skew, full opacity.","all transforms with omitted fields","must hold for every combination of omitted fields",C+":conv_transform",C+":conv_shape_transform",D)
# ---- geometry
p("Bezier paths keep their vertices and tangents","Importing a bezier with n>0 vertices gives a path that starts with a move to vertex 0 and has one segment per following vertex (plus a closing one back to vertex 0 and a close, iff closed); each segment ends at its vertex and is a straight line if both tangents are zero, otherwise a cubic whose control points are vertex+tangent; missing tangents count as zero. No vertex list makes it panic.","all vertex/tangent lists of any (mismatched) lengths","unbounded lists with index arithmetic 3*i+k",S+":SplineToPath::to_path",C+":conv_spline",C+":conv_shape_geometry")
p("Animated paths hit their keyframes","Evaluating an animated path exactly at a keyframe's time produces the path of that keyframe's start shape (every keyframe including the last).","all strictly sorted path keyframes","the failing frame is a single float value",A+":Spline::evaluate",S+":SplineToPath for (&[Point],&[Point],f64)")
p("Stars and polygons have their vertices on the radii","A star with n points is a closed path with 2n vertices alternately at the outer and inner radius from its centre (a polygon: n vertices at the outer radius); with zero or negative points nothing is drawn.","all stars, all frames (exact real arithmetic for distances)","number of points is unbounded and angles are a continuum",A+":Star::evaluate")
p("Rectangles and ellipses are centred on their position","A rectangle spans position +- size/2 with the declared corner radius and an ellipse has centre position and radii size/2 at every frame.","all rectangles, ellipses and frames","continuum",A+":Rect::evaluate",A+":Ellipse::evaluate")
# ---- trim
p("Normalised trim segments are valid","The segments produced for a trim lie within [0,1], each with start <= end, and the wrapped second segment starts at 0 and is present only if the first ends at 1 (IEEE double arithmetic, bounded start/end/offset, including the rem_euclid corner where the remainder rounds up to 100).","all finite trims whose sums do not overflow, with IEEE rounding","floating-point remainder corners are isolated",X+":Trim::normalized")
p("Trim keeps the requested length","The total length of the normalised trim segments is |end-start|/100, capped at 1 (exact arithmetic, up to the 1e-9 snapping the code performs).","all trims","continuum",X+":Trim::normalized")
p("Trim symmetry and periodicity","Swapping start and end, or rotating the offset by whole turns of 360 degrees, does not change a trim.","all trims, all whole numbers of turns (exact arithmetic)","continuum, unbounded turns",X+":Trim::normalized")
p("Trim affects only its own scope","Applying a trim leaves the drawn path of every geometry outside the enclosing group unchanged, never changes any transform or the number of geometries, and keeps all later path lookups in bounds.","all renderer states reachable by rendering shapes, all trims","buffers are rebuilt and re-indexed for an arbitrary number of geometries",R+":Batch::apply_trim")
p("Full and empty trims","A trim covering 100% leaves the picture unchanged; a trim of zero length removes its geometry from the picture, whatever follows it in the group.","all shape lists containing such a trim","depends on every possible continuation",R+":Batch::apply_trim",R+":Batch::push_geometry")
p("A trimmed path is a set of sub-segments of the right length","Each trimmed path consists of sub-segments of the original path's segments, in order, and (where arc lengths are computed exactly) its length is the requested fraction of the original length.","all paths, all trims","unbounded number of segments and continuum of cut points",R+":Batch::apply_trim")
# ---- repeater
p("Repeater copies geometry with the right transforms","A repeater with n copies replaces each geometry of its scope by n copies with the same path, the i-th transformed by the i-th repeater transform, keeps draws attached to the copies of the geometry they painted, and leaves geometry and draws outside its scope untouched; all ranges stay valid.","all renderer states, all n","index arithmetic over unbounded lists",R+":Batch::repeat",X+":Repeater::transform")
p("Each repeater copy is painted once with its own opacity","With an n-copy repeater, copy i of the geometry is painted by each draw exactly once, with opacity start+(end-start)*i/n.","all n, all draws","all n",R+":Batch::repeat")
# ---- render
p("Layers pushed to the sink are balanced","For every composition, frame, transform and alpha, the calls made to the render sink by one append are balanced: every push has a matching pop, every group begin a matching end, properly nested, and no pop ever underflows.","all compositions (any nesting of instances, masks, mattes), all frames","unbounded nesting",R+":Renderer::append",R+":Renderer::render_layer")
p("Everything is clipped to the composition","The first sink call of an append is a clip layer with the caller's transform and the rectangle (0,0,width,height), its matching pop is the last call, and every draw happens between them.","all compositions and frames","for all inputs",R+":Renderer::append")
p("Rendering never panics","Rendering any composition whose explicit paths are empty or begin with a move never panics (all slice indexing, subtraction and path construction succeed), for any frame, transform and alpha; the one exception is the allocation for the vertices of a star with more than 2^56 points.","all compositions with well-formed explicit paths, all frames","index arithmetic over arbitrary nested shape trees with trims and repeaters",R+":Renderer::render_shapes",R+":Batch")
p("A renderer can be reused","The calls made by an append depend only on its arguments, not on anything rendered before with the same renderer: any sequence of appends produces the same calls as fresh renderers.","all histories of appends","all histories",R+":Renderer",R+":Batch::clear")
p("Layers render only inside their frame range","A layer whose range [in,out) does not contain the frame makes no sink call at all (nor does a NaN frame); in particular at a frame outside every layer's range an append only pushes and pops the clip.","all compositions and frames","for all inputs",R+":Renderer::render_layer")
p("Matte layers are not painted by themselves","A top-level or precomposition layer marked as a matte makes no sink call unless another rendered layer uses it as its matte.","all compositions","for all inputs",R+":Renderer::append")
p("Painter's order","Top-level layers are rendered from last to first; the sequence of calls is the concatenation of each non-matte layer's calls in reverse layer order, and layer groups are announced with their position in the list.","all compositions","unbounded number of layers",R+":Renderer::append")
p("Parent chains compose","A layer's geometry is placed by global * T(ancestor_n) * ... * T(parent) * T(layer) when its parent chain is acyclic; a dangling parent index ends the chain.","all layer lists and parent assignments","unbounded chains",R+":Renderer::compute_transform")
p("Parent cycles terminate","Computing a layer transform terminates for every parent assignment, cyclic ones included, after at most as many steps as there are layers.","all parent assignments","cycles of any length",R+":Renderer::compute_transform")
p("Rendering terminates","Rendering any imported composition terminates.","all imported compositions","non-termination cannot be observed by a test",R+":Renderer::render_layer",C+":process_layers")
p("Opacity is multiplicative","The opacity factor applied to a painted brush is the product of the caller's alpha, the opacities (percent) of the enclosing instance layers and of the layer itself, of the enclosing groups, and of the fill or stroke (and, for the copies a repeater makes, of the copy); nothing else, in particular a parent layer's opacity does not leak into its children.","all compositions, shapes, frames","unbounded nesting",R+":Renderer::render_layer",R+":Renderer::render_shapes",R+":DrawData::new",R+":Batch::render")
p("Fills and strokes paint exactly the preceding geometry of their group","A fill or stroke paints exactly the geometry that precedes it in its own group, including geometry in nested groups, each with the transform of the group it is in, and nothing else.","all shape trees without trims/repeaters","unbounded trees and index ranges",R+":Renderer::render_shapes",R+":Batch::push_geometry",R+":Batch::push_draw")
p("Draw order within a layer","The fills and strokes of a shape layer reach the sink in the reverse of their document order (first shape on top).","all shape trees without repeaters","unbounded trees",R+":Batch::render")
p("Precompositions are time-mapped and composed","An instance of a precomposition renders the asset's non-matte layers, last to first, at frame frame/stretch - start/stretch, under the instance layer's transform and opacity; an unknown asset renders nothing.","all compositions, instances and frames","unbounded nesting",R+":Renderer::render_layer")
p("Masks enclose exactly the layer's content","Each mask of a layer pushes one clip with the layer's transform and the mask's path at that frame, in order, before the layer's content, and is popped right after it.","all layers, masks, frames","unbounded numbers of masks",R+":Renderer::render_layer")
p("Mattes are composited by their blend mode","A layer with a matte emits: an isolation layer, the matte layer's calls, a layer with the matte blend mode, the layer's own content, two pops, nothing else; the matte is rendered with the caller's transform and alpha, not the layer's.","all compositions","unbounded nesting",R+":Renderer::render_layer")
p("Layer groups report the layer's index","Every rendered layer is announced to the sink with its name and its position in the layer array it belongs to.","all rendered layers, including those in precompositions and mattes","unbounded nesting",R+":RenderSink::begin_layer_group",R+":Renderer::render_layer")
# ---- import
p("Import preserves the layer list","Import keeps exactly one runtime layer per source layer, in order, with its name, frame range, stretch and start; composition size, frame rate and frame range are copied.","all animations","unbounded lists",C+":process_layers",C+":conv_animation",C+":conv_layer",B)
p("Parent references are resolved","After import a layer's parent is the position of the last layer in the same list whose index (0 if absent) is the one referenced, or none if there is none; it is always in bounds.","all layer lists, with duplicate or missing indices","unbounded lists with hash-map semantics",C+":process_layers")
p("Matte references are resolved","After import a layer with a matte mode is matted by the last layer whose index is its explicit matte index if given, otherwise by the nearest preceding matte layer not already consumed by another matted layer; the resulting index is always in bounds, and layers without matte mode get none.","all layer lists","state carried along an unbounded list",C+":process_layers")
p("Hidden layers only transform","A hidden layer draws nothing and is not a matte, but keeps its transform, opacity and parent, so the transforms of its children are the same as if it were visible.","all animations","for all inputs and all descendants",C+":conv_layer",C+":is_layer_hidden")
p("Import fails only on the documented unsupported features","Importing an animation panics exactly when one of the parts it converts (the content of hidden layers is not converted) is one of: an asset that is not a precomposition, an Add/HardMix layer blend mode, a layer transform with missing or split rotation, a group transform with split position or rotation, an animated scalar keyframe without value, an easing handle with an array of length other than 1, a star that is not animated and whose vertices do not fit in the address space, or (impossible for parsed animations, C52) a path whose first keyframe has no shape. In every other case it returns a composition.","all parsed animations","exact characterisation of a predicate over unbounded documents",C+":conv_animation",C+":conv_scalar",C+":conv_keyframe_handle",C+":conv_blend_mode")
p("Gradient stops","Import of gradient data yields min(count, len/4) stops (count >= 1) with offsets and colours copied in order and opacity 1 when there is no opacity data; with opacity data in [0,1] every stop opacity is in [0,1].","all gradient arrays and counts","unbounded arrays with chunk arithmetic",C+":conv_stops",C+":conv_gradient_colors")
p("Hold keyframes hold gradients","On a hold keyframe an animated gradient keeps the keyframe's stops (offsets and colours) until the next keyframe.","all animated gradients and frames in a hold interval","isolated keyframes",A+":ColorStops::evaluate_inner")
p("Keyframe import keeps times and values","Importing animated properties yields as many values as times, times in the order of the keyframes, each carrying its keyframe's value and hold flag; sorted documents give sorted times.","all keyframe lists","unbounded lists; one keyframe may yield two entries",C+":conv_keyframes",C+":conv_scalar")
p("Path keyframe validation makes import safe","Every animated path accepted by the parser has a start shape on all keyframes but possibly the last, and at least two keyframes if the last has none; consequently importing it never underflows the keyframe index.","all keyframe arrays","unbounded arrays","src/schema/animated_properties/shape_property.rs:deserialize_keyframes",C+":conv_shape_geometry")
p("Group import keeps supported shapes in order","Importing a shape list keeps geometry, fills, strokes, trims and non-empty groups in document order, drops the rest, and takes the last transform element of a group as the group's transform.","all shape trees","unbounded trees",C+":conv_shape",C+":conv_draw",C+":conv_geometry")
p("Declared opacity is honoured","The opacity of an imported fill or stroke, solid or gradient, is the one declared in the document.","all fills, strokes, gradient fills and gradient strokes","for all inputs",C+":conv_draw")
p("Matte mode Normal means no matte","A layer with matte mode 0 (Normal) renders like a layer with no matte mode.","all compositions","for all inputs",B,C+":process_layers",R+":Renderer::render_layer")
p("Imported pictures never panic the renderer","Any composition obtained by parsing and importing a document can be rendered at any frame without panicking.","all documents, all frames","composition of parser, importer and renderer over all documents","src/runtime/mod.rs:Composition::from_json",C+":conv_animation",R+":Renderer::append")
p("Assets: last definition wins","If several precomposition assets share an id, instances use the last; distinct ids never interfere.","all asset lists","hash-map semantics over unbounded lists",C+":conv_animation")
p("Layer and asset dispatch","A layer object is parsed by its integer type 0..4 only and any other type (or none) is rejected; an asset with layers is a precomposition, otherwise type 3, or lacking both width and height, is rejected.","all JSON objects","for all JSON values","src/schema/layers/mod.rs:AnyLayer::deserialize","src/schema/assets/mod.rs:AnyAsset::deserialize")
p("Schema round trip","Serialising a parsed animation and parsing it again gives the same animation.","all parsed animations","unbounded documents, untagged unions and flattened fields","src/schema/animation/animation.rs","src/schema")
p("Gradient opacity ramps","A colour stop at the offset of one of the gradient's opacity stops is imported with that opacity.","all gradient arrays with opacity data at increasing offsets","unbounded arrays",C+":conv_stops")
p("What a transform does to a point","At every frame a transform maps a point by subtracting the anchor, scaling by scale/100, shearing by tan(skew) along the skew axis, rotating by rotation degrees and adding the position (x and y given separately or together), with the values the properties have at that frame; likewise for imported layer and group transforms.","all transforms, frames and points (exact real arithmetic)","continuum of parameters",A+":Transform::evaluate",C+":conv_transform",C+":conv_shape_transform")
p("Layer blend modes are honoured","A layer with a blend mode is composited with that blend mode: its content is enclosed in a pushed layer with the mode.","all compositions and frames","unbounded nesting",C+":conv_blend_mode",R+":Renderer::render_layer")
p("Masks are applied as declared","A layer shows the part of its content selected by its masks: added, subtracted, intersected as each mask's mode says, inverted and expanded if declared, with the mask's opacity.","all documents and frames","combinations of any number of masks",B,R+":Renderer::render_layer")
p("Hidden shapes are not drawn","A document renders as if its shapes marked hidden were absent.","all documents","unbounded shape trees",C+":conv_shape",C+":conv_draw")
p("Fill rules are honoured","A fill with the even-odd rule is filled with the even-odd rule, one with the non-zero rule with the non-zero rule.","all documents","for all inputs",C+":conv_draw","src/runtime/vello.rs:draw")
p("Unsupported attributes have no effect","Attributes that are not implemented do not influence import and rendering at all: spatial tangents of positions, expressions, animated flags, dashes, shape directions, trim modes, gradient highlights, auto-orientation, motion blur, solid colours, names of shapes, markers and metadata do not change the imported composition (nor whether import panics), and time remapping and layer sizes do not change the calls made when rendering.","all pairs of documents that differ only in such attributes","non-interference over unbounded documents",C+":conv_animation",R+":Renderer::append")
p("A vello scene shows what the renderer draws","Rendering to a vello scene paints exactly what the renderer draws, in the same order, strokes as strokes and the rest as fills; pushed layers are balanced and everything is clipped to the composition.","all compositions and frames","unbounded nesting","src/runtime/vello.rs:RenderSink for vello::Scene","src/runtime/vello.rs:render_to_vello_scene")
p("Imported properties play as the document says","At every frame each coordinate of an imported animated property (scalar, vector, position, colour) has the value given by the document's keyframes: the first value before the first keyframe, the last value from the last keyframe on, in between the value held or moved along the easing curve with the handles which the earlier keyframe has for that coordinate (missing handles mean linear ends).","all animated properties with keyframes in order, all frames (exact arithmetic, exact cubic solver)","continuum of frames and handles, unbounded keyframe lists; one keyframe may yield two entries",C+":conv_keyframes",C+":conv_scalar",V+":Time::frames_and_weight",V+":Tween")
p("Luma mattes look at the luminance","A layer with a luma matte mode is composited according to the luminance of its matte, a layer with an alpha matte mode according to its alpha (SrcIn, SrcOut if inverted).","all documents and layers","the two kinds of matte differ only in rendered pixels, which tests do not compare",B+":setup_layer_base",B+":setup_precomp_layer",B+":setup_shape_layer",R+":Renderer::render_layer")
p("Precompositions are clipped to their size","What a precomposition layer shows is clipped to the rectangle of the layer's width and height.","all compositions, frames and transforms","unbounded nesting",R+":Renderer::render_layer",B+":setup_precomp_layer")
p("Mattes take nothing away from the picture","The layers pushed on the sink to composite a matte cover everything that is visible: they cut off nothing but what the matte removes.","all compositions, frames and transforms","needs a matte inside a transformed precomposition",R+":Renderer::render_layer")
p("The transform given to append is applied to everything","Rendering with the transform T*S makes the calls of rendering with S, with every transform multiplied by T from the left, and the same panics and non-termination.","all compositions and frames, all invertible T and all S (exact arithmetic)","continuum of transforms, unbounded nesting",R+":Renderer::append",R+":Renderer::compute_transform",R+":Batch::push_geometry",R+":Batch::repeat")
p("Still pictures do not change","If no property of a composition is animated, rendering does exactly the same at any two frames at which the same layers are visible.","all compositions without animation, all pairs of frames with the same visible layers (including those of assets at the frames they are shown at)","continuum of frames, unbounded nesting",R+":Renderer::render_layer",R+":Renderer::render_shapes",V+":Value::evaluate")
p("Retiming","If all times of a document or of a composition (keyframes, layer ranges, starts of precompositions) are moved by t -> a*t+b with a > 0 and the stretch of precompositions is multiplied by a, it can be imported if it could be before, and rendering at frame a*t+b does what it did before at frame t.","all documents and compositions, frames, a > 0 and b (exact arithmetic)","continuum, unbounded keyframe lists and nesting",V+":Time::frames_and_weight",A,R+":Renderer::render_layer")
p("Outline of stars and polygons","At every frame a star or polygon is drawn as the closed outline that starts at the top and runs clockwise: corners at equal angles on the outer (and, for stars, alternately the inner) radius, turned by the rotation; each edge a curve whose handles are tangent to the circles at its ends and 4/3*tan(step/2)*radius*roundness/100 long, or a line where the handles are negligible; with the values the document's properties have at the frame.","all stars and polygons with at least half a point and at most 2^56 points, all frames (exact arithmetic)","continuum of parameters, unbounded number of corners",A+":Star::evaluate",C+":conv_geometry",C+":conv_polystar_geometry")
p("Fills and strokes paint with what the document says","Every draw call of a rendered document is that of one of its fills and strokes, with the properties these have at the frame: the declared colour, or the gradient from the start to the end point (linear) or around the start point through the end point (radial) with the declared stops; strokes with the declared width, miter limit (4 if none), join and cap (bevel and butt, for gradients round, if none); the declared opacity (gradients: C54) multiplied in.","all documents that can be imported, all frames, all draw calls, double precision (the very same numbers) and exact arithmetic","continuum of parameters, unbounded shape trees",C+":conv_draw",C+":conv_gradient_colors",A+":Stroke::evaluate",A+":Gradient::evaluate",A+":Brush::evaluate",R+":Renderer::render_shapes")
p("Layers have the attributes the document gives them","Every imported layer, of the composition or of an asset, has the transform, opacity (100 if none), blend mode (none for Normal, otherwise the mix function with the same number), masks (those with a path, in order, with path and opacity), matte flag and content (shapes, reference to a precomposition with its time remapping, nothing for solid, null, image and hidden layers) of the layer at the same position of the document.","all documents that can be imported, all layers","unbounded layer lists, masks, shape trees and keyframes",C+":conv_layer",C+":conv_transform",C+":conv_blend_mode",B)
p("The format of documents","The parser accepts a JSON value exactly if it describes an animation in the format (which key holds which attribute of documents, layers, transforms, masks, shapes, properties and keyframes, of what type, and which keys may be missing), and reads exactly what the value describes; a value describes at most one animation, and an animation that was read is written in the same format (if its image assets have a size). Loading fails with an error exactly if the value describes no animation, and a loaded composition has the frame range, rate, size, layers and assets with the attributes that the value describes.","all JSON values","untagged unions, flattened structures and unbounded nesting; round trips cannot notice a key that is misread and miswritten alike","src/schema","src/runtime/mod.rs:Composition::from_json",C+":conv_animation")
p("Opacity multiplies the opacity of every brush","Rendering with the opacity x*a makes the calls of rendering with a, except that the opacity of the colour or of all gradient stops of every draw call is multiplied by x (and the same panics and non-termination); a layer with opacity o percent and no matte makes the calls it would make with 100 percent, with the opacity of all brushes multiplied by o/100.","all compositions, frames, transforms and opacities (exact arithmetic)","continuum of opacities, unbounded nesting",R+":Renderer::append",R+":Renderer::render_layer",R+":Batch::render",R+":Batch::repeat")
p("A composition shows its layers one in front of the other","What a rendered composition shows at a pixel is the picture of its layers that are not mattes, each in front of the layers after it in the list, cut off at the borders of the composition, in front of what was there: nothing changes outside of the composition, and where the first layer is opaque no other layer is visible.","all compositions, frames and transforms, all pixels, all rasterisers, all backgrounds (exact compositing)","a statement about the pixels of all pictures",R+":Renderer::append",R+":Renderer::render_layer")
p("A matted layer shows through its matte","At every pixel inside the composition a layer with an alpha matte shows its own picture with its opacity multiplied by the opacity of the picture of the matte layer at that pixel, one with an inverted alpha matte multiplied by one minus that opacity.","all compositions, layers, frames and transforms, all pixels and rasterisers (exact compositing)","a statement about the pixels of all pictures",R+":Renderer::render_layer",B)
p("A masked layer shows only what is inside all its masks","At every pixel a layer with masks shows its own picture times the part of the pixel that is inside each mask; outside of any of its masks it shows nothing. The order of the masks does not matter.","all layers, masks and frames, all pixels and rasterisers (exact compositing)","a statement about the pixels of all pictures, any number of masks",R+":Renderer::render_layer")
p("Opacity fades a picture as a whole","With opacity x, a layer or composition shows at every pixel the picture it shows with opacity 1, faded by x; in particular nothing at opacity 0.","all layers and compositions, all opacities, all pixels and rasterisers (exact compositing)","a statement about the pixels of all pictures; overlapping shapes and mattes differ only in pixels",R+":Renderer::append",R+":Renderer::render_layer")
p("A trim keeps the declared part of an outline","A trim with start s and end e percent and an offset of o degrees keeps the positions x of an outline (0 its start, 1 its end) for which x + k lies between s/100 + o/360 and e/100 + o/360 for some whole number k, and no others; s, e and o are the values which the properties of the document have at the frame.","all trims whose range is not within 1e-9 of 0 or 100 percent or is exactly 0 or at least 100 percent, all positions, all frames (exact arithmetic)","continuum of parameters",X+":Trim::normalized",A+":Trim::evaluate",C+":conv_shape")
p("Numbers of layers and ids of assets are only names","If the layers of a document (and of each asset) get other numbers and its assets other ids, different ones staying different and all references changed alike, the document is imported with the same panics, and rendering makes the same calls on the sink at every frame.","all documents, all renamings, all frames","non-interference over unbounded documents",C+":conv_animation",B,R+":Renderer::append")
p("Only assets in use matter","Assets that no visible layer refers to (directly, or through the layers of other assets in use), earlier assets with the same id as a later one, and the order of assets with different ids have no influence on the calls made when rendering.","all documents that can be imported, all frames","reachability over unbounded, possibly cyclic asset graphs",C+":conv_animation",R+":Renderer::render_layer")
p("Precomposing changes nothing","If the layers of a document are moved into a new asset and replaced by one instance of it with a neutral transform, over the same frames, the document is still imported, and rendering makes the same calls in the same order inside one more group; only the positions of the layers in the list are not announced any more.","all documents that can be imported, all frames in the range (exact arithmetic)","refinement over unbounded documents",C+":conv_animation",R+":Renderer::append",R+":Renderer::render_layer")
E="examples/scenes/src/"
p("Playback loops","The player of the example application shows, t seconds after the start, the frame start + t*rate, less a whole number of passes through the composition, so that the frame is in the range [start, end) of the composition: the first pass runs from the start towards the end, and the same frame is shown a whole number of passes later.","all compositions with a non-empty range, all frame rates and times","continuum of times; the end is reached by rounding only",E+"lottie.rs:render_lottie_contents",E+"picking.rs:picking_scene")
p("Picking does not change the picture","Rendering a frame through the sink of the picking example makes the same calls on the scene, leaves the same renderer and panics alike as rendering the frame without it, wherever the cursor is; only overlays are added.","all compositions, times, cursors, windows and cameras","refinement over unbounded compositions",E+"picking.rs:RenderSink for PickingScene",E+"picking.rs:picking_scene")
p("Hits of the picking example","The hits of a frame are the layers of the composition that draw something, from the back to the front, each with its name and the smallest rectangle that contains the images of the bounding boxes of everything drawn on its behalf (its content, its matte, the layers of its asset); every point of a drawn outline is in the rectangle of its layer, and an outline without segments counts as the origin.","all compositions and frames (rectangles: exact arithmetic)","unbounded nesting of groups",E+"picking.rs:LayerBoundsTracker")
p("Picking finds the front-most layer","The layer found under the cursor is the first layer of the composition whose rectangle contains the place of the cursor in the scene; none is found if there is no such layer or no cursor; its index is always one of the hits.","all compositions, frames, cursors, windows and cameras","unbounded number of layers",E+"picking.rs:pick_layer",E+"picking.rs:LayerBoundsTracker")
p("The cursor's place in the scene","The place of the cursor in the scene is the one point that is displayed under the cursor, the scene being displayed by the camera after the largest scale at which the picture fits the window.","all cursors, windows, resolutions and invertible cameras (exact arithmetic)","continuum of parameters",E+"picking.rs:cursor_to_scene")
W="examples/with_winit/src/"
p("Frame statistics are those of the last hundred frames","The statistics of the example application never panic when a frame time is added and always hold the times of the last hundred frames, their number and sum; the extreme values are those since they were cleared; the average displayed is the mean of the held times and the frame rate its reciprocal.","all sequences of frame times (at most 2^57 microseconds) and of clearing the extreme values","unbounded sequences",W+"stats.rs:Stats")
p("The statistics can be drawn","The panel of the statistics is drawn without panicking: it is a rectangle in the lower right corner of the window, with one bar for each frame in order, standing on the lower edge, with heights in proportion to the frame times (times beyond the scale fill the graph) inside the panel, and lines at 8.33, 16.66 and 33.33 ms as far as they are below the scale.","all statistics and windows","continuum of sizes, all combinations of frame times",W+"stats.rs:Snapshot::draw_layer")
p("Fingers on the screen","The touch state always lists exactly the fingers that are down, with their positions; the gesture of a frame compares their average position, spread and direction with the last frame, never the fingers before one was put down or lifted: putting a finger down or lifting it does not move the picture.","all sequences of touch events and frames (gestures: exact arithmetic)","unbounded sequences of events",W+"multi_touch.rs:TouchState")
p("The picture follows the fingers","When the fingers are moved by a similarity (moved, turned, spread), every point of the picture under a finger stays under it.","all positions and movements of one or more fingers, all cameras (exact arithmetic)","continuum of movements",W+"multi_touch.rs:TouchState::info",W+"lib.rs:run")
p("Mouse and keys move the camera as documented","Scrolling zooms about the cursor, Q and E rotate about the cursor, dragging moves the picture with the cursor, space resets the camera; whatever the events, the picture is displayed without distortion (by a similarity), which is invertible as long as there are never several fingers at one place.","all sequences of events (exact arithmetic)","unbounded sequences of events, continuum of positions",W+"lib.rs:run")
p("Going through the scenes","Every redraw displays the scene reached from the first one by the arrow keys and touches in the lower corners, in a circle, with the antialiasing reached by the key M, and tells the scene the cursor, the size of the window and the number set by the arrow keys; when the scene changes, the camera is reset, otherwise it is kept.","all sequences of less than 2^31 events, all numbers of scenes","unbounded sequences of events",W+"lib.rs:run")
p("The viewer does not panic","With at least one scene to display, no sequence of events makes the viewer panic.","all sequences of events","unbounded sequences of events and frame times",W+"lib.rs:run",W+"stats.rs:Snapshot::draw_layer")
p("What is picked is what is displayed","Whatever has happened to the camera and the window, the place in the scene that picking computes for a point of the window is the one that is displayed at that point.","all sequences of events, all points (exact arithmetic)","unbounded sequences of events, two independent computations in two crates",W+"lib.rs:run",E+"picking.rs:cursor_to_scene")
p("Navigation fingers do nothing else","A finger put down in the lower third of the window does what an arrow key does (in the left and right thirds) and otherwise, until and including when it is lifted, has no influence on what is displayed.","all sequences of events","unbounded interleavings of events of several fingers",W+"lib.rs:run")
p("Downloads on the command line","An argument name@url is downloaded from url under that name; a URL alone is downloaded from that URL under the name of the file it ends with, without .json.","all arguments","unbounded texts; several slashes and several .json in one URL",E+"download.rs:parse_download")
p("Each download has its own file","A download is stored in the directory of downloads under its name with the extension json; different names are different files.","all names and directories","for all texts",E+"download.rs:LottieDownload::file_path")
p("Completed downloads are complete","A download that is reported complete has created its file with exactly the bytes that the server sent, within the size limit and of the expected size if one is known; no file is ever overwritten and no other file is touched; nothing is requested if the server reports another size; a file that the server has in the expected size is downloaded.","all servers, files and limits","all behaviours of the server and the file system",E+"download.rs:LottieDownload::fetch")
p("Failed downloads leave nothing behind","After a failed download the file is not there, so that the next run downloads it.","all servers, files and limits","all behaviours of the server and the file system",E+"download.rs:LottieDownload::fetch",E+"download.rs:Download::action")
p("The download command counts right","The download command does not panic, attempts the wanted downloads in order, goes on after a failure exactly if the answer is yes, and reports the numbers of complete, failed and skipped downloads; after success without questions all wanted files are there and the next run has nothing to do; no existing file is changed and only wanted files are created.","all arguments, servers, files and answers","unbounded lists of downloads, all interleavings of failures and answers",E+"download.rs:Download::action",E+"download.rs:LottieDownload::fetch")
p("The default downloads fit together","With an empty directory and a server that has the default files in their expected sizes, the download command completes all of the default downloads, each under its name.","all servers and directories of this kind","hundreds of entries whose names, sizes and URLs must not clash, over all servers",E+"download/default_downloads.rs:default_downloads",E+"download.rs:Download::action")
p("The list of scenes","A directory on the command line gives one scene for each of its files name.json, with that name, ordered by name without regard to case, whatever the order in which the system lists the files; if something cannot be read there are no scenes but an error.","all directories, all orders of listing","unbounded directories, orders of listing that do not occur in tests",E+"lottie.rs:scene_from_files_inner",E+"lottie.rs:example_scene_of")
p("Overlays of the picking example","The overlays of a frame are drawn without panicking: each hit is covered by its rectangle and labelled with its name at its upper left corner; the layer found under the cursor, and no other, has the bright colours, the thick outline and the large label; its name is shown beside the cursor.","all compositions, frames, cursors, windows and cameras (exact arithmetic)","unbounded number of layers",E+"picking.rs:picking_scene")
p("Layout of text","In the text drawn by the example application each glyph of a line stands where the previous one ends, and each line begins at the left one line height below the previous line; line breaks have no glyph.","all texts and fonts (exact arithmetic)","unbounded texts",E+"simple_text.rs:RobotoText::add_var_run")
p("Animated values do not jump","Between and at keyframes that are not held, an animated number, vector, position or colour changes continuously with the frame: no jumps, and without easing no faster than the fastest pair of adjacent keyframes demands.","all animations with keyframes in order and easing handles in the unit square, all frames (exact arithmetic)","continuum of frames; a jump between two tested frames is not seen",V+":Animated::evaluate",V+":Time::frames_and_weight")
p("Removing a layer nobody refers to","If a layer is no other layer's parent or matte, and is itself neither a matte nor matted, in a document without cycles of parents, the document without it is imported, and rendering makes the same calls at every frame except those of the removed layer, which were all in one place; the positions announced with the groups may shift. Outside the frames of the layer nothing else changes, and removing a hidden layer removes no drawing.","all documents that can be imported, all layers of this kind, all frames","all references of the document are renumbered by the importer; unbounded lists and chains of parents",C+":conv_animation",B,R+":Renderer::append",R+":Renderer::compute_transform")
p("The format of layer styles and text constants","A JSON value is read as a layer style (colour overlay, gradient overlay, outer glow, satin) exactly if it is an object whose keys hold the attributes as documented, all optional except the kind; each constant (kind of style, capitals, justification, grouping, units, shape of a range, origin of a font) has the documented number; what is written of a style or constant is read back as the same.","all JSON values","unbounded JSON values; all combinations of missing keys","src/schema/styles/satin_style.rs:SatinStyle","src/schema/styles/gradient_overlay_style.rs:GradientOverlayStyle","src/schema/styles/layer_style.rs:StyleType","src/schema/constants/text_justify.rs:TextJustify")
p("Animated values stay in range in double precision","In the double precision arithmetic that the code uses, rounding included, an imported animated number, vector, position or colour whose easing handles are in the unit square is a finite number at every frame and stays in the range of the values of its keyframes, up to 5e-11 of the width of the range plus one rounding error of the size of its ends (an opacity from 0 to 100 is never below -1e-8 or above 100 + 1e-8); colour channels are never above 1 and the alpha of an opaque colour is exactly 1.","all properties with at least one keyframe and values up to 2^1000, in any order of times, all frames including NaN and infinities, whatever roots the cubic solver returns","rounding errors at every step over the continuum of handles, values and frames",V+":Animated::evaluate",V+":Tween for f64",C+":conv_scalar")
p("Placement in double precision is accurate","In the double precision arithmetic that the code uses, rounding included, the matrix of an imported layer transform with moderate numbers (coordinates up to 8000, scales up to 1500 per cent, rotations up to 4000 degrees, skews up to 59 degrees) is finite at every frame and puts every point with coordinates up to 8192 within 2^-20 of a pixel of the place given by the transform's definition (skew, scale, rotate about the anchor, move to the position) from the values of the properties at that frame; within 2^-26 if there is no skew.","all layer transforms of this kind, animated or not, all frames including NaN and infinities, all points, all mathematical libraries whose sine, cosine and tangent are accurate to 2^-52 and 2^-50","rounding errors of some fifty operations over the continuum of values and points",A+":Transform::evaluate",C+":conv_transform")
p("Eased values are accurate in double precision","In the double precision arithmetic that the code uses, rounding included, an animated number or point whose easing handles are in the unit square is, at a frame between two keyframes, within 1e-10 of the difference of their values (plus one rounding error) of the value that the easing curve prescribes at a moment that differs by at most 1e-10 of the time between the keyframes, plus the error of the cubic solver; without easing handles it is the linear interpolation up to these errors.","all properties with keyframes in order, at least 2^-1000 of a frame apart, values and times up to 2^1000; all frames between two keyframes of which the first is not held; all cubic solvers of any given accuracy","rounding errors at every step over the continuum of handles, values and frames",V+":Animated::evaluate",V+":Tween for f64",V+":Time::frames_and_weight",C+":conv_scalar")
p("What is drawn is what the document says","Rendering a document at a frame clips to its size and draws its layers, the last one first: each layer that is there at the frame, unless it is a matte, is announced with its name and position, composed with its matte, clipped by its masks, placed by its transform after those of its parents (if they go round in a circle, as many of them as there are layers) and the given one, with its opacity times the given one; a shape layer makes its fills and strokes from the last to the first, each of all the outlines before it in its group (those of inner groups included), where geometry with the same transform without a fill or stroke in between is one outline, also across groups, under the transforms and opacities of all enclosing groups; a trim cuts all outlines before it in its group, also those of fills and strokes before it (if it leaves nothing, and geometry with the same transform follows without a fill or stroke in between, then this geometry is drawn with all geometry of the layer before it); repeaters and other modifiers do nothing; a precomposition draws the layers of the last asset with its name at the time (frame - start) / stretch. No other calls are made.","all documents that can be imported; all frames, transforms and opacities; double precision (the calls are the same to the last bit, every product and quotient taken in the order that is specified) and exact arithmetic","unbounded documents; the whole way from the document to the calls",C+":conv_animation",C+":conv_shape",B,R+":Renderer::append",R+":Batch")
p("Exactly when rendering returns","Rendering a document at a frame returns if and only if there is no endless chain of layers that begins with a layer of the document other than a matte and goes on from a layer that is there at its frame to its matte at the same frame, or, if it is a precomposition that is not hidden, to a layer other than a matte of the last asset with its name at the time frame / stretch + -start / stretch. If there is such a chain, no depth of recursion suffices; a precomposition that shows itself later in time is therefore fine.","all documents that can be imported, with star points bounded and not animated; all frames, transforms and opacities, double precision and exact arithmetic","cycles through mattes, assets and times; the absence of an endless chain is not observable in a test",R+":Renderer::append",R+":Renderer::render_layer")
p("What is seen is what the document says","At each pixel, rendering a document at a frame shows its layers (other than mattes) one in front of the other, the first one on top, cut off at the borders of the document; each layer that is there at the frame shows its content as far as it lies inside all of its masks, multiplied by the opacity of its matte (or by what is missing to 1 for inverted mattes); the content of a shape layer are its fills and strokes, the first one in front, of the trimmed outlines before them in their groups, that of a precomposition the layers of its asset at the mapped time; all this in front of what was there.","all documents that can be imported, all frames, transforms, opacities and pixels, whatever the coverage of outlines and the colours of brushes at the pixel (exact arithmetic)","unbounded documents; every pixel",C+":conv_animation",B,R+":Renderer::append",R+":RenderSink")
p("One window, drawn only while it is shown","However often the example application is suspended and resumed, it creates one window, before anything else is done with it, and all its surfaces and frames are of this window; a device draws or compiles shaders only after a renderer was created for it, and no device gets two renderers (if the system never takes devices away); while the application is suspended nothing is done and it does not run continuously; the pictures are those for the events that reach the window while it is shown, with the size that the window has when it is resumed; and no sequence of events makes the application panic unless these events make the picture panic.","all sequences of events of the application, all answers of the system, all arithmetics","unbounded sequences of suspending and resuming, devices that change in between",W+"lib.rs:run",W+"lib.rs:create_window")
p("The title names the scene","In every frame that the example application displays, the title of the window names the scene that is displayed.","all scene numbers on the command line, all numbers of scenes, all sequences of events","unbounded sequences of events",W+"lib.rs:run")
p("The panel tells the present mode","In every frame that the example application displays, what the panel of the statistics says about waiting for the display is how the surface is configured.","all sequences of events of the application","unbounded sequences of events, suspending in between",W+"lib.rs:run",W+"stats.rs:Snapshot::draw_layer")
p("Cutting a layer in two changes nothing","If a layer (neither a matte nor matted, and to which no layer refers, in a document without cycles of parents) is replaced by two copies of it, one from its in point to a time in between and one from there to its out point, the document is imported and rendering makes the same calls at every frame, except that the positions announced with the groups may shift. More generally, at a given frame only whether a layer is present matters, not its in and out points themselves.","all documents that can be imported, all layers of this kind, all times to cut at, all frames including NaN and infinities, double precision and exact arithmetic","all references of the document are renumbered by the importer; the two halves must meet without gap or overlap at every frame",C+":conv_animation",B,R+":Renderer::append",R+":Renderer::render_layer")
p("Groups that change nothing","Putting the first elements of a list of shapes, of a layer or of a group at any depth, in a group of their own, without transform or with one that does nothing, changes nothing, and neither does taking them out of such a group: both documents are imported or neither is, and rendering makes the same calls.","all documents, all lists of shapes in them, any number of groups put in and taken out, all frames, transforms and opacities (exact arithmetic)","unbounded nesting; the merging of geometry across groups and the ranges of fills and trims depend on where groups begin",C+":conv_shape",C+":conv_animation",R+":Renderer::render_shapes",R+":Batch")
p("The built-in scenes can be played","The documents that are part of the example application can be loaded (with the sizes, rates and frames they declare), and at every frame, with every transform and opacity, rendering them returns a picture; the built-in scenes display one at all times, wherever the cursor and the camera are, frame after frame.","all frames, transforms, opacities, elapsed times, cursors, windows and cameras; all conforming readings of decimal fractions in the documents; double precision (the tiger: all arithmetics)","continuum of frames; the documents have hundreds of properties",E+"test_scenes.rs:test_scenes",E+"test_scenes.rs:splash_with_tiger",E+"test_scenes.rs:polystar_test",E+"picking.rs:picking_scene","examples/assets/google_fonts/Tiger.json","examples/assets/PolyStarTest.json")
p("Choosing the scenes to display","The example application displays the built-in scenes if asked to, otherwise exactly the files for which the paths on the command line stand (for a directory, its files name.json), if all of them can be read and loaded, and by default the tiger; the download command displays nothing. Whenever it displays scenes there is at least one.","all arguments, directories and files","unbounded lists of paths",E+"lib.rs:Arguments::select_scene_set",E+"lottie.rs:scene_from_files",E+"lottie.rs:default_scene")
p("Drawing does not overflow","In the double precision arithmetic that the code uses, rounding included, all matrices with which a document with moderate numbers is drawn are finite, and so are the widths of strokes and the points and radii of gradients; the opacity and the channels of the colours drawn, those of the stops of gradients included, and the offsets of the stops are never above 1 and never below 0 by more than 1e-9.","all documents that can be imported with transforms as in C115, opacities from 0 to 100, colours and the numbers of gradients from 0 to 1, widths and the points of gradients up to 8000, in which at most 40 transforms (of layers, their parents, precompositions and groups) apply to anything drawn; all frames including NaN and infinities, all given transforms with entries up to 2^22 and opacities from 0 to 1","products of unboundedly many combinations of animated transforms and opacities, each step rounded",C+":conv_animation",R+":Renderer::append",R+":Renderer::render_layer",R+":Renderer::render_shapes")
p("The order of keys and unknown keys do not matter","Two files that differ only in the order of the entries of objects and in entries with keys that are not part of the format, at any depth, are both rejected or both loaded as the same composition; what is parsed differs at most in the free-form descriptions of the document (meta, metadata).","all JSON values, any number of exchanges, additions and removals of such entries at any depth (except in objects that are empty or hold nothing but one null or empty object, which spell constants)","unbounded documents and permutations; the hand-written and untagged parsers look at entries in their own order","src/schema/animation/animation.rs:Animation","src/schema/layers/mod.rs:AnyLayer","src/lib.rs:Composition::from_slice")
p("Everything is drawn in the right place","In the double precision arithmetic that the code uses, rounding included, every call that draws or clips places its outline by a matrix that is on a way into the document (a layer, its parents, the assets it shows, groups), and puts every point within (d+1)^2 * s^(d+1) * 2^-26 of where the transforms on this way, taken exactly, put it; d is the number of transforms that are nested, s the factor by which each of them stretches at most (a skew of d degrees counts as the factor 1 + d/28). With 10 transforms of 100 per cent this is less than 0.000002 pixels.","all documents that can be imported with moderate numbers as in C127 (skews up to 59 degrees), nested at most 40 deep, stretching up to 15 times each; all frames including NaN and infinities; all given transforms that stretch by at most s; all points with coordinates up to 8192","accumulated rounding over unboundedly many combinations of transforms",C+":conv_animation",R+":Renderer::append",R+":Renderer::compute_transform",R+":Renderer::render_shapes","src/runtime/model/animated.rs:Transform::evaluate")
p("No coordinate is infinite or undefined","In the double precision arithmetic that the code uses, rounding included, the outlines of everything that is filled or stroked and of all masks have finite coordinates, at most 2^26 in magnitude, and eight times as much for each trim in the layer.","all documents that can be imported with coordinates, sizes and radii up to 8000, roundness up to 1500 per cent, rotations up to 4000 degrees, stars and polygons with 3 to 100000 points, at most 8 trims in a layer; all frames, transforms and opacities","all double precision numbers, unbounded documents; an undefined coordinate at a single frame is easily missed",R+":Renderer::append",A+":Star::evaluate",A+":Spline::evaluate",S+":SplineToPath::to_path",R+":Batch::apply_trim")
p("Small documents are drawn with few calls","The number of calls with which a document is drawn is bounded by a polynomial in its size (its layers, assets, shapes and masks).","all documents that can be imported, all frames, transforms and opacities","unbounded documents and nesting; documents on which drawing takes forever are small but rare",R+":Renderer::append",R+":Renderer::render_layer",R+":Batch::render")
p("Everything is drawn with the right opacity","In the double precision arithmetic that the code uses and the single precision of colours, rounding included, everything that is filled or stroked has the brush that some fill or stroke of the document has at its frame, with its opacity multiplied by the given one and those of exactly the layers (precompositions included) and groups in which it is, and, if it is painted in a single colour, its own (for gradients see C54); the error of this opacity is at most 2^-22.","all documents that can be imported with moderate numbers as in C127, nested at most 40 deep; all frames including NaN and infinities, all given transforms, all given opacities from 0 to 1","accumulated rounding over unboundedly many combinations of layers and groups",C+":conv_animation",R+":Renderer::append",R+":Renderer::render_layer",R+":Renderer::render_shapes",R+":Batch::render",X+":Brush::with_alpha")
p("Stars, polygons, rectangles and ellipses are drawn accurately","In the double precision arithmetic that the code uses, rounding included, a star or polygon is drawn, at every frame, as the closed outline of the figure which its properties have at this frame, with all corners and all ends of the handles within 4 millionths plus one billionth per corner (the angle is accumulated from corner to corner); a straight side drawn instead of a curve is within this error too. A rectangle is drawn with its sides within 10^-11 of those given by its position and size, an ellipse with its exact centre and its radii within 10^-12.","all stars, polygons, rectangles and ellipses with moderate numbers as in C130 (3 to 100000 points, coordinates and radii up to 8000, roundness up to 1500 per cent, rotations up to 4000 degrees), static or animated; all frames including NaN and infinities","continuum of values; errors accumulate over an unbounded number of corners and depend on the rounding of every step",A+":Star::evaluate",A+":Rect::evaluate",A+":Ellipse::evaluate",C+":conv_geometry",C+":conv_polystar_geometry")
p("Animated paths go from shape to shape","At every frame the outline of an animated path is the mixture of the shapes of the two keyframes around it: every corner and every tangent is between those of the two shapes, as far as the easing curve of the earlier keyframe says; before the first and after the last keyframe it is the shape of that, and after a hold keyframe the shape does not change. All points are off by at most 2^-32 for coordinates up to 8000.","all animated paths with coordinates up to 8000 whose shapes do not lose corners, all frames","all shapes, times, handles and frames, in double precision",A+":Spline::evaluate",S+":SplineToPath",V+":Time::frames_and_weight")
p("Animated gradients play as the document says","At every frame an animated gradient has the declared number of stops, and every stop has the offset, red, green and blue that its keyframes give it at that frame: the first values before the first keyframe, the last ones from the last keyframe on, the held values after a hold keyframe, and otherwise the mixture that the easing handles of the earlier keyframe prescribe. Without opacity data all stops are opaque; with opacity data their opacity is played in the same way, from the opacities that the data give them at the keyframes.","all animated gradients with keyframes in order and values for every stop, all numbers of stops and keyframes, all easing handles, all frames","tests play gradients with two stops and two keyframes and look at a few frames",A+":ColorStops::evaluate_inner",C+":conv_gradient_colors",V+":Time::frames_and_weight")
p("Numbers, vectors, colours and gradients play accurately at every frame","At every frame, before, between and after its keyframes, an animated number of a document (opacity, rotation, width and so on) is what its keyframes, hold flags and easing handles say, up to a billionth of its largest value; so is each coordinate of an animated vector or position with the handles for that coordinate; red, green and blue of an animated colour are what they say up to 2^-22; and every stop of an animated gradient has the offset and colour they say, up to 2^-23. All of this in the floating point numbers of the implementation.","all animated numbers, vectors, positions, colours and gradients with keyframes in order and handles in the unit square, all numbers of keyframes and stops, all frames that are not NaN","rounding errors and the places where they accumulate depend on the numbers; tests compare a few frames with a tolerance",V+":Time::frames_and_weight",A+":ColorStops::evaluate_inner",C+":conv_gradient_colors",C+":conv_scalar")
p("After the last keyframe nothing moves","Rendering a document does exactly the same at any two frames that are both after all of its keyframes and at which the same layers are shown (for assets: at the frames they are shown at): same calls, same panics, same non-termination.","all documents that can be imported (also with unsorted keyframes), all pairs of frames after the last keyframe, all transforms; double precision, exact equality","continuum of frames, unbounded documents",V+":Time::frames_and_weight",A,R+":Renderer::append",C+":conv_keyframes")
p("Nothing moves while every property rests","Rendering a document does exactly the same at any two frames between which nothing moves: at both frames every property is before its first keyframe, or after all its keyframes, or is held by the same hold keyframe, and the same layers are shown (for assets: at the frames they are shown at). Same calls, same panics, same non-termination.","all documents that can be imported, all pairs of such frames, all transforms; double precision, exact equality","continuum of frames, unbounded documents, every kind of property",V+":Time::frames_and_weight",V+":Animated::evaluate",A,R+":Renderer::append",C+":conv_keyframes")
p("A keyframe matters only between its neighbours","Two documents that are the same apart from keyframes away from a frame are rendered in the same way at that frame: if the last keyframe at or before the frame and the one after it are the same for every property (or the last of all, or the first two), and likewise in the assets at the frames they are shown at, rendering makes the same calls, panics in the same way and stops or not in the same way. So changing, adding or removing a keyframe changes the picture only between its neighbours.","all pairs of documents that can be imported, any number of differing keyframes in any properties and assets, all frames including infinities, all transforms; double precision and exact arithmetic, exact equality","unbounded numbers of keyframes; the search for the keyframes around a frame looks at others first",V+":Time::frames_and_weight",V+":Animated::evaluate",A,C+":conv_keyframes",C+":conv_shape_geometry",R+":Renderer::append")
p("The picture at a frame depends only on the values at that frame","Two documents of the same size that are the same at a frame are drawn with the same calls at that frame, or rendering returns for neither: if their layers correspond one by one, with the same names, indices, parents and mattes, are there or not, have the same matrices, opacities and clips, and show the same (figures with the same outlines, fills and strokes with the same paints, trims, groups with the same matrices and opacities, in the same order; or assets for which this holds at the frame at which they are shown), it makes no difference from which keyframes and kinds of figures these values come, what the assets are called, and which elements there are that are not supported.","all pairs of documents that can be imported, all frames including NaN and infinities, all transforms and opacities; double precision and exact arithmetic, exact equality","unbounded documents; anything else that leaks into the picture, like the index of a keyframe, the name of an asset or the state of the renderer, does so in rare documents",R+":Renderer::append",R+":Renderer::render_layer",R+":Renderer::render_shapes",C+":conv_animation",M)
p("Keyframes added on straight pieces change nothing","If a number, vector, position, colour, gradient without opacity data or path gets one more keyframe, without handles, between two keyframes the first of which has no handles and is not held, with the value on the straight line between the two, it has the same value at every frame. Rendering a document in which this is done any number of times, in any of these properties, in layers, masks, shapes and the layers of assets, makes the same calls at every frame.","all keyframes in order, all times and values, all frames (exact arithmetic, in which the solver of kurbo is exact)","continuum of frames; the weight is computed anew between every two keyframes",V+":Time::frames_and_weight",V+":Animated::evaluate",C+":conv_scalar",C+":conv_keyframes",R+":Renderer::append")
p("Each call draws some geometry with the fill or stroke behind it","Every call that draws comes from one fill or stroke of a layer that is there at its frame and not hidden, and from geometry before it in the same list of shapes or in groups there, never from geometry after it or in another group or layer: it draws exactly the outlines of this geometry (if the layer has no trims), with the stroke style and brush of this fill or stroke. In the double precision that the code uses, the place of each of these outlines and the opacity of the brush are both right for this same geometry and this same fill or stroke: within (d+1)^2 * s^(d+1) * 2^-26 of the place, as in C129, and within 2^-22 of the opacity, as in C132.","all documents that can be imported, all frames, transforms, opacities and arithmetics; for places and opacities documents with moderate numbers as in C129","unbounded nesting of groups, layers and assets; geometry is collected and merged across groups",C+":conv_animation",R+":Renderer::append",R+":Renderer::render_layer",R+":Renderer::render_shapes",R+":Batch")
p("Fills and strokes paint all geometry before them","In a shape layer that is shown, every fill and stroke paints the outlines of all geometry before it in its list of shapes, groups included: all of it, once, in order and nothing else, each outline with the matrix of its place, and with the brush and stroke style of the fill or stroke, in calls that follow each other. For a fill or stroke in groups this is so if all geometry before one of these groups has its own fill or stroke before the group begins.","all documents that can be imported, all shown layers without trims (also in precompositions, with masks and mattes), all fills and strokes in them at any depth of such groups, all frames, transforms, opacities and arithmetics","unbounded nesting; geometry is collected and merged across groups",C+":conv_animation",R+":Renderer::append",R+":Renderer::render_layer",R+":Renderer::render_shapes",R+":Batch")
p("Colours, widths and gradients are what the document says, in double precision","Everything drawn comes from a fill or stroke in a layer that is reached, and is drawn with what the document says about this fill or stroke at the frame: with the declared colour up to 2^-22, or with a gradient of the declared kind and number of stops, whose colours and offsets are right up to 2^-23, start and end points up to 1/10^5 and radius (the distance of these points) up to 1/500; strokes with the declared width up to 1/10^5, miter limit, join and cap.","all documents that can be imported, all frames, transforms and opacities, all fills and strokes with moderate numbers and keyframes in order with handles in the unit square; IEEE double and single precision, all cubic solvers accurate up to some error and all accurate square roots","continuum of colours and frames, rounding errors through easing, interpolation and conversion to single precision",C+":conv_draw",C+":conv_gradient_colors",A+":Brush::evaluate",A+":Stroke::evaluate",V+":Tween",R+":Renderer::append")
p("Rearranging layers rearranges their calls","If the layers of a document are put in another order, such that every layer that uses the matte before it still has the same one, the document is imported, and each layer makes the same calls as before, in the new order, the last layer first; positions announced with the groups may shift. Parents and mattes are found wherever they are. So the order of layers that are not there at the same frame does not matter: exchanging two of them that follow each other changes no call at this frame.","all documents that can be imported with layers different from each other, whose numbers are unique if a layer refers to them (cycles of parents included); all such orders, frames, transforms and opacities, double precision and exact arithmetic","all references of the document are renumbered by the importer; all permutations of unbounded lists",C+":conv_animation",C+":process_layers",R+":Renderer::append",R+":Renderer::render_layer",R+":Renderer::compute_transform")
p("Moving some layers to a precomposition changes nothing","If layers of a document that follow each other are moved to a new asset, and a layer that shows this asset from the first frame on, unstretched, untransformed and opaque, takes their place, the document can still be imported, and at every frame at which this layer is there the picture is the same at each pixel. The calls are the same but for one group around those of the moved layers and the positions announced with the groups. The moved layers may have parents and mattes among themselves, but not across the borders, and parents must not go round in circles.","all documents that can be imported, all such runs of layers, all frames, transforms and opacities (exact arithmetic; the calls are the same in all arithmetics in which the matrix, opacity and time of the new layer change nothing)","unbounded lists, chains of parents and nesting; the importer resolves the references anew in each list",C+":conv_animation",C+":process_layers",R+":Renderer::append",R+":Renderer::render_layer",R+":Renderer::compute_transform")
p("Layers with a common parent move together","If a null layer is added at the end of a document and made the parent of all layers that had none, the document can still be imported, and rendering it is as if the document before had been rendered with the matrix of the null layer applied first: every call has the same outline, paint, opacity and matrix, in the same order, except that the document is still clipped to its area, and the null layer announces a group of its own if it is there at the frame. Whether the null layer is there or hidden does not matter for its children, and its opacity does not either.","all documents that can be imported without mattes among their layers, in which all parents exist and do not go round in circles; all null layers with a new number, without parent and masks; all frames, transforms and opacities (exact arithmetic)","unbounded lists and chains of parents; the importer resolves parents by number",C+":conv_animation",C+":process_layers",R+":Renderer::append",R+":Renderer::compute_transform")
p("A matte may be named or come before its layer","Two documents that differ only in how layers refer to their mattes, also in assets, such that each layer has the same matte in both, are rendered with the same calls. In particular, if a layer that uses the matte before it names this matte by its number instead (and no later layer has the same number), the document is still imported and nothing changes; nor does it if the number is taken away again.","all documents that can be imported (cycles of parents included), any number of such changes in all lists of layers, all frames, transforms and opacities, double precision and exact arithmetic","unbounded lists; the importer resolves both kinds of references in one pass",C+":conv_animation",C+":process_layers",R+":Renderer::append",R+":Renderer::render_layer")
p("The handles of keyframes can be written in several ways","Rendering two documents that are the same, apart from how the easing handles of their keyframes are written, makes the same calls at every frame, and if one of them can be imported so can the other: the coordinates of a handle may be numbers or lists of one number, handles at (0,0) and (1,1) may be left out together, and the hold flag may be left out or 0.","all documents, all keyframes of numbers, vectors, colours, gradients, positions and paths in layers, masks, shapes and assets; all frames; any arithmetic, in particular double precision","every keyframe of a document of any size may be written in several ways",C+":conv_keyframe_handle",C+":conv_keyframes",C+":conv_scalar",V+":Time::frames_and_weight",R+":Renderer::append")
p("A property that does not change may have keyframes or be static","Rendering two documents that are the same, except that some properties are static in one and in the other have one or more keyframes, all with that value, makes the same calls at every frame. This holds for numbers, points, sizes and positions with held keyframes in the floating point numbers of the implementation, and in exact arithmetic with any keyframes, also for colours, paths and gradients with all their declared stops. A gradient with fewer stops shows these if it is static, and none if it has keyframes.","all documents that can be imported, any number of such properties in layers, masks, shapes, gradients and assets; all numbers of keyframes, all handles, all frames, transforms and opacities","static properties and those with keyframes are imported, folded and evaluated by different code, for each kind of object",V+":Value::evaluate",V+":Time::frames_and_weight",A,C+":conv_scalar",C+":conv_keyframes",R+":Renderer::append")
p("The handles of held keyframes do not matter","Rendering two documents that are the same, apart from the easing handles of held keyframes, makes the same calls at every frame, and if one of them can be imported so can the other: the handles may be left out or be anywhere. The same is true of the handles of all keyframes of paths. The colours of gradients are the same in both.","all documents, all held keyframes of numbers, points, sizes, positions and colours and all keyframes of paths, in layers, masks, shapes and assets; all frames; any arithmetic, in particular double precision","every held keyframe may have any handles; handles also decide how keyframes are imported",V+":Animated::evaluate_inner",V+":Time::frames_and_weight",C+":conv_keyframes",C+":conv_scalar",C+":conv_shape_geometry",R+":Renderer::append")
p("Numbers that are not read do not matter","Rendering two documents that are the same, apart from the third and later coordinates of points, sizes and positions, the fourth and later numbers of colours, the second and later numbers of keyframes of a single number, the second and later shapes in a keyframe of a path, the tangents of position keyframes and the deprecated end values of keyframes, makes the same calls at every frame, and if one of them can be imported so can the other.","all documents, all these numbers in layers, masks, shapes and assets, also any number of them left out or added; all frames; any arithmetic, in particular double precision","unbounded documents; lists of every length are accepted everywhere",C+":conv_keyframes",C+":conv_pos",C+":conv_multi",C+":conv_multi_color",C+":conv_scalar",C+":conv_shape_geometry")
p("What is left out can be written out","A document is imported as the same composition, or rejected in the same way, if what it leaves out is written out: shapes that are not closed; the origin as anchor, no skew and full opacity of transforms, no rotation of groups; linear gradients; bevel joins and butt caps of strokes, round ones of strokes with gradients; inner radius and roundness 0 of stars; full opacity of masks; for layers the empty name, number 0, start time 0, stretch 1, normal blend mode, no masks, not hidden, not a matte; the empty list of assets.","all documents, any number of these in layers, masks, shapes at any depth and assets; any arithmetic","unbounded documents; every subset of the optional attributes",C+":conv_animation",C+":conv_draw",C+":conv_transform",C+":conv_spline","src/import/defaults.rs","src/import/builders.rs:setup_layer_base")
p("A position may be split into its coordinates","Rendering two documents that are the same, except that some positions of layers are given as two numbers, x and y, in one of them and as a position in the other, makes the same calls at every frame: both static, or with keyframes at the same times, with the same values, easing handles and hold flags.","all documents that can be imported, any number of such positions in layers and in the layers of assets, split in one document or the other; all frames; any arithmetic, in particular double precision","every keyframe list of every layer; two code paths import and evaluate the two forms",C+":conv_transform",C+":conv_pos_point",C+":conv_scalar",A+":Position::evaluate")
open("/verif/properties.jsonl","w").write("".join(json.dumps(x)+"\n" for x in P))
print(len(P))
