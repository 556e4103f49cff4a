{
 "C01": {
  "note": "All number types, all lists, all frames. C01_no_panic relates the panicking slice accesses to the proof-carrying ones."
 },
 "C02": {
  "note": "Also proved for every binary search that meets the documented contract of the standard library."
 },
 "C03": {
  "note": "IEEE double arithmetic. At the last keyframe itself the weight is 0/0; proved for finite handles when the cubic solver finds no roots of a polynomial with a NaN coefficient, and for all handles whose magnitude is bounded."
 },
 "C04": {
  "note": "IEEE double arithmetic; the last keyframe is covered by the *_last theorems (0/0 weight)."
 },
 "C06": {
  "note": "IEEE double arithmetic. C06_overflow_counterexample shows why the gaps must not overflow."
 },
 "C07": {
  "note": "Exact arithmetic, every exact cubic solver."
 },
 "C08": {
  "note": "Exact arithmetic, every exact cubic solver. C08_tolerance_needed shows that the tolerance cannot be dropped."
 },
 "C09": {
  "note": "Exact arithmetic, every exact cubic solver; also stated for frames of an animated value."
 },
 "C16": {
  "status": "partial",
  "note": "The property is false of the code: exactly at the last keyframe the weight is NaN and every point of the path is NaN (C16_last_is_nan, C16_counterexample), and a following shape with fewer points truncates the path (C16_truncation_counterexample). Proved for every keyframe before the last whose successor has at least as many points, and for a last keyframe with hold."
 },
 "C11": {
  "status": "partial",
  "note": "Transforms, strokes, repeaters, trims, stars: every number type. Brushes: solid brushes for every alpha, gradients only for alpha 1, because an animated gradient ignores the alpha while its fixed form multiplies it (C11_gradient_alpha_counterexample). The renderer only evaluates brushes with alpha 1. C11_rect_ellipse: is_fixed of rectangles and ellipses, which are never folded."
 },
 "C12": {
  "note": "Exact arithmetic."
 },
 "C13": {
  "note": "Exact arithmetic."
 },
 "C14": {
  "status": "partial",
  "note": "Proved for anchor, skew, skew axis, opacity (and rotation of groups) in any combination. False for the scale: an omitted scale becomes 1 percent (C14_scale_omitted, against C14_scale_explicit)."
 },
 "C27": {
  "note": "Every number type, every composition; executions that return."
 },
 "C28": {
  "note": "Every number type."
 },
 "C30": {
  "note": "Equality of the whole outcome (calls, panic, non-termination) for every renderer reached by appends that returned."
 },
 "C31": {
  "note": "Every number type; NaN in IEEE arithmetic."
 },
 "C32": {
  "note": "Non-interference: changing unused mattes changes no execution."
 },
 "C33": {
  "note": "Every number type, as an equivalence."
 },
 "C34": {
  "note": "Every number type; on points in exact arithmetic."
 },
 "C35": {
  "note": "The loop as a step function, for every assignment of parents."
 },
 "C36": {
  "status": "partial",
  "note": "False in general: a layer that is its own matte (explicit matte index) or an asset that instantiates itself recurses forever (C36_self_matte, C36_self_instance, C36_counterexample). Proved for all compositions without reference cycles."
 },
 "C40": {
  "note": "Every number type, as an equivalence; masks and mattes are removed by C41 and C42."
 },
 "C41": {
  "note": "Every number type, as an equivalence."
 },
 "C42": {
  "note": "Every number type, as an equivalence."
 },
 "C43": {
  "status": "partial",
  "note": "Proved for top-level layers that are not mattes. False for mattes and for layers of assets, which are always announced with index 0 (C43_asset_zero, C43_counterexample)."
 },
 "C37": {
  "note": "C37_paints holds for every number type, with fixed paths starting with a MoveTo; C37_product gives the product form in exact arithmetic; C37_layer_opacity and C37_no_leak cover layers."
 },
 "C22": {
  "note": "All states the renderer can reach while traversing a shape tree (MidRender), all number types."
 },
 "C23": {
  "status": "partial",
  "note": "Full trims: proved (removing them changes nothing). Empty trims: proved when no geometry follows the trim in its group; C23_counterexample shows that geometry with the same transform following an empty trim brings the trimmed path back."
 },
 "C25": {
  "note": "All reachable states; the transform formula and the number of copies of animated repeaters in exact arithmetic; C25_after: geometry after a repeater is never merged into its copies."
 },
 "C26": {
  "status": "partial",
  "note": "Opacity formula proved, and the once-per-copy claim for one copy. C26_counterexample: with n copies every copy of a fill paints all n copies of the geometry; C26_count counts this for all n: m*n outlines in place of m, if m copies have a positive opacity."
 },
 "C29": {
  "note": "C29_star_counterexample shows the panic for a star with too many points."
 },
 "C19": {
  "note": "IEEE binary64 semantics, start/end/offset finite of magnitude at most 2^1022 (so that their sums and differences do not overflow)."
 },
 "C20": {
  "note": "Exact arithmetic (real numbers); C20_exact outside the two 1e-9 tolerance bands, C20_length for every trim."
 },
 "C21": {
  "note": "Swap: IEEE binary64 for finite start/end, and exact arithmetic. Whole turns of the offset: exact arithmetic."
 },
 "C38": {
  "status": "partial",
  "note": "Proved for shape lists without trims and repeaters in which no geometry merges with one that precedes it across a group boundary (SeparatedIn). False in general: geometry with the same transform is merged across group boundaries, so a fill can lose its path (C38_counterexample)."
 },
 "C39": {
  "note": "All shape trees; calls appear in the reverse of document order."
 },
 "C24": {
  "status": "partial",
  "note": "C24_outlines: every number type. C24_pieces_partial: IEEE binary64, every behaviour of kurbo. C24_cut: exact arithmetic, any path of lines and curves, kurbo's arc lengths exact: the pieces lie between the requested arc lengths. C24_curves_partial, C24_curves_fraction_partial (and, under the weaker assumption that kurbo is exact on lines, C24_lines_partial, C24_fraction_partial): one subpath; nothing else is drawn and the length is the requested fraction. False for several subpaths: pieces of different subpaths are connected by a line (C24_counterexample)."
 },
 "C17": {
  "note": "C17_corners: every number type. C17_star: exact real arithmetic, up to 2^56 points. C17_no_points: IEEE doubles."
 },
 "C18": {
  "note": "Exact arithmetic. C18_figures says which rectangle or ellipse kurbo is asked for, without assumptions about kurbo; the other theorems, about the extent of the outline, assume that kurbo's outlines touch the sides of their box."
 },
 "C44": {
  "note": "Every number type, every document that imports (root layers and every precomposition asset)."
 },
 "C45": {
  "note": "Every number type, every layer list; the last layer with the parent's index counts, an index nobody carries gives no parent."
 },
 "C46": {
  "note": "Every number type; explicit matte index and the implicit matte immediately before."
 },
 "C47": {
  "note": "Hidden layers are imported without content, keep their transform, parent and matte links, and issue no draw calls; transforms of children are unchanged by the flag."
 },
 "C57": {
  "note": "The last asset with an id is the one instances refer to; earlier definitions are unreachable."
 },
 "C51": {
  "note": "Every number type: vectors, positions, colours (one or two entries per keyframe), scalars, gradients and paths (one entry per keyframe); sorted documents give sorted times."
 },
 "C49": {
  "note": "Counts, offsets, colours, opaque default and the upper bound on opacity for every number type; the lower bound in exact arithmetic with an exact cubic solver."
 },
 "C50": {
  "status": "partial",
  "note": "False of the code: the offsets are tweened with the un-held weight (C50_counterexample). Proved: count and colours are held; everything is held if the next keyframe has the same offsets."
 },
 "C53": {
  "note": "Every number type, every shape tree that imports."
 },
 "C54": {
  "status": "partial",
  "note": "False of the code for gradients: their declared opacity is ignored for every gradient (C54_gradients, C54_counterexample). Proved for solid fills and strokes."
 },
 "C60": {
  "status": "partial",
  "note": "False of the code with three or more opacity stops (C60_counterexample): every colour stop is at most as opaque as every interior opacity stop (C60_interior). C60_exact says which opacity every colour stop gets, for any number of opacity stops in order: the least of 1 and all ramps (exact arithmetic, exact cubic solver). The claim is proved for two opacity stops."
 },
 "C48": {
  "note": "Unsupported (Spec/Unsupported.lean) lists the parts."
 },
 "C55": {
  "status": "partial",
  "note": "False of the code when the layer has a matte (C55_counterexample): the matte is then drawn too and composited. Proved when the layers with matte mode Normal have no matte."
 },
 "C56": {
  "status": "partial",
  "note": "False of the code for stars with an astronomical number of points (C56_counterexample): the allocation for their vertices panics. It is the only place that can panic (C56_only_stars). Termination is C36. The theorems are about every document, so in particular about parsed ones."
 },
 "C52": {
  "note": "All JSON values, number types; paths in masks and in shapes at any depth, of the document and its assets. C52_check_needed: without the check every such path underflows."
 },
 "C58": {
  "note": "All JSON values."
 },
 "C59": {
  "status": "partial",
  "note": "The property is false of the code: an image asset whose size is given as null is parsed, written without size, and then rejected (C59_counterexample, C59_unsized). Proved for all animations in which every image asset has a width or a height. Model of from_value and to_value; the text form of numbers is serde_json's."
 },
 "C61": {
  "status": "proved",
  "note": "Exact real arithmetic; sin, cos, tan are the real functions."
 },
 "C62": {
  "status": "partial",
  "note": "The property is false of the code (C62_counterexample): blend modes are imported but never used (C62_ignored). Proved: every pushed layer has mode Normal or is a matte, so layers with mode Normal are composited correctly."
 },
 "C63": {
  "status": "partial",
  "note": "The property is false of the code (C63_counterexample, C63_counterexample_two): modes, inversion and expansion are dropped on import, opacity is not used when rendering (C63_ignored), several masks are intersected. Proved for a single adding mask."
 },
 "C64": {
  "status": "partial",
  "note": "The property is false of the code (C64_counterexample): the hidden flag of shapes is not looked at. Proved when the hidden shapes are of kinds that are not implemented."
 },
 "C65": {
  "status": "partial",
  "note": "The property is false of the code (C65_counterexample): fill rules are dropped on import and the vello sink always fills with the non-zero rule. Proved for documents with non-zero fills only."
 },
 "C66": {
  "status": "proved",
  "note": "The attributes are those dropped by Animation.strip and Composition.forget."
 },
 "C67": {
  "status": "proved",
  "note": "vello::Scene is modelled by the list of its method calls."
 },
 "C68": {
  "status": "partial",
  "note": "Scalars: proved. Vectors, positions and colours: proved when the easing of each keyframe is the same for all coordinates and both handles are given or none. False otherwise: the handles of the second coordinate are used for all of them (C68_counterexample), and a keyframe with one handle is not eased (C68_counterexample_handle). What is shown with any handles is proved too: exactly one set of handles is used for all coordinates (C68_played_unique), and C68_vectors_played, C68_positions_played and C68_colors_played say that the keyframes are played with these."
 },
 "C69": {
  "status": "partial",
  "note": "False of the code: luma mattes are imported as alpha mattes (C69_ignored, C69_counterexample). Proved for the alpha modes."
 },
 "C70": {
  "status": "partial",
  "note": "False of the code: no clip is pushed and the size of a layer is not used (C70_ignored, C70_counterexample). Proved for layers as large as the composition and not moved, which are clipped with everything else."
 },
 "C71": {
  "status": "partial",
  "note": "False of the code: inside a transformed precomposition the layers pushed for a matte have the rectangle of the whole composition in the coordinates of the precomposition (C71_counterexample). Proved if the assets contain no mattes."
 },
 "C72": {
  "status": "proved",
  "note": "Exact arithmetic. For a singular transform adjacent paths may be merged into one draw call (example in the file)."
 },
 "C73": {
  "status": "proved",
  "note": "For every number type."
 },
 "C74": {
  "status": "proved",
  "note": "Exact arithmetic, for compositions and for documents. Assets have a time of their own and are not moved."
 },
 "C75": {
  "note": "Exact arithmetic, every solver. C75_outline for the runtime star, C75_document from the values of the document's properties."
 },
 "C76": {
  "note": "C76_paint for each fill and stroke, C76_calls for every draw call of a rendered document, both in any arithmetic whose comparisons are lawful (double precision and the reals); C76_static_fill, C76_static_stroke and C76_animated_fill say the same of the numbers in the document directly, in exact arithmetic. The declared opacity of gradients is not used by the code; that is the subject of C54."
 },
 "C77": {
  "note": "All number types. C77_blend_number relates the number in the JSON document to the mix function."
 },
 "C78": {
  "note": "All number types. Spec/Format.lean states the format as relations between JSON values and schema values, without reference to the parser; C78_reads is an equivalence for every structure, shapes at any depth included. C78_from_json composes it with C44 and C77."
 },
 "C79": {
  "note": "Exact arithmetic. C79_composed is an equation of executions for every amount of fuel."
 },
 "C80": {
  "note": "Exact arithmetic. Spec/Picture.lean gives the calls their usual meaning at one pixel; coverage, brush colours and mix functions are left open (Rasteriser)."
 },
 "C81": {
  "note": "Exact arithmetic, as C80. C81_matte, for each of the compositing functions. Pixels inside the rectangle of the composition under the transform the layer is rendered with (for precompositions see C71)."
 },
 "C82": {
  "note": "Exact arithmetic, as C80. Says what the code shows: all masks intersect (the declared modes are the subject of C63). A layer with a matte and masks: C81 with C82 for the layer without matte."
 },
 "C83": {
  "status": "partial",
  "note": "False of the code, which fades every brush instead of the picture: a layer that draws twice at a pixel shows 0.75 instead of 0.5 at 50 percent (C83_overlap_counterexample), and a matted layer is faded twice (C83_matte_counterexample). Proved: nothing is visible at opacity 0; without mattes, where at most one drawing is visible, the claim holds; without mattes the opacity is between that of the faded and that of the original picture."
 },
 "C84": {
  "status": "proved",
  "note": "C84_document in any arithmetic; the set of positions that is kept in exact arithmetic (real numbers)."
 },
 "C85": {
  "status": "proved",
  "note": "for every number type; the numbers of mattes are floats in the document and their truncations are renamed."
 },
 "C86": {
  "status": "proved",
  "note": "for every number type; C86_order and C86_unused are special cases: assets with different ids in another order, assets never used removed. A broken asset that is not used still makes the import fail (C86 compares documents that are both imported; removing assets never makes it fail)."
 },
 "C87": {
  "status": "proved",
  "note": "exact arithmetic. C87_precompose on compositions and C87_document on documents."
 },
 "C88": {
  "status": "partial",
  "note": "proved in exact arithmetic (C88_loops, C88_first_pass, C88_repeats) and in IEEE arithmetic for compositions that start at frame 0 (C88_from_zero_partial); for other starts the frame may be rounded to the end of the range, where nothing is visible (C88_counterexample), but not beyond (C88_closed_partial)."
 },
 "C89": {
  "status": "proved",
  "note": "for every number type and every implementation of kurbo's boxes; the overlays, drawn afterwards, are the subject of C109."
 },
 "C90": {
  "status": "proved",
  "note": "C90_hits for every number type; C90_smallest, C90_covers and C90_path_box in exact arithmetic for exact boxes of segments. The width of strokes, clips and masks do not count; a path without segments counts as the origin; mattes count."
 },
 "C91": {
  "status": "proved",
  "note": "for every number type."
 },
 "C92": {
  "status": "proved",
  "note": "exact arithmetic."
 },
 "C93": {
  "status": "proved",
  "note": "C93_average in exact arithmetic."
 },
 "C94": {
  "status": "partial",
  "note": "false of the code: with an average under 0.75 ms and a maximum of more than three times as much, an unsigned subtraction underflows (C94_counterexample); after clearing the extreme values all bars have a height that is not a number (C94_cleared_counterexample). C94_no_panic_partial says exactly when there is a panic; C94_background, C94_bars, C94_lines, C94_inside describe what is drawn (exact arithmetic)."
 },
 "C95": {
  "status": "partial",
  "note": "false of the code: with all fingers at the same place the zoom is 0/0 (C95_counterexample), and one finger is already a gesture although the documentation says two (C95_single_counterexample). C95_fingers for every number type; C95_info, C95_no_jump_partial, C95_one_finger in exact arithmetic."
 },
 "C96": {
  "status": "partial",
  "note": "false of the code: zoom and rotation are about the new average position, but the translation is applied after them as well, so that fingers that move and zoom together slip (C96_counterexample). C96_similarity_partial gives the slip exactly, C96_two_fingers_partial says exactly when two fingers stay on their points, C96_one_finger that one finger always does."
 },
 "C97": {
  "status": "proved",
  "note": "exact arithmetic."
 },
 "C98": {
  "status": "proved",
  "note": "exact arithmetic for positions; touches of the lower third are exact comparisons."
 },
 "C99": {
  "status": "partial",
  "note": "false of the code: C99_counterexample (ten quick frames), and no scenes or --scene -2147483648 (C99_no_scenes_counterexample). C99_no_panic_partial says exactly which sequences of events panic (exact arithmetic)."
 },
 "C100": {
  "status": "proved",
  "note": "exact arithmetic; fingers must not be all at one place (C95_counterexample)."
 },
 "C101": {
  "status": "partial",
  "note": "false of the code: lifting the finger is passed on to the touch state, which swallows the movement of other fingers in that frame (C101_counterexample). C101_navigation_finger_partial covers everything until the finger is lifted, all other events included."
 },
 "C102": {
  "status": "partial",
  "note": "false of the code: an @ in a URL alone is taken for the end of a name (C102_counterexample). C102_plain_partial covers URLs without @."
 },
 "C103": {
  "status": "partial",
  "note": "false of the code: the part of a name after its last dot is lost, so that v1.2 and v1.3 are one file (C103_counterexample), and a URL ending with a slash is stored outside of the directory (C103_outside_counterexample). C103_partial, C103_stem and C103_distinct for the other names."
 },
 "C104": {
  "status": "proved",
  "note": "a server is a function from URLs to the answers to HEAD and GET; a GET can break off after any number of bytes."
 },
 "C105": {
  "status": "partial",
  "note": "false of the code: an empty or partial file is left and taken for a download by the next run (C105_counterexample). C105_failure_partial says exactly what may be left."
 },
 "C106": {
  "status": "proved",
  "note": "the answers to the questions are parameters; total size below 2^64."
 },
 "C107": {
  "status": "proved",
  "note": "about the 344 default downloads; their names and URLs are checked to be different by kernel computation, the rest for all servers and directories."
 },
 "C108": {
  "status": "partial",
  "note": "false of the code: the order of names that differ only in case is that of the listing (C108_counterexample). C108_reproducible_partial if there are no such names. Conversion to lower case is a parameter."
 },
 "C109": {
  "status": "proved",
  "note": "exact arithmetic."
 },
 "C110": {
  "status": "proved",
  "note": "exact arithmetic; the font is a parameter (advance width of a character and line height)."
 },
 "C111": {
  "status": "partial",
  "note": "false of the code: eased values jump, since the easing is solved to a tolerance of 1e-6 only (C111_counterexample: there is a solver that meets its specification for which an eased value is not continuous). C111_*_partial: jumps are at most 1e-6 of the largest step between adjacent keyframes (exact arithmetic, no held keyframes). C111_*_straight: without easing, Lipschitz with the largest speed of the keyframes."
 },
 "C112": {
  "status": "proved",
  "note": "at the top level of the document, all number types. Documents with cycles of parents are excluded: the parents are followed as many times as there are layers (example in Props/Remove)."
 },
 "C113": {
  "status": "proved",
  "note": "at the level of serde_json::Value."
 },
 "C114": {
  "status": "proved",
  "note": "in IEEE binary64 with round to nearest even as modelled in Num/; the cubic solver is an arbitrary function. Colours: numbers from 0 to 1, channels not below -2e-10."
 },
 "C115": {
  "status": "proved",
  "note": "in IEEE binary64 with round to nearest even; sine, cosine and tangent are any functions with the stated accuracy (AccurateLibm; one exists: accurateLibm). The place itself is defined over the reals (placed, Spec/TransformFormula)."
 },
 "C116": {
  "status": "proved",
  "note": "in IEEE binary64 with round to nearest even; the cubic solver is any function with the stated accuracy (SolverWithin δ; one with δ = 2^-40 exists: accurateKurbo). How accurate kurbo's own solver is, is not modelled: the statement is uniform in δ."
 },
 "C117": {
  "status": "proved",
  "note": "C117_calls is the equivalence, for all documents that can be imported and every arithmetic whose comparisons are lawful (double precision and the reals): the specification fixes the order of all operations, so in double precision the calls agree to the last bit; exSmallDoc64_drawn is an instance. C117_drawn and C117_unique are its parts. Parents may go round in a circle, groups may have any number of transforms (the last one counts), and geometry may be without a fill or stroke (it is then merged with geometry after it that has the same transform, even in other groups, as the code does). What the code ignores of a document (blend modes of layers, modes and opacities of masks, fill rules, hidden shapes: C62 – C65) does not occur in the specification either. Geometry after geometry of which a trim has left nothing, without a fill or stroke in between, is merged by the code with everything there has been before it in the layer (C23_counterexample); the specification says so (Sheet.add, field elements)."
 },
 "C118": {
  "status": "proved",
  "note": "C118_returns and C118_overflows for any arithmetic and any composition that does not panic (C29), C118_document and C118_drawn from the document, also in any arithmetic (C118_drawn: with lawful comparisons). C36 (rendering always returns) is false; this says exactly when it does."
 },
 "C119": {
  "status": "proved",
  "note": "The picture of calls is that of Spec/Picture (C80 - C82): coverages, source-over and the three compositions for mattes, for any rasteriser. Luma mattes look at the opacity of the matte, as the code does (C69)."
 },
 "C120": {
  "status": "proved",
  "note": "For any arithmetic. What the system answers when the application is resumed (window, size, device, number of devices) is arbitrary; failures of wgpu and winit end the application and are not modelled. That no device gets two renderers needs that devices are not taken away (SensibleAnswers); with C99 this says when the application panics."
 },
 "C121": {
  "status": "partial",
  "note": "false of the code: C121_counterexample (--scene 1 with one scene, or with the key left before the first frame). C121_title_partial: otherwise it does, and the only other title is the initial one while the scene before the one of the command line is displayed; C121_no_argument_partial: without a scene number it always does."
 },
 "C122": {
  "status": "partial",
  "note": "false of the code: C122_counterexample (key V, suspended, resumed: the new surface waits for the display again, the panel says it does not). C122_vsync_partial: it does if the application has not been suspended after the key V was used."
 },
 "C123": {
  "status": "proved",
  "note": "for layers at the top level of the document, all number types with lawful comparisons (double precision and exact). A matted layer is excluded: the matte would be that of the first half only (example in Props/Cut)."
 },
 "C124": {
  "status": "proved",
  "note": "exact arithmetic (in double precision, multiplying by the identity matrix may change the sign of a zero). Only first elements: fills and trims look back to the beginning of their group (example in Props/Regroup)."
 },
 "C125": {
  "status": "proved",
  "note": "the two documents are generated from /repo by tools/assets.py (Model/TigerJson, Model/PolyStarJson); how the text parser reads a decimal fraction is a parameter. The poly-star document is proved in double precision, where its animated numbers of points are checked."
 },
 "C126": {
  "status": "partial",
  "note": "the last sentence is false if every path given is a directory without files name.json: C126_counterexample, the first frame then panics. Whether a file can be loaded is a parameter (C79 and C125 say when a document can be)."
 },
 "C127": {
  "status": "proved",
  "note": "in IEEE binary64 (colours: binary32) with round to nearest even; sine, cosine, tangent and hypot are any functions with the accuracy of C115. Speaks of matrices, widths, colours and gradients; outlines are C130."
 },
 "C128": {
  "status": "proved",
  "note": "about JSON values (an object is its list of entries, of entries with the same key the last one counts); how text is read into JSON values is not modelled."
 },
 "C05": {
  "status": "partial",
  "note": "Scalars and points: proved, every number type. Paths: proved in IEEE arithmetic if the next shape has at least as many points; with fewer points the held path is cut short (C05_counterexample)."
 },
 "C129": {
  "status": "proved",
  "note": "in IEEE binary64; sine and cosine are any functions with the accuracy of C115. The exact transforms are those of the values that the properties have at the frame in double precision (for the accuracy of these values see C114)."
 },
 "C130": {
  "status": "partial",
  "note": "in IEEE binary64 with round to nearest even; sine, cosine and tangent are any functions with the accuracy of C115, and kurbo's outlines and pieces of segments are any of moderate size. False of the code at a frame where an animated path is at its last keyframe and this is not held (C130_last_keyframe: a small document drawn with NaN coordinates), or at a keyframe with the time of the next one; proved at all other frames (C130_calls_partial), and at all frames if the paths have no such keyframes (C130_every_frame_partial)."
 },
 "C131": {
  "status": "partial",
  "note": "False of the code: C131_counterexample gives, for every n, a document with n+1 assets and 2n+2 layers (without masks and mattes) that is drawn with 2^n fills, as each of its assets shows the one before it twice. Proved: a bound by any budget for layers and assets that is large enough (C131_calls_partial: two calls for the group and for each mask, one for each pair of a fill or stroke and a geometry of the layer, four and those of the matte if there is one, and those of the asset that is shown), and from this a bound that is polynomial for each depth of nesting (C131_nested_partial, without mattes)."
 },
 "C132": {
  "status": "proved",
  "note": "in IEEE binary64, colours in binary32. The exact opacities are those that the properties have at the frame in double precision (for the accuracy of these values see C114 and C116). Gradients ignore their own opacity (C54) and are here taken to be opaque."
 },
 "C133": {
  "status": "proved",
  "note": "in IEEE binary64; sine, cosine and tangent are any functions with the accuracy of C115 and C130. The figure is the one of C75, with the values that the properties have at the frame in double precision (for their accuracy see C114 and C116), the number of points rounded to an integer, and the roundness up to 10^-12 per cent. What kurbo makes of the sides of a rectangle or the radii of an ellipse is not modelled."
 },
 "C134": {
  "status": "partial",
  "note": "The easing handles of path keyframes are ignored (C134_ignored, C134_counterexample); steady progress is exact to 2^-32 (C134_steady), which is what the keyframes declare if the easing is straight (C134_straight_partial). At the last keyframe the points are NaN (C16)."
 },
 "C135": {
  "status": "partial",
  "note": "Exact arithmetic, with a solver that finds the roots of the easing curve (ExactSolver). During a hold the offsets move on (C135_counterexample, as in C50): C135_stops_partial has the offsets without hold keyframes, C135_offsets says what they are in general (as if nothing were held). C135_opacity is the opacity with any opacity data in order, from the opacities that C60_exact gives to the stops at the keyframes; C135_ramp is the case of two opacity stops."
 },
 "C136": {
  "status": "partial",
  "note": "C136_scalars is the whole claim for numbers; it puts C03, C05 and C116 together for the whole timeline. Vectors, positions and colours are proved if the keyframes have both handles or none, the same for all coordinates; other handles are not used as declared (C68_counterexample, C68_counterexample_handle). C136_vectors_played, C136_positions_played and C136_colors_played say what is shown with any handles. For gradients the offsets during a hold are wrong (C135_counterexample; C136_offsets says what they are), and opacity data are left out (C60). kurbo's cubic solver is any function with accuracy delta, and the moment at which the easing curve is read may be wrong by delta + 10^-10 of the time between the keyframes."
 },
 "C137": {
  "status": "proved",
  "note": "Keyframes at finite times strictly before the frames; exactly at the last keyframe of a property that is not held its weight is undefined (C03, C130_last_keyframe). All properties of shapes, masks, transforms and layers, including time remaps."
 },
 "C138": {
  "status": "partial",
  "note": "False of the code for the stops of gradients: their offsets move during a hold (C50_counterexample, C135_counterexample). Proved if no stops of gradients are held; all other properties, of shapes, masks, transforms and layers, may be held. Before the first keyframe: at least 2^-500 frames before it, and the keyframes within 2^500 frames (else the weight may be -0)."
 },
 "C139": {
  "status": "partial",
  "note": "False of the code for paths: one keyframe that says that the path is closed closes it at all frames (C139_counterexample). Proved for all other properties, and for paths each of whose keyframes has a shape of its own and of which those of both documents or of neither have a keyframe that closes the path; other paths must be the same in both documents."
 },
 "C140": {
  "status": "proved",
  "note": "For all pairs of documents that are the same at a frame in the sense of Spec/ValuesOnly.lean; through the characterisation of the calls in C117."
 },
 "C141": {
  "status": "proved",
  "note": "In exact arithmetic with an exact solver (the assumption of C07). Numbers, vectors, positions, colours, gradients (without opacity data) and paths (with a shape for each keyframe); and whole documents, with keyframes added in any of these, in layers, masks, shapes and assets; adding and removing such keyframes keeps a document importable. Gradients with opacity data are not covered: opacities are interpolated at import, separately for each keyframe."
 },
 "C142": {
  "status": "proved",
  "note": "C142_sources: any arithmetic, any document. C142_drawn: IEEE double precision, documents with moderate numbers; C129 and C132 for the same geometry and the same fill or stroke. That all geometry before a fill is drawn with it is not claimed: it is false (C38_counterexample)."
 },
 "C143": {
  "status": "proved",
  "note": "Without the condition on groups it is false (C38_counterexample); C142 is the other direction, for all documents. Layers with trims are not covered here; see C117 for them."
 },
 "C144": {
  "status": "proved",
  "note": "The numbers are computed as the code does, with IEEE rounding in double and single precision; the cubic solver of kurbo and the square root are only assumed to be accurate. Where a property uses one pair of handles for all coordinates (C68) or offsets ignore holds (C135), the statement says so: the keyframes are those of PlayedAs."
 },
 "C145": {
  "status": "proved",
  "note": "At the top level of the document, all number types. Excluded are documents with two equal layers, or with two layers of the same number to which somebody refers (the last one counts there, so the order does matter)."
 },
 "C146": {
  "status": "proved",
  "note": "At the top level of the document. C146_calls is for all number types, C146_picture for exact arithmetic. Precompositions are not clipped to their size by the code, so the size of the new layer does not matter."
 },
 "C147": {
  "status": "proved",
  "note": "At the top level of the document, without mattes: the rectangles of mattes are placed by the transform of the document, not by parents."
 },
 "C148": {
  "status": "proved",
  "note": "What the matte of a layer is, is MatteOf of Spec/DocDraws (subject of C46)."
 },
 "C149": {
  "status": "proved",
  "note": "Any arithmetic with a lawful comparison. If one of the two documents can be imported, so can the other."
 },
 "C150": {
  "status": "proved",
  "note": "Held keyframes: any arithmetic with a lawful comparison, in particular double precision; numbers, points, sizes and positions. Keyframes that are not held, colours, paths and gradients: exact arithmetic (in double precision the value may differ by the sign of a zero, or be undefined if the easing is). Paths are those whose keyframes have a shape each. At the time of the last keyframe of a path the code computes 0 / 0 (C16), which is 0 in the exact arithmetic used here. Both documents are assumed to be importable. Gradients with fewer stops than declared are shown differently (C150_missing_stops)."
 },
 "C151": {
  "status": "proved",
  "note": "Any arithmetic with a lawful comparison. Each handle has one number for each coordinate; handles with lists of two numbers are not covered. Gradients are excluded: the offsets of held gradients are not held (C50), so their handles matter. That no handle of a path matters is the defect recorded at C134."
 },
 "C152": {
  "status": "proved",
  "note": "Any arithmetic with a lawful comparison. That the tangents of positions are not read, so that positions always move on straight lines, is a limitation of the implementation that this makes precise; the colours of gradients are the same in both documents."
 },
 "C153": {
  "status": "proved",
  "note": "The scale of transforms is not among the attributes: left out, it is 1 per cent, not 100 (C14). A layer without number is the same as one with number 0, so that a layer whose parent is 0 has it as parent. Strokes of a single colour and strokes with gradients have different joins and caps if they do not say."
 },
 "C154": {
  "status": "proved",
  "note": "Any arithmetic with a lawful comparison. Keyframes have both handles or none, and each handle has one number for each coordinate: the importer rejects handles with two numbers for single numbers (C48), and treats those of positions as two keyframes. Positions of groups are never split: the importer rejects such documents (C48)."
 }
}