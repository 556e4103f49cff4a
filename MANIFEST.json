{
 "claims": [
  {
   "property": "C01",
   "status": "proved",
   "theorems": [
    "Velato.C01_no_panic",
    "Velato.C01_total",
    "Velato.C01_fixed"
   ],
   "note": "All number types, all lists, all frames. C01_no_panic relates the panicking slice accesses to the proof-carrying ones."
  },
  {
   "property": "C02",
   "status": "proved",
   "theorems": [
    "Velato.C02_bracket",
    "Velato.C02_search_contract",
    "Velato.C02_any_conforming_search"
   ],
   "note": "Also proved for every binary search that meets the documented contract of the standard library."
  },
  {
   "property": "C03",
   "status": "proved",
   "theorems": [
    "Velato.C03_before_first",
    "Velato.C03_after_last",
    "Velato.C03_at_last",
    "Velato.C03_at_last_any_handles"
   ],
   "note": "IEEE double arithmetic. At the last keyframe itself the weight is 0/0; proved for finite handles when the cubic solver finds no roots of a polynomial with a NaN coefficient, and for all handles whose magnitude is bounded."
  },
  {
   "property": "C04",
   "status": "proved",
   "theorems": [
    "Velato.C04_scalar",
    "Velato.C04_point",
    "Velato.C04_color",
    "Velato.C04_scalar_last",
    "Velato.C04_point_last",
    "Velato.C04_color_last"
   ],
   "note": "IEEE double arithmetic; the last keyframe is covered by the *_last theorems (0/0 weight)."
  },
  {
   "property": "C05",
   "status": "partial",
   "theorems": [
    "Velato.C05_hold_weight",
    "Velato.C05_hold_scalar",
    "Velato.C05_hold_point",
    "Velato.C05_hold_path_partial",
    "Velato.C05_counterexample"
   ],
   "note": "Scalars and points: proved, every number type. Paths: proved in IEEE arithmetic if the next shape has at least as many points; with fewer points the held path is cut short (C05_counterexample)."
  },
  {
   "property": "C06",
   "status": "proved",
   "theorems": [
    "Velato.C06_weight",
    "Velato.C06_overflow_counterexample"
   ],
   "note": "IEEE double arithmetic. C06_overflow_counterexample shows why the gaps must not overflow."
  },
  {
   "property": "C07",
   "status": "proved",
   "theorems": [
    "Velato.C07_linear",
    "Velato.C07_frames"
   ],
   "note": "Exact arithmetic, every exact cubic solver."
  },
  {
   "property": "C08",
   "status": "proved",
   "theorems": [
    "Velato.C08_no_overshoot",
    "Velato.C08_no_overshoot_exact",
    "Velato.C08_tolerance_needed"
   ],
   "note": "Exact arithmetic, every exact cubic solver. C08_tolerance_needed shows that the tolerance cannot be dropped."
  },
  {
   "property": "C09",
   "status": "proved",
   "theorems": [
    "Velato.C09_monotone",
    "Velato.C09_monotone_exact",
    "Velato.C09_frames"
   ],
   "note": "Exact arithmetic, every exact cubic solver; also stated for frames of an animated value."
  },
  {
   "property": "C10",
   "status": "proved",
   "theorems": [
    "Velato.C10_point",
    "Velato.C10_color"
   ],
   "note": ""
  },
  {
   "property": "C11",
   "status": "partial",
   "theorems": [
    "Velato.C11_transform",
    "Velato.C11_stroke",
    "Velato.C11_repeater",
    "Velato.C11_trim",
    "Velato.C11_star",
    "Velato.C11_rect_ellipse",
    "Velato.C11_rect_ellipse_fixed",
    "Velato.C11_brush_partial",
    "Velato.C11_solid_brush_partial",
    "Velato.C11_gradient_alpha_counterexample"
   ],
   "note": "Transforms, strokes, repeaters, trims, stars: every number type. Brushes: solid brushes for every alpha, gradients only for alpha 1, because an animated gradient ignores the alpha while its fixed form multiplies it (C11_gradient_alpha_counterexample). The renderer only evaluates brushes with alpha 1. C11_rect_ellipse: is_fixed of rectangles and ellipses, which are never folded."
  },
  {
   "property": "C12",
   "status": "proved",
   "theorems": [
    "Velato.C12_anchor"
   ],
   "note": "Exact arithmetic."
  },
  {
   "property": "C13",
   "status": "proved",
   "theorems": [
    "Velato.C13_area"
   ],
   "note": "Exact arithmetic."
  },
  {
   "property": "C14",
   "status": "partial",
   "theorems": [
    "Velato.C14_layer_partial",
    "Velato.C14_group_partial",
    "Velato.C14_scale_omitted",
    "Velato.C14_scale_explicit"
   ],
   "note": "Proved for anchor, skew, skew axis, opacity (and rotation of groups) in any combination. False for the scale: an omitted scale becomes 1 percent (C14_scale_omitted, against C14_scale_explicit)."
  },
  {
   "property": "C15",
   "status": "proved",
   "theorems": [
    "Velato.C15_no_panic",
    "Velato.C15_no_panic_animated",
    "Velato.C15_path",
    "Velato.C15_empty",
    "Velato.C15_import",
    "Velato.C15_segment_exact",
    "Velato.C15_segment_ieee"
   ],
   "note": ""
  },
  {
   "property": "C16",
   "status": "partial",
   "theorems": [
    "Velato.C16_hit_partial",
    "Velato.C16_hit_last_hold_partial",
    "Velato.C16_last_is_nan",
    "Velato.C16_counterexample",
    "Velato.C16_truncation_counterexample"
   ],
   "note": "The property is false of the code: exactly at the last keyframe the weight is NaN and every point of the path is NaN (C16_last_is_nan, C16_counterexample), and a following shape with fewer points truncates the path (C16_truncation_counterexample). Proved for every keyframe before the last whose successor has at least as many points, and for a last keyframe with hold."
  },
  {
   "property": "C17",
   "status": "proved",
   "theorems": [
    "Velato.C17_corners",
    "Velato.C17_no_points",
    "Velato.C17_star"
   ],
   "note": "C17_corners: every number type. C17_star: exact real arithmetic, up to 2^56 points. C17_no_points: IEEE doubles."
  },
  {
   "property": "C18",
   "status": "proved",
   "theorems": [
    "Velato.C18_rect",
    "Velato.C18_ellipse",
    "Velato.C18_document",
    "Velato.C18_figures"
   ],
   "note": "Exact arithmetic. C18_figures says which rectangle or ellipse kurbo is asked for, without assumptions about kurbo; the other theorems, about the extent of the outline, assume that kurbo's outlines touch the sides of their box."
  },
  {
   "property": "C19",
   "status": "proved",
   "theorems": [
    "Velato.C19_normalized"
   ],
   "note": "IEEE binary64 semantics, start/end/offset finite of magnitude at most 2^1022 (so that their sums and differences do not overflow)."
  },
  {
   "property": "C20",
   "status": "proved",
   "theorems": [
    "Velato.C20_length",
    "Velato.C20_exact"
   ],
   "note": "Exact arithmetic (real numbers); C20_exact outside the two 1e-9 tolerance bands, C20_length for every trim."
  },
  {
   "property": "C21",
   "status": "proved",
   "theorems": [
    "Velato.C21_swap",
    "Velato.C21_swap_real",
    "Velato.C21_turns"
   ],
   "note": "Swap: IEEE binary64 for finite start/end, and exact arithmetic. Whole turns of the offset: exact arithmetic."
  },
  {
   "property": "C22",
   "status": "proved",
   "theorems": [
    "Velato.C22_states",
    "Velato.C22_trim_scope"
   ],
   "note": "All states the renderer can reach while traversing a shape tree (MidRender), all number types."
  },
  {
   "property": "C23",
   "status": "partial",
   "theorems": [
    "Velato.C23_full",
    "Velato.C23_empty_partial",
    "Velato.C23_counterexample"
   ],
   "note": "Full trims: proved (removing them changes nothing). Empty trims: proved when no geometry follows the trim in its group; C23_counterexample shows that geometry with the same transform following an empty trim brings the trimmed path back."
  },
  {
   "property": "C24",
   "status": "partial",
   "theorems": [
    "Velato.C24_cut",
    "Velato.C24_curves_partial",
    "Velato.C24_curves_fraction_partial",
    "Velato.C24_outlines",
    "Velato.C24_pieces_partial",
    "Velato.C24_lines_partial",
    "Velato.C24_fraction_partial",
    "Velato.C24_counterexample"
   ],
   "note": "C24_outlines: every number type. C24_pieces_partial: IEEE binary64, every behaviour of kurbo. C24_cut: exact arithmetic, any path of lines and curves, kurbo's arc lengths exact: the pieces lie between the requested arc lengths. C24_curves_partial, C24_curves_fraction_partial (and, under the weaker assumption that kurbo is exact on lines, C24_lines_partial, C24_fraction_partial): one subpath; nothing else is drawn and the length is the requested fraction. False for several subpaths: pieces of different subpaths are connected by a line (C24_counterexample)."
  },
  {
   "property": "C25",
   "status": "proved",
   "theorems": [
    "Velato.C25_animated",
    "Velato.C25_after",
    "Velato.C25_repeater",
    "Velato.C25_transform"
   ],
   "note": "All reachable states; the transform formula and the number of copies of animated repeaters in exact arithmetic; C25_after: geometry after a repeater is never merged into its copies."
  },
  {
   "property": "C26",
   "status": "partial",
   "theorems": [
    "Velato.C26_opacity_partial",
    "Velato.C26_count",
    "Velato.C26_once_partial",
    "Velato.C26_counterexample"
   ],
   "note": "Opacity formula proved, and the once-per-copy claim for one copy. C26_counterexample: with n copies every copy of a fill paints all n copies of the geometry; C26_count counts this for all n: m*n outlines in place of m, if m copies have a positive opacity."
  },
  {
   "property": "C27",
   "status": "proved",
   "theorems": [
    "Velato.C27_balanced"
   ],
   "note": "Every number type, every composition; executions that return."
  },
  {
   "property": "C28",
   "status": "proved",
   "theorems": [
    "Velato.C28_clip"
   ],
   "note": "Every number type."
  },
  {
   "property": "C29",
   "status": "proved",
   "theorems": [
    "Velato.C29_no_panic",
    "Velato.C29_returns",
    "Velato.C29_only_stars",
    "Velato.C29_star_counterexample"
   ],
   "note": "C29_star_counterexample shows the panic for a star with too many points."
  },
  {
   "property": "C30",
   "status": "proved",
   "theorems": [
    "Velato.C30_reuse",
    "Velato.C30_sequence"
   ],
   "note": "Equality of the whole outcome (calls, panic, non-termination) for every renderer reached by appends that returned."
  },
  {
   "property": "C31",
   "status": "proved",
   "theorems": [
    "Velato.C31_layer",
    "Velato.C31_append",
    "Velato.C31_nan"
   ],
   "note": "Every number type; NaN in IEEE arithmetic."
  },
  {
   "property": "C32",
   "status": "proved",
   "theorems": [
    "Velato.C32_unused_mattes"
   ],
   "note": "Non-interference: changing unused mattes changes no execution."
  },
  {
   "property": "C33",
   "status": "proved",
   "theorems": [
    "Velato.C33_painters_order"
   ],
   "note": "Every number type, as an equivalence."
  },
  {
   "property": "C34",
   "status": "proved",
   "theorems": [
    "Velato.C34_chain",
    "Velato.C34_calls",
    "Velato.C34_acyclic",
    "Velato.C34_points"
   ],
   "note": "Every number type; on points in exact arithmetic."
  },
  {
   "property": "C35",
   "status": "proved",
   "theorems": [
    "Velato.C35_parent_loop_exits"
   ],
   "note": "The loop as a step function, for every assignment of parents."
  },
  {
   "property": "C36",
   "status": "partial",
   "theorems": [
    "Velato.C36_terminates_partial",
    "Velato.C36_self_matte",
    "Velato.C36_self_instance",
    "Velato.C36_counterexample"
   ],
   "note": "False in general: a layer that is its own matte (explicit matte index) or an asset that instantiates itself recurses forever (C36_self_matte, C36_self_instance, C36_counterexample). Proved for all compositions without reference cycles."
  },
  {
   "property": "C37",
   "status": "proved",
   "theorems": [
    "Velato.C37_no_leak",
    "Velato.C37_layer_opacity",
    "Velato.C37_paints",
    "Velato.C37_product"
   ],
   "note": "C37_paints holds for every number type, with fixed paths starting with a MoveTo; C37_product gives the product form in exact arithmetic; C37_layer_opacity and C37_no_leak cover layers."
  },
  {
   "property": "C38",
   "status": "partial",
   "theorems": [
    "Velato.C38_targets_partial",
    "Velato.C38_counterexample"
   ],
   "note": "Proved for shape lists without trims and repeaters in which no geometry merges with one that precedes it across a group boundary (SeparatedIn). False in general: geometry with the same transform is merged across group boundaries, so a fill can lose its path (C38_counterexample)."
  },
  {
   "property": "C39",
   "status": "proved",
   "theorems": [
    "Velato.C39_order"
   ],
   "note": "All shape trees; calls appear in the reverse of document order."
  },
  {
   "property": "C40",
   "status": "proved",
   "theorems": [
    "Velato.C40_instance",
    "Velato.C40_frame"
   ],
   "note": "Every number type, as an equivalence; masks and mattes are removed by C41 and C42."
  },
  {
   "property": "C41",
   "status": "proved",
   "theorems": [
    "Velato.C41_masks"
   ],
   "note": "Every number type, as an equivalence."
  },
  {
   "property": "C42",
   "status": "proved",
   "theorems": [
    "Velato.C42_matte"
   ],
   "note": "Every number type, as an equivalence."
  },
  {
   "property": "C43",
   "status": "partial",
   "theorems": [
    "Velato.C43_top_level_partial",
    "Velato.C43_asset_zero",
    "Velato.C43_counterexample"
   ],
   "note": "Proved for top-level layers that are not mattes. False for mattes and for layers of assets, which are always announced with index 0 (C43_asset_zero, C43_counterexample)."
  },
  {
   "property": "C44",
   "status": "proved",
   "theorems": [
    "Velato.C44_layers"
   ],
   "note": "Every number type, every document that imports (root layers and every precomposition asset)."
  },
  {
   "property": "C45",
   "status": "proved",
   "theorems": [
    "Velato.C45_parents"
   ],
   "note": "Every number type, every layer list; the last layer with the parent's index counts, an index nobody carries gives no parent."
  },
  {
   "property": "C46",
   "status": "proved",
   "theorems": [
    "Velato.C46_mattes"
   ],
   "note": "Every number type; explicit matte index and the implicit matte immediately before."
  },
  {
   "property": "C47",
   "status": "proved",
   "theorems": [
    "Velato.C47_hidden",
    "Velato.C47_draws_nothing",
    "Velato.C47_transforms"
   ],
   "note": "Hidden layers are imported without content, keep their transform, parent and matte links, and issue no draw calls; transforms of children are unchanged by the flag."
  },
  {
   "property": "C48",
   "status": "proved",
   "theorems": [
    "Velato.C48_panics_iff",
    "Velato.C48_returns_iff",
    "Velato.C48_sites"
   ],
   "note": "Unsupported (Spec/Unsupported.lean) lists the parts."
  },
  {
   "property": "C49",
   "status": "proved",
   "theorems": [
    "Velato.C49_stops",
    "Velato.C49_opaque",
    "Velato.C49_at_most_opaque",
    "Velato.C49_static",
    "Velato.C49_range"
   ],
   "note": "Counts, offsets, colours, opaque default and the upper bound on opacity for every number type; the lower bound in exact arithmetic with an exact cubic solver."
  },
  {
   "property": "C50",
   "status": "partial",
   "theorems": [
    "Velato.C50_colours_partial",
    "Velato.C50_counterexample",
    "Velato.C50_same_offsets_partial"
   ],
   "note": "False of the code: the offsets are tweened with the un-held weight (C50_counterexample). Proved: count and colours are held; everything is held if the next keyframe has the same offsets."
  },
  {
   "property": "C51",
   "status": "proved",
   "theorems": [
    "Velato.C51_vectors",
    "Velato.C51_positions",
    "Velato.C51_colors",
    "Velato.C51_scalars",
    "Velato.C51_gradients",
    "Velato.C51_paths",
    "Velato.C51_sorted",
    "Velato.C51_sorted_scalars"
   ],
   "note": "Every number type: vectors, positions, colours (one or two entries per keyframe), scalars, gradients and paths (one entry per keyframe); sorted documents give sorted times."
  },
  {
   "property": "C52",
   "status": "proved",
   "theorems": [
    "Velato.C52_accepted",
    "Velato.C52_exact",
    "Velato.C52_import",
    "Velato.C52_check_needed"
   ],
   "note": "All JSON values, number types; paths in masks and in shapes at any depth, of the document and its assets. C52_check_needed: without the check every such path underflows."
  },
  {
   "property": "C53",
   "status": "proved",
   "theorems": [
    "Velato.C53_shapes",
    "Velato.C53_order"
   ],
   "note": "Every number type, every shape tree that imports."
  },
  {
   "property": "C54",
   "status": "partial",
   "theorems": [
    "Velato.C54_solid_partial",
    "Velato.C54_gradients",
    "Velato.C54_counterexample"
   ],
   "note": "False of the code for gradients: their declared opacity is ignored for every gradient (C54_gradients, C54_counterexample). Proved for solid fills and strokes."
  },
  {
   "property": "C55",
   "status": "partial",
   "theorems": [
    "Velato.C55_unmatted_partial",
    "Velato.C55_counterexample"
   ],
   "note": "False of the code when the layer has a matte (C55_counterexample): the matte is then drawn too and composited. Proved when the layers with matte mode Normal have no matte."
  },
  {
   "property": "C56",
   "status": "partial",
   "theorems": [
    "Velato.C56_only_stars",
    "Velato.C56_no_panic_partial",
    "Velato.C56_returns_partial",
    "Velato.C56_counterexample"
   ],
   "note": "False of the code for stars with an astronomical number of points (C56_counterexample): the allocation for their vertices panics. It is the only place that can panic (C56_only_stars). Termination is C36. The theorems are about every document, so in particular about parsed ones."
  },
  {
   "property": "C57",
   "status": "proved",
   "theorems": [
    "Velato.C57_last",
    "Velato.C57_shadowed"
   ],
   "note": "The last asset with an id is the one instances refer to; earlier definitions are unreachable."
  },
  {
   "property": "C58",
   "status": "proved",
   "theorems": [
    "Velato.C58_layer_type",
    "Velato.C58_layer_rejected",
    "Velato.C58_asset_layers",
    "Velato.C58_asset_type",
    "Velato.C58_asset_size"
   ],
   "note": "All JSON values."
  },
  {
   "property": "C59",
   "status": "partial",
   "theorems": [
    "Velato.C59_round_trip_partial",
    "Velato.C59_unsized",
    "Velato.C59_counterexample"
   ],
   "note": "The property is false of the code: an image asset whose size is given as null is parsed, written without size, and then rejected (C59_counterexample, C59_unsized). Proved for all animations in which every image asset has a width or a height. Model of from_value and to_value; the text form of numbers is serde_json's."
  },
  {
   "property": "C60",
   "status": "partial",
   "theorems": [
    "Velato.C60_counterexample",
    "Velato.C60_interior",
    "Velato.C60_two_partial",
    "Velato.C60_exact"
   ],
   "note": "False of the code with three or more opacity stops (C60_counterexample): every colour stop is at most as opaque as every interior opacity stop (C60_interior). C60_exact says which opacity every colour stop gets, for any number of opacity stops in order: the least of 1 and all ramps (exact arithmetic, exact cubic solver). The claim is proved for two opacity stops."
  },
  {
   "property": "C61",
   "status": "proved",
   "theorems": [
    "Velato.C61_point",
    "Velato.C61_layer",
    "Velato.C61_group"
   ],
   "note": "Exact real arithmetic; sin, cos, tan are the real functions."
  },
  {
   "property": "C62",
   "status": "partial",
   "theorems": [
    "Velato.C62_modes_partial",
    "Velato.C62_ignored",
    "Velato.C62_imported_partial",
    "Velato.C62_counterexample"
   ],
   "note": "The property is false of the code (C62_counterexample): blend modes are imported but never used (C62_ignored). Proved: every pushed layer has mode Normal or is a matte, so layers with mode Normal are composited correctly."
  },
  {
   "property": "C63",
   "status": "partial",
   "theorems": [
    "Velato.C63_ignored",
    "Velato.C63_single_partial",
    "Velato.C63_counterexample",
    "Velato.C63_counterexample_two"
   ],
   "note": "The property is false of the code (C63_counterexample, C63_counterexample_two): modes, inversion and expansion are dropped on import, opacity is not used when rendering (C63_ignored), several masks are intersected. Proved for a single adding mask."
  },
  {
   "property": "C64",
   "status": "partial",
   "theorems": [
    "Velato.C64_unsupported_partial",
    "Velato.C64_counterexample"
   ],
   "note": "The property is false of the code (C64_counterexample): the hidden flag of shapes is not looked at. Proved when the hidden shapes are of kinds that are not implemented."
  },
  {
   "property": "C65",
   "status": "partial",
   "theorems": [
    "Velato.C65_nonzero_partial",
    "Velato.C65_counterexample"
   ],
   "note": "The property is false of the code (C65_counterexample): fill rules are dropped on import and the vello sink always fills with the non-zero rule. Proved for documents with non-zero fills only."
  },
  {
   "property": "C66",
   "status": "proved",
   "theorems": [
    "Velato.C66_import",
    "Velato.C66_render"
   ],
   "note": "The attributes are those dropped by Animation.strip and Composition.forget."
  },
  {
   "property": "C67",
   "status": "proved",
   "theorems": [
    "Velato.C67_balanced",
    "Velato.C67_paints",
    "Velato.C67_clip",
    "Velato.C67_exists"
   ],
   "note": "vello::Scene is modelled by the list of its method calls."
  },
  {
   "property": "C68",
   "status": "partial",
   "theorems": [
    "Velato.C68_scalars",
    "Velato.C68_vectors_partial",
    "Velato.C68_positions_partial",
    "Velato.C68_colors_partial",
    "Velato.C68_counterexample",
    "Velato.C68_counterexample_handle",
    "Velato.C68_played_unique",
    "Velato.C68_vectors_played",
    "Velato.C68_positions_played",
    "Velato.C68_colors_played"
   ],
   "note": "Scalars: proved. Vectors, positions and colours: proved when the easing of each keyframe is the same for all coordinates and both handles are given or none. False otherwise: the handles of the second coordinate are used for all of them (C68_counterexample), and a keyframe with one handle is not eased (C68_counterexample_handle). What is shown with any handles is proved too: exactly one set of handles is used for all coordinates (C68_played_unique), and C68_vectors_played, C68_positions_played and C68_colors_played say that the keyframes are played with these."
  },
  {
   "property": "C69",
   "status": "partial",
   "theorems": [
    "Velato.C69_alpha_partial",
    "Velato.C69_ignored",
    "Velato.C69_counterexample"
   ],
   "note": "False of the code: luma mattes are imported as alpha mattes (C69_ignored, C69_counterexample). Proved for the alpha modes."
  },
  {
   "property": "C70",
   "status": "partial",
   "theorems": [
    "Velato.C70_ignored",
    "Velato.C70_full_size_partial",
    "Velato.C70_counterexample"
   ],
   "note": "False of the code: no clip is pushed and the size of a layer is not used (C70_ignored, C70_counterexample). Proved for layers as large as the composition and not moved, which are clipped with everything else."
  },
  {
   "property": "C71",
   "status": "partial",
   "theorems": [
    "Velato.C71_top_level_partial",
    "Velato.C71_counterexample"
   ],
   "note": "False of the code: inside a transformed precomposition the layers pushed for a matte have the rectangle of the whole composition in the coordinates of the precomposition (C71_counterexample). Proved if the assets contain no mattes."
  },
  {
   "property": "C72",
   "status": "proved",
   "theorems": [
    "Velato.C72_composed",
    "Velato.C72_calls"
   ],
   "note": "Exact arithmetic. For a singular transform adjacent paths may be merged into one draw call (example in the file)."
  },
  {
   "property": "C73",
   "status": "proved",
   "theorems": [
    "Velato.C73_still",
    "Velato.C73_flat"
   ],
   "note": "For every number type."
  },
  {
   "property": "C74",
   "status": "proved",
   "theorems": [
    "Velato.C74_retime",
    "Velato.C74_document"
   ],
   "note": "Exact arithmetic, for compositions and for documents. Assets have a time of their own and are not moved."
  },
  {
   "property": "C75",
   "status": "proved",
   "theorems": [
    "Velato.C75_outline",
    "Velato.C75_document"
   ],
   "note": "Exact arithmetic, every solver. C75_outline for the runtime star, C75_document from the values of the document's properties."
  },
  {
   "property": "C76",
   "status": "proved",
   "theorems": [
    "Velato.C76_paint",
    "Velato.C76_calls",
    "Velato.C76_static_fill",
    "Velato.C76_static_stroke",
    "Velato.C76_animated_fill"
   ],
   "note": "C76_paint for each fill and stroke, C76_calls for every draw call of a rendered document, both in any arithmetic whose comparisons are lawful (double precision and the reals); C76_static_fill, C76_static_stroke and C76_animated_fill say the same of the numbers in the document directly, in exact arithmetic. The declared opacity of gradients is not used by the code; that is the subject of C54."
  },
  {
   "property": "C77",
   "status": "proved",
   "theorems": [
    "Velato.C77_attributes",
    "Velato.C77_blend_number"
   ],
   "note": "All number types. C77_blend_number relates the number in the JSON document to the mix function."
  },
  {
   "property": "C78",
   "status": "proved",
   "theorems": [
    "Velato.C78_reads",
    "Velato.C78_unique",
    "Velato.C78_writes",
    "Velato.C78_error",
    "Velato.C78_from_json"
   ],
   "note": "All number types. Spec/Format.lean states the format as relations between JSON values and schema values, without reference to the parser; C78_reads is an equivalence for every structure, shapes at any depth included. C78_from_json composes it with C44 and C77."
  },
  {
   "property": "C79",
   "status": "proved",
   "theorems": [
    "Velato.C79_composed",
    "Velato.C79_calls",
    "Velato.C79_layer"
   ],
   "note": "Exact arithmetic. C79_composed is an equation of executions for every amount of fuel."
  },
  {
   "property": "C80",
   "status": "proved",
   "theorems": [
    "Velato.C80_layer",
    "Velato.C80_append",
    "Velato.C80_outside",
    "Velato.C80_opaque"
   ],
   "note": "Exact arithmetic. Spec/Picture.lean gives the calls their usual meaning at one pixel; coverage, brush colours and mix functions are left open (Rasteriser)."
  },
  {
   "property": "C81",
   "status": "proved",
   "theorems": [
    "Velato.C81_matte"
   ],
   "note": "Exact arithmetic, as C80. C81_matte, for each of the compositing functions. Pixels inside the rectangle of the composition under the transform the layer is rendered with (for precompositions see C71)."
  },
  {
   "property": "C82",
   "status": "proved",
   "theorems": [
    "Velato.C82_order",
    "Velato.C82_masks",
    "Velato.C82_outside"
   ],
   "note": "Exact arithmetic, as C80. Says what the code shows: all masks intersect (the declared modes are the subject of C63). A layer with a matte and masks: C81 with C82 for the layer without matte."
  },
  {
   "property": "C83",
   "status": "partial",
   "theorems": [
    "Velato.C83_append_invisible",
    "Velato.C83_layer_invisible",
    "Velato.C83_layer_partial",
    "Velato.C83_append_partial",
    "Velato.C83_bounds_partial",
    "Velato.C83_overlap_counterexample",
    "Velato.C83_matte_counterexample"
   ],
   "note": "False of the code, which fades every brush instead of the picture: a layer that draws twice at a pixel shows 0.75 instead of 0.5 at 50 percent (C83_overlap_counterexample), and a matted layer is faded twice (C83_matte_counterexample). Proved: nothing is visible at opacity 0; without mattes, where at most one drawing is visible, the claim holds; without mattes the opacity is between that of the faded and that of the original picture."
  },
  {
   "property": "C84",
   "status": "proved",
   "theorems": [
    "Velato.C84_kept",
    "Velato.C84_document",
    "Velato.C84_static"
   ],
   "note": "C84_document in any arithmetic; the set of positions that is kept in exact arithmetic (real numbers)."
  },
  {
   "property": "C85",
   "status": "proved",
   "theorems": [
    "Velato.C85_names"
   ],
   "note": "for every number type; the numbers of mattes are floats in the document and their truncations are renamed."
  },
  {
   "property": "C86",
   "status": "proved",
   "theorems": [
    "Velato.C86_assets",
    "Velato.C86_order",
    "Velato.C86_unused"
   ],
   "note": "for every number type; C86_order and C86_unused are special cases: assets with different ids in another order, assets never used removed. A broken asset that is not used still makes the import fail (C86 compares documents that are both imported; removing assets never makes it fail)."
  },
  {
   "property": "C87",
   "status": "proved",
   "theorems": [
    "Velato.C87_precompose",
    "Velato.C87_document"
   ],
   "note": "exact arithmetic. C87_precompose on compositions and C87_document on documents."
  },
  {
   "property": "C88",
   "status": "partial",
   "theorems": [
    "Velato.C88_loops",
    "Velato.C88_first_pass",
    "Velato.C88_repeats",
    "Velato.C88_from_zero_partial",
    "Velato.C88_closed_partial",
    "Velato.C88_counterexample"
   ],
   "note": "proved in exact arithmetic (C88_loops, C88_first_pass, C88_repeats) and in IEEE arithmetic for compositions that start at frame 0 (C88_from_zero_partial); for other starts the frame may be rounded to the end of the range, where nothing is visible (C88_counterexample), but not beyond (C88_closed_partial)."
  },
  {
   "property": "C89",
   "status": "proved",
   "theorems": [
    "Velato.C89_picture"
   ],
   "note": "for every number type and every implementation of kurbo's boxes; the overlays, drawn afterwards, are the subject of C109."
  },
  {
   "property": "C90",
   "status": "proved",
   "theorems": [
    "Velato.C90_hits",
    "Velato.C90_smallest",
    "Velato.C90_covers",
    "Velato.C90_path_box",
    "Velato.C90_empty_outline"
   ],
   "note": "C90_hits for every number type; C90_smallest, C90_covers and C90_path_box in exact arithmetic for exact boxes of segments. The width of strokes, clips and masks do not count; a path without segments counts as the origin; mattes count."
  },
  {
   "property": "C91",
   "status": "proved",
   "theorems": [
    "Velato.C91_front_most",
    "Velato.C91_in_range"
   ],
   "note": "for every number type."
  },
  {
   "property": "C92",
   "status": "proved",
   "theorems": [
    "Velato.C92_fits",
    "Velato.C92_inverse"
   ],
   "note": "exact arithmetic."
  },
  {
   "property": "C93",
   "status": "proved",
   "theorems": [
    "Velato.C93_window",
    "Velato.C93_average",
    "Velato.C93_extremes"
   ],
   "note": "C93_average in exact arithmetic."
  },
  {
   "property": "C94",
   "status": "partial",
   "theorems": [
    "Velato.C94_round_up",
    "Velato.C94_no_panic_partial",
    "Velato.C94_counterexample",
    "Velato.C94_cleared_counterexample",
    "Velato.C94_scale",
    "Velato.C94_background",
    "Velato.C94_bars",
    "Velato.C94_line_width",
    "Velato.C94_lines",
    "Velato.C94_inside",
    "Velato.C94_frames_partial"
   ],
   "note": "false of the code: with an average under 0.75 ms and a maximum of more than three times as much, an unsigned subtraction underflows (C94_counterexample); after clearing the extreme values all bars have a height that is not a number (C94_cleared_counterexample). C94_no_panic_partial says exactly when there is a panic; C94_background, C94_bars, C94_lines, C94_inside describe what is drawn (exact arithmetic)."
  },
  {
   "property": "C95",
   "status": "partial",
   "theorems": [
    "Velato.C95_fingers",
    "Velato.C95_info",
    "Velato.C95_no_jump_partial",
    "Velato.C95_one_finger",
    "Velato.C95_counterexample",
    "Velato.C95_single_counterexample"
   ],
   "note": "false of the code: with all fingers at the same place the zoom is 0/0 (C95_counterexample), and one finger is already a gesture although the documentation says two (C95_single_counterexample). C95_fingers for every number type; C95_info, C95_no_jump_partial, C95_one_finger in exact arithmetic."
  },
  {
   "property": "C96",
   "status": "partial",
   "theorems": [
    "Velato.C96_similarity_partial",
    "Velato.C96_two_fingers_partial",
    "Velato.C96_one_finger",
    "Velato.C96_counterexample"
   ],
   "note": "false of the code: zoom and rotation are about the new average position, but the translation is applied after them as well, so that fingers that move and zoom together slip (C96_counterexample). C96_similarity_partial gives the slip exactly, C96_two_fingers_partial says exactly when two fingers stay on their points, C96_one_finger that one finger always does."
  },
  {
   "property": "C97",
   "status": "proved",
   "theorems": [
    "Velato.C97_zoom",
    "Velato.C97_rotate",
    "Velato.C97_drag",
    "Velato.C97_still",
    "Velato.C97_similarity",
    "Velato.C97_invertible"
   ],
   "note": "exact arithmetic."
  },
  {
   "property": "C98",
   "status": "proved",
   "theorems": [
    "Velato.C98_frame",
    "Velato.C98_camera"
   ],
   "note": "exact arithmetic for positions; touches of the lower third are exact comparisons."
  },
  {
   "property": "C99",
   "status": "partial",
   "theorems": [
    "Velato.C99_no_panic_partial",
    "Velato.C99_counterexample",
    "Velato.C99_no_scenes_counterexample"
   ],
   "note": "false of the code: C99_counterexample (ten quick frames), and no scenes or --scene -2147483648 (C99_no_scenes_counterexample). C99_no_panic_partial says exactly which sequences of events panic (exact arithmetic)."
  },
  {
   "property": "C100",
   "status": "proved",
   "theorems": [
    "Velato.C100_pick"
   ],
   "note": "exact arithmetic; fingers must not be all at one place (C95_counterexample)."
  },
  {
   "property": "C101",
   "status": "partial",
   "theorems": [
    "Velato.C101_navigation_finger_partial",
    "Velato.C101_counterexample"
   ],
   "note": "false of the code: lifting the finger is passed on to the touch state, which swallows the movement of other fingers in that frame (C101_counterexample). C101_navigation_finger_partial covers everything until the finger is lifted, all other events included."
  },
  {
   "property": "C102",
   "status": "partial",
   "theorems": [
    "Velato.C102_named",
    "Velato.C102_plain_partial",
    "Velato.C102_counterexample"
   ],
   "note": "false of the code: an @ in a URL alone is taken for the end of a name (C102_counterexample). C102_plain_partial covers URLs without @."
  },
  {
   "property": "C103",
   "status": "partial",
   "theorems": [
    "Velato.C103_partial",
    "Velato.C103_stem",
    "Velato.C103_distinct",
    "Velato.C103_counterexample",
    "Velato.C103_outside_counterexample"
   ],
   "note": "false of the code: the part of a name after its last dot is lost, so that v1.2 and v1.3 are one file (C103_counterexample), and a URL ending with a slash is stored outside of the directory (C103_outside_counterexample). C103_partial, C103_stem and C103_distinct for the other names."
  },
  {
   "property": "C104",
   "status": "proved",
   "theorems": [
    "Velato.C104_complete",
    "Velato.C104_keeps",
    "Velato.C104_fetches",
    "Velato.C104_wrong_size"
   ],
   "note": "a server is a function from URLs to the answers to HEAD and GET; a GET can break off after any number of bytes."
  },
  {
   "property": "C105",
   "status": "partial",
   "theorems": [
    "Velato.C105_failure_partial",
    "Velato.C105_counterexample"
   ],
   "note": "false of the code: an empty or partial file is left and taken for a download by the next run (C105_counterexample). C105_failure_partial says exactly what may be left."
  },
  {
   "property": "C106",
   "status": "proved",
   "theorems": [
    "Velato.C106_report",
    "Velato.C106_success",
    "Velato.C106_again",
    "Velato.C106_keeps"
   ],
   "note": "the answers to the questions are parameters; total size below 2^64."
  },
  {
   "property": "C107",
   "status": "proved",
   "theorems": [
    "Velato.C107_defaults",
    "Velato.C107_count"
   ],
   "note": "about the 344 default downloads; their names and URLs are checked to be different by kernel computation, the rest for all servers and directories."
  },
  {
   "property": "C108",
   "status": "partial",
   "theorems": [
    "Velato.C108_directory",
    "Velato.C108_order",
    "Velato.C108_error",
    "Velato.C108_reproducible_partial",
    "Velato.C108_counterexample"
   ],
   "note": "false of the code: the order of names that differ only in case is that of the listing (C108_counterexample). C108_reproducible_partial if there are no such names. Conversion to lower case is a parameter."
  },
  {
   "property": "C109",
   "status": "proved",
   "theorems": [
    "Velato.C109_overlays"
   ],
   "note": "exact arithmetic."
  },
  {
   "property": "C110",
   "status": "proved",
   "theorems": [
    "Velato.C110_layout"
   ],
   "note": "exact arithmetic; the font is a parameter (advance width of a character and line height)."
  },
  {
   "property": "C111",
   "status": "partial",
   "theorems": [
    "Velato.C111_scalars_partial",
    "Velato.C111_vectors_partial",
    "Velato.C111_positions_partial",
    "Velato.C111_colors_partial",
    "Velato.C111_scalars_straight",
    "Velato.C111_vectors_straight",
    "Velato.C111_positions_straight",
    "Velato.C111_counterexample"
   ],
   "note": "false of the code: eased values jump, since the easing is solved to a tolerance of 1e-6 only (C111_counterexample: there is a solver that meets its specification for which an eased value is not continuous). C111_*_partial: jumps are at most 1e-6 of the largest step between adjacent keyframes (exact arithmetic, no held keyframes). C111_*_straight: without easing, Lipschitz with the largest speed of the keyframes."
  },
  {
   "property": "C112",
   "status": "proved",
   "theorems": [
    "Velato.C112_calls",
    "Velato.C112_out_of_range",
    "Velato.C112_hidden"
   ],
   "note": "at the top level of the document, all number types. Documents with cycles of parents are excluded: the parents are followed as many times as there are layers (example in Props/Remove)."
  },
  {
   "property": "C113",
   "status": "proved",
   "theorems": [
    "Velato.C113_styles",
    "Velato.C113_constants",
    "Velato.C113_round_trip",
    "Velato.C113_constants_round_trip"
   ],
   "note": "at the level of serde_json::Value."
  },
  {
   "property": "C114",
   "status": "proved",
   "theorems": [
    "Velato.C114_numbers",
    "Velato.C114_scalars",
    "Velato.C114_vectors",
    "Velato.C114_positions",
    "Velato.C114_colors"
   ],
   "note": "in IEEE binary64 with round to nearest even as modelled in Num/; the cubic solver is an arbitrary function. Colours: numbers from 0 to 1, channels not below -2e-10."
  },
  {
   "property": "C115",
   "status": "proved",
   "theorems": [
    "Velato.C115_point",
    "Velato.C115_point_skewed",
    "Velato.C115_layer"
   ],
   "note": "in IEEE binary64 with round to nearest even; sine, cosine and tangent are any functions with the stated accuracy (AccurateLibm; one exists: accurateLibm). The place itself is defined over the reals (placed, Spec/TransformFormula)."
  },
  {
   "property": "C116",
   "status": "proved",
   "theorems": [
    "Velato.C116_numbers",
    "Velato.C116_points",
    "Velato.C116_scalars",
    "Velato.C116_straight"
   ],
   "note": "in IEEE binary64 with round to nearest even; the cubic solver is any function with the stated accuracy (SolverWithin δ; one with δ = 2^-40 exists: accurateKurbo). How accurate kurbo's own solver is, is not modelled: the statement is uniform in δ."
  },
  {
   "property": "C117",
   "status": "proved",
   "theorems": [
    "Velato.C117_drawn",
    "Velato.C117_calls",
    "Velato.C117_unique"
   ],
   "note": "C117_calls is the equivalence, for all documents that can be imported and every arithmetic whose comparisons are lawful (double precision and the reals): the specification fixes the order of all operations, so in double precision the calls agree to the last bit; exSmallDoc64_drawn is an instance. C117_drawn and C117_unique are its parts. Parents may go round in a circle, groups may have any number of transforms (the last one counts), and geometry may be without a fill or stroke (it is then merged with geometry after it that has the same transform, even in other groups, as the code does). What the code ignores of a document (blend modes of layers, modes and opacities of masks, fill rules, hidden shapes: C62 – C65) does not occur in the specification either. Geometry after geometry of which a trim has left nothing, without a fill or stroke in between, is merged by the code with everything there has been before it in the layer (C23_counterexample); the specification says so (Sheet.add, field elements)."
  },
  {
   "property": "C118",
   "status": "proved",
   "theorems": [
    "Velato.C118_returns",
    "Velato.C118_overflows",
    "Velato.C118_document",
    "Velato.C118_drawn"
   ],
   "note": "C118_returns and C118_overflows for any arithmetic and any composition that does not panic (C29), C118_document and C118_drawn from the document, also in any arithmetic (C118_drawn: with lawful comparisons). C36 (rendering always returns) is false; this says exactly when it does."
  },
  {
   "property": "C119",
   "status": "proved",
   "theorems": [
    "Velato.C119_shown",
    "Velato.C119_seen",
    "Velato.C119_unique"
   ],
   "note": "The picture of calls is that of Spec/Picture (C80 - C82): coverages, source-over and the three compositions for mattes, for any rasteriser. Luma mattes look at the opacity of the matte, as the code does (C69)."
  },
  {
   "property": "C120",
   "status": "proved",
   "theorems": [
    "Velato.C120_one_window",
    "Velato.C120_renderers",
    "Velato.C120_renderers_once",
    "Velato.C120_pictures",
    "Velato.C120_no_panic",
    "Velato.C120_suspended",
    "Velato.C120_polling"
   ],
   "note": "For any arithmetic. What the system answers when the application is resumed (window, size, device, number of devices) is arbitrary; failures of wgpu and winit end the application and are not modelled. That no device gets two renderers needs that devices are not taken away (SensibleAnswers); with C99 this says when the application panics."
  },
  {
   "property": "C121",
   "status": "partial",
   "theorems": [
    "Velato.C121_title_partial",
    "Velato.C121_no_argument_partial",
    "Velato.C121_counterexample"
   ],
   "note": "false of the code: C121_counterexample (--scene 1 with one scene, or with the key left before the first frame). C121_title_partial: otherwise it does, and the only other title is the initial one while the scene before the one of the command line is displayed; C121_no_argument_partial: without a scene number it always does."
  },
  {
   "property": "C122",
   "status": "partial",
   "theorems": [
    "Velato.C122_vsync_partial",
    "Velato.C122_counterexample"
   ],
   "note": "false of the code: C122_counterexample (key V, suspended, resumed: the new surface waits for the display again, the panel says it does not). C122_vsync_partial: it does if the application has not been suspended after the key V was used."
  },
  {
   "property": "C123",
   "status": "proved",
   "theorems": [
    "Velato.C123_window",
    "Velato.C123_copies",
    "Velato.C123_cut"
   ],
   "note": "for layers at the top level of the document, all number types with lawful comparisons (double precision and exact). A matted layer is excluded: the matte would be that of the first half only (example in Props/Cut)."
  },
  {
   "property": "C124",
   "status": "proved",
   "theorems": [
    "Velato.C124_regroup"
   ],
   "note": "exact arithmetic (in double precision, multiplying by the identity matrix may change the sign of a zero). Only first elements: fills and trims look back to the beginning of their group (example in Props/Regroup)."
  },
  {
   "property": "C125",
   "status": "proved",
   "theorems": [
    "Velato.C125_tiger",
    "Velato.C125_polyStar",
    "Velato.C125_plays",
    "Velato.C125_splash"
   ],
   "note": "the two documents are generated from /repo by tools/assets.py (Model/TigerJson, Model/PolyStarJson); how the text parser reads a decimal fraction is a parameter. The poly-star document is proved in double precision, where its animated numbers of points are checked."
  },
  {
   "property": "C126",
   "status": "partial",
   "theorems": [
    "Velato.C126_command",
    "Velato.C126_default",
    "Velato.C126_test_scenes",
    "Velato.C126_displayed",
    "Velato.C126_scenes",
    "Velato.C126_something_partial",
    "Velato.C126_counterexample"
   ],
   "note": "the last sentence is false if every path given is a directory without files name.json: C126_counterexample, the first frame then panics. Whether a file can be loaded is a parameter (C79 and C125 say when a document can be)."
  },
  {
   "property": "C127",
   "status": "proved",
   "theorems": [
    "Velato.C127_calls"
   ],
   "note": "in IEEE binary64 (colours: binary32) with round to nearest even; sine, cosine, tangent and hypot are any functions with the accuracy of C115. Speaks of matrices, widths, colours and gradients; outlines are C130."
  },
  {
   "property": "C128",
   "status": "proved",
   "theorems": [
    "Velato.C128_read",
    "Velato.C128_rejected",
    "Velato.C128_loaded"
   ],
   "note": "about JSON values (an object is its list of entries, of entries with the same key the last one counts); how text is read into JSON values is not modelled."
  },
  {
   "property": "C129",
   "status": "proved",
   "theorems": [
    "Velato.C129_parents",
    "Velato.C129_meant",
    "Velato.C129_into",
    "Velato.C129_ways",
    "Velato.C129_calls"
   ],
   "note": "in IEEE binary64; sine and cosine are any functions with the accuracy of C115. The exact transforms are those of the values that the properties have at the frame in double precision (for the accuracy of these values see C114)."
  },
  {
   "property": "C130",
   "status": "partial",
   "theorems": [
    "Velato.C130_outline_partial",
    "Velato.C130_calls_partial",
    "Velato.C130_every_frame_partial",
    "Velato.C130_last_keyframe"
   ],
   "note": "in IEEE binary64 with round to nearest even; sine, cosine and tangent are any functions with the accuracy of C115, and kurbo's outlines and pieces of segments are any of moderate size. False of the code at a frame where an animated path is at its last keyframe and this is not held (C130_last_keyframe: a small document drawn with NaN coordinates), or at a keyframe with the time of the next one; proved at all other frames (C130_calls_partial), and at all frames if the paths have no such keyframes (C130_every_frame_partial)."
  },
  {
   "property": "C131",
   "status": "partial",
   "theorems": [
    "Velato.C131_calls_partial",
    "Velato.C131_nested_partial",
    "Velato.C131_counterexample"
   ],
   "note": "False of the code: C131_counterexample gives, for every n, a document with n+1 assets and 2n+2 layers (without masks and mattes) that is drawn with 2^n fills, as each of its assets shows the one before it twice. Proved: a bound by any budget for layers and assets that is large enough (C131_calls_partial: two calls for the group and for each mask, one for each pair of a fill or stroke and a geometry of the layer, four and those of the matte if there is one, and those of the asset that is shown), and from this a bound that is polynomial for each depth of nesting (C131_nested_partial, without mattes)."
  },
  {
   "property": "C132",
   "status": "proved",
   "theorems": [
    "Velato.C132_calls"
   ],
   "note": "in IEEE binary64, colours in binary32. The exact opacities are those that the properties have at the frame in double precision (for the accuracy of these values see C114 and C116). Gradients ignore their own opacity (C54) and are here taken to be opaque."
  },
  {
   "property": "C133",
   "status": "proved",
   "theorems": [
    "Velato.C133_star",
    "Velato.C133_rectangle",
    "Velato.C133_ellipse"
   ],
   "note": "in IEEE binary64; sine, cosine and tangent are any functions with the accuracy of C115 and C130. The figure is the one of C75, with the values that the properties have at the frame in double precision (for their accuracy see C114 and C116), the number of points rounded to an integer, and the roundness up to 10^-12 per cent. What kurbo makes of the sides of a rectangle or the radii of an ellipse is not modelled."
  },
  {
   "property": "C134",
   "status": "partial",
   "theorems": [
    "Velato.C134_steady",
    "Velato.C134_straight_partial",
    "Velato.C134_static",
    "Velato.C134_ignored",
    "Velato.C134_counterexample"
   ],
   "note": "The easing handles of path keyframes are ignored (C134_ignored, C134_counterexample); steady progress is exact to 2^-32 (C134_steady), which is what the keyframes declare if the easing is straight (C134_straight_partial). At the last keyframe the points are NaN (C16)."
  },
  {
   "property": "C135",
   "status": "partial",
   "theorems": [
    "Velato.C135_stops_partial",
    "Velato.C135_offsets",
    "Velato.C135_opacity",
    "Velato.C135_ramp",
    "Velato.C135_counterexample"
   ],
   "note": "Exact arithmetic, with a solver that finds the roots of the easing curve (ExactSolver). During a hold the offsets move on (C135_counterexample, as in C50): C135_stops_partial has the offsets without hold keyframes, C135_offsets says what they are in general (as if nothing were held). C135_opacity is the opacity with any opacity data in order, from the opacities that C60_exact gives to the stops at the keyframes; C135_ramp is the case of two opacity stops."
  },
  {
   "property": "C136",
   "status": "partial",
   "theorems": [
    "Velato.C136_vectors_played",
    "Velato.C136_positions_played",
    "Velato.C136_colors_played",
    "Velato.C136_offsets",
    "Velato.C136_scalars",
    "Velato.C136_vectors_partial",
    "Velato.C136_positions_partial",
    "Velato.C136_colors_partial",
    "Velato.C136_gradients_partial"
   ],
   "note": "C136_scalars is the whole claim for numbers; it puts C03, C05 and C116 together for the whole timeline. Vectors, positions and colours are proved if the keyframes have both handles or none, the same for all coordinates; other handles are not used as declared (C68_counterexample, C68_counterexample_handle). C136_vectors_played, C136_positions_played and C136_colors_played say what is shown with any handles. For gradients the offsets during a hold are wrong (C135_counterexample; C136_offsets says what they are), and opacity data are left out (C60). kurbo's cubic solver is any function with accuracy delta, and the moment at which the easing curve is read may be wrong by delta + 10^-10 of the time between the keyframes."
  },
  {
   "property": "C137",
   "status": "proved",
   "theorems": [
    "Velato.C137_after"
   ],
   "note": "Keyframes at finite times strictly before the frames; exactly at the last keyframe of a property that is not held its weight is undefined (C03, C130_last_keyframe). All properties of shapes, masks, transforms and layers, including time remaps."
  },
  {
   "property": "C138",
   "status": "partial",
   "theorems": [
    "Velato.C138_rest_partial"
   ],
   "note": "False of the code for the stops of gradients: their offsets move during a hold (C50_counterexample, C135_counterexample). Proved if no stops of gradients are held; all other properties, of shapes, masks, transforms and layers, may be held. Before the first keyframe: at least 2^-500 frames before it, and the keyframes within 2^500 frames (else the weight may be -0)."
  },
  {
   "property": "C139",
   "status": "partial",
   "theorems": [
    "Velato.C139_elsewhere_partial",
    "Velato.C139_counterexample"
   ],
   "note": "False of the code for paths: one keyframe that says that the path is closed closes it at all frames (C139_counterexample). Proved for all other properties, and for paths each of whose keyframes has a shape of its own and of which those of both documents or of neither have a keyframe that closes the path; other paths must be the same in both documents."
  },
  {
   "property": "C140",
   "status": "proved",
   "theorems": [
    "Velato.C140_same"
   ],
   "note": "For all pairs of documents that are the same at a frame in the sense of Spec/ValuesOnly.lean; through the characterisation of the calls in C117."
  },
  {
   "property": "C141",
   "status": "proved",
   "theorems": [
    "Velato.C141_scalars",
    "Velato.C141_vectors",
    "Velato.C141_positions",
    "Velato.C141_colors",
    "Velato.C141_gradients",
    "Velato.C141_paths",
    "Velato.C141_imported",
    "Velato.C141_anywhere",
    "Velato.C141_document"
   ],
   "note": "In exact arithmetic with an exact solver (the assumption of C07). Numbers, vectors, positions, colours, gradients (without opacity data) and paths (with a shape for each keyframe); and whole documents, with keyframes added in any of these, in layers, masks, shapes and assets; adding and removing such keyframes keeps a document importable. Gradients with opacity data are not covered: opacities are interpolated at import, separately for each keyframe."
  },
  {
   "property": "C142",
   "status": "proved",
   "theorems": [
    "Velato.C142_sources",
    "Velato.C142_drawn"
   ],
   "note": "C142_sources: any arithmetic, any document. C142_drawn: IEEE double precision, documents with moderate numbers; C129 and C132 for the same geometry and the same fill or stroke. That all geometry before a fill is drawn with it is not claimed: it is false (C38_counterexample)."
  },
  {
   "property": "C143",
   "status": "proved",
   "theorems": [
    "Velato.C143_all"
   ],
   "note": "Without the condition on groups it is false (C38_counterexample); C142 is the other direction, for all documents. Layers with trims are not covered here; see C117 for them."
  },
  {
   "property": "C144",
   "status": "proved",
   "theorems": [
    "Velato.C144_drawn"
   ],
   "note": "The numbers are computed as the code does, with IEEE rounding in double and single precision; the cubic solver of kurbo and the square root are only assumed to be accurate. Where a property uses one pair of handles for all coordinates (C68) or offsets ignore holds (C135), the statement says so: the keyframes are those of PlayedAs."
  },
  {
   "property": "C145",
   "status": "proved",
   "theorems": [
    "Velato.C145_rearranged",
    "Velato.C145_unseen",
    "Velato.C145_swap"
   ],
   "note": "At the top level of the document, all number types. Excluded are documents with two equal layers, or with two layers of the same number to which somebody refers (the last one counts there, so the order does matter)."
  },
  {
   "property": "C146",
   "status": "proved",
   "theorems": [
    "Velato.C146_calls",
    "Velato.C146_picture"
   ],
   "note": "At the top level of the document. C146_calls is for all number types, C146_picture for exact arithmetic. Precompositions are not clipped to their size by the code, so the size of the new layer does not matter."
  },
  {
   "property": "C147",
   "status": "proved",
   "theorems": [
    "Velato.C147_calls"
   ],
   "note": "At the top level of the document, without mattes: the rectangles of mattes are placed by the transform of the document, not by parents."
  },
  {
   "property": "C148",
   "status": "proved",
   "theorems": [
    "Velato.C148_same",
    "Velato.C148_named"
   ],
   "note": "What the matte of a layer is, is MatteOf of Spec/DocDraws (subject of C46)."
  },
  {
   "property": "C149",
   "status": "proved",
   "theorems": [
    "Velato.C149_imported",
    "Velato.C149_drawn"
   ],
   "note": "Any arithmetic with a lawful comparison. If one of the two documents can be imported, so can the other."
  },
  {
   "property": "C150",
   "status": "proved",
   "theorems": [
    "Velato.C150_held",
    "Velato.C150_exact",
    "Velato.C150_missing_stops"
   ],
   "note": "Held keyframes: any arithmetic with a lawful comparison, in particular double precision; numbers, points, sizes and positions. Keyframes that are not held, colours, paths and gradients: exact arithmetic (in double precision the value may differ by the sign of a zero, or be undefined if the easing is). Paths are those whose keyframes have a shape each. At the time of the last keyframe of a path the code computes 0 / 0 (C16), which is 0 in the exact arithmetic used here. Both documents are assumed to be importable. Gradients with fewer stops than declared are shown differently (C150_missing_stops)."
  },
  {
   "property": "C151",
   "status": "proved",
   "theorems": [
    "Velato.C151_imported",
    "Velato.C151_drawn"
   ],
   "note": "Any arithmetic with a lawful comparison. Each handle has one number for each coordinate; handles with lists of two numbers are not covered. Gradients are excluded: the offsets of held gradients are not held (C50), so their handles matter. That no handle of a path matters is the defect recorded at C134."
  },
  {
   "property": "C152",
   "status": "proved",
   "theorems": [
    "Velato.C152_imported",
    "Velato.C152_drawn"
   ],
   "note": "Any arithmetic with a lawful comparison. That the tangents of positions are not read, so that positions always move on straight lines, is a limitation of the implementation that this makes precise; the colours of gradients are the same in both documents."
  },
  {
   "property": "C153",
   "status": "proved",
   "theorems": [
    "Velato.C153_spelled",
    "Velato.C153_import"
   ],
   "note": "The scale of transforms is not among the attributes: left out, it is 1 per cent, not 100 (C14). A layer without number is the same as one with number 0, so that a layer whose parent is 0 has it as parent. Strokes of a single colour and strokes with gradients have different joins and caps if they do not say."
  },
  {
   "property": "C154",
   "status": "proved",
   "theorems": [
    "Velato.C154_drawn",
    "Velato.C154_position"
   ],
   "note": "Any arithmetic with a lawful comparison. Keyframes have both handles or none, and each handle has one number for each coordinate: the importer rejects handles with two numbers for single numbers (C48), and treats those of positions as two keyframes. Positions of groups are never split: the importer rejects such documents (C48)."
  }
 ]
}