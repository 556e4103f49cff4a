# Axioms of the property theorems

Generated by `tools/axioms.py` from `#print axioms`.

## Classical.choice, Quot.sound, propext

`C01_total`, `C02_bracket`, `C02_search_contract`, `C02_any_conforming_search`, `C03_before_first`, `C03_after_last`, `C03_at_last`, `C03_at_last_any_handles`, `C04_scalar`, `C04_point`, `C04_color`, `C04_scalar_last`, `C04_point_last`, `C04_color_last`, `C05_hold_weight`, `C05_hold_scalar`, `C05_hold_point`, `C05_hold_path_partial`, `C05_counterexample`, `C06_weight`, `C06_overflow_counterexample`, `C07_linear`, `C07_frames`, `C08_no_overshoot`, `C08_no_overshoot_exact`, `C08_tolerance_needed`, `C09_monotone`, `C09_monotone_exact`, `C09_frames`, `C10_point`, `C10_color`, `C11_transform`, `C11_stroke`, `C11_repeater`, `C11_trim`, `C11_star`, `C11_rect_ellipse`, `C11_brush_partial`, `C11_solid_brush_partial`, `C11_gradient_alpha_counterexample`, `C12_anchor`, `C13_area`, `C14_layer_partial`, `C14_group_partial`, `C14_scale_omitted`, `C14_scale_explicit`, `C15_path`, `C15_segment_exact`, `C15_segment_ieee`, `C16_hit_partial`, `C16_hit_last_hold_partial`, `C16_last_is_nan`, `C16_counterexample`, `C16_truncation_counterexample`, `C17_corners`, `C17_no_points`, `C17_star`, `C18_rect`, `C18_ellipse`, `C18_document`, `C18_figures`, `C19_normalized`, `C20_length`, `C20_exact`, `C21_swap`, `C21_swap_real`, `C21_turns`, `C22_states`, `C22_trim_scope`, `C23_full`, `C23_empty_partial`, `C23_counterexample`, `C24_cut`, `C24_curves_partial`, `C24_curves_fraction_partial`, `C24_outlines`, `C24_pieces_partial`, `C24_lines_partial`, `C24_fraction_partial`, `C24_counterexample`, `C25_animated`, `C25_after`, `C25_repeater`, `C25_transform`, `C26_opacity_partial`, `C26_count`, `C26_once_partial`, `C26_counterexample`, `C27_balanced`, `C28_clip`, `C29_no_panic`, `C29_returns`, `C29_only_stars`, `C29_star_counterexample`, `C30_reuse`, `C30_sequence`, `C31_layer`, `C31_append`, `C31_nan`, `C32_unused_mattes`, `C33_painters_order`, `C34_chain`, `C34_calls`, `C34_points`, `C35_parent_loop_exits`, `C36_terminates_partial`, `C36_self_matte`, `C36_self_instance`, `C36_counterexample`, `C37_no_leak`, `C37_layer_opacity`, `C37_paints`, `C37_product`, `C38_targets_partial`, `C38_counterexample`, `C39_order`, `C40_instance`, `C40_frame`, `C41_masks`, `C42_matte`, `C43_top_level_partial`, `C43_asset_zero`, `C43_counterexample`, `C44_layers`, `C45_parents`, `C46_mattes`, `C47_hidden`, `C47_draws_nothing`, `C47_transforms`, `C48_panics_iff`, `C48_returns_iff`, `C48_sites`, `C49_stops`, `C49_opaque`, `C49_at_most_opaque`, `C49_static`, `C49_range`, `C50_colours_partial`, `C50_counterexample`, `C50_same_offsets_partial`, `C51_vectors`, `C51_positions`, `C51_colors`, `C51_gradients`, `C52_import`, `C53_shapes`, `C53_order`, `C54_solid_partial`, `C54_gradients`, `C54_counterexample`, `C55_unmatted_partial`, `C55_counterexample`, `C56_only_stars`, `C56_no_panic_partial`, `C56_returns_partial`, `C56_counterexample`, `C57_last`, `C57_shadowed`, `C58_layer_type`, `C58_layer_rejected`, `C58_asset_layers`, `C58_asset_type`, `C58_asset_size`, `C59_round_trip_partial`, `C59_unsized`, `C60_counterexample`, `C60_interior`, `C60_two_partial`, `C60_exact`, `C61_point`, `C61_layer`, `C61_group`, `C62_modes_partial`, `C62_ignored`, `C62_imported_partial`, `C62_counterexample`, `C63_ignored`, `C63_single_partial`, `C63_counterexample`, `C63_counterexample_two`, `C64_unsupported_partial`, `C64_counterexample`, `C65_nonzero_partial`, `C65_counterexample`, `C66_import`, `C66_render`, `C67_balanced`, `C67_paints`, `C67_clip`, `C67_exists`, `C68_scalars`, `C68_vectors_partial`, `C68_positions_partial`, `C68_colors_partial`, `C68_counterexample`, `C68_counterexample_handle`, `C68_played_unique`, `C68_vectors_played`, `C68_positions_played`, `C68_colors_played`, `C69_alpha_partial`, `C69_ignored`, `C69_counterexample`, `C70_ignored`, `C70_full_size_partial`, `C70_counterexample`, `C71_top_level_partial`, `C71_counterexample`, `C72_composed`, `C72_calls`, `C73_still`, `C73_flat`, `C74_retime`, `C74_document`, `C75_outline`, `C75_document`, `C76_paint`, `C76_calls`, `C76_static_fill`, `C76_static_stroke`, `C76_animated_fill`, `C77_attributes`, `C78_reads`, `C78_unique`, `C78_writes`, `C78_error`, `C78_from_json`, `C79_composed`, `C79_calls`, `C79_layer`, `C80_layer`, `C80_append`, `C80_outside`, `C80_opaque`, `C81_matte`, `C82_order`, `C82_masks`, `C82_outside`, `C83_append_invisible`, `C83_layer_invisible`, `C83_layer_partial`, `C83_append_partial`, `C83_bounds_partial`, `C83_overlap_counterexample`, `C83_matte_counterexample`, `C84_kept`, `C84_document`, `C84_static`, `C85_names`, `C86_assets`, `C86_order`, `C86_unused`, `C87_precompose`, `C87_document`, `C88_loops`, `C88_first_pass`, `C88_repeats`, `C88_from_zero_partial`, `C88_closed_partial`, `C88_counterexample`, `C89_picture`, `C90_hits`, `C90_smallest`, `C90_covers`, `C90_path_box`, `C90_empty_outline`, `C91_front_most`, `C91_in_range`, `C92_fits`, `C92_inverse`, `C93_window`, `C93_average`, `C93_extremes`, `C94_round_up`, `C94_no_panic_partial`, `C94_counterexample`, `C94_cleared_counterexample`, `C94_scale`, `C94_background`, `C94_bars`, `C94_line_width`, `C94_lines`, `C94_inside`, `C94_frames_partial`, `C95_info`, `C95_no_jump_partial`, `C95_one_finger`, `C95_counterexample`, `C96_similarity_partial`, `C96_two_fingers_partial`, `C96_one_finger`, `C96_counterexample`, `C97_zoom`, `C97_rotate`, `C97_drag`, `C97_still`, `C97_similarity`, `C97_invertible`, `C98_frame`, `C98_camera`, `C99_no_panic_partial`, `C99_counterexample`, `C99_no_scenes_counterexample`, `C100_pick`, `C101_navigation_finger_partial`, `C101_counterexample`, `C102_named`, `C102_plain_partial`, `C102_counterexample`, `C103_partial`, `C103_stem`, `C103_distinct`, `C103_counterexample`, `C103_outside_counterexample`, `C104_complete`, `C104_keeps`, `C104_fetches`, `C104_wrong_size`, `C105_failure_partial`, `C105_counterexample`, `C106_report`, `C106_success`, `C106_again`, `C106_keeps`, `C107_defaults`, `C107_count`, `C108_directory`, `C108_order`, `C108_error`, `C108_reproducible_partial`, `C108_counterexample`, `C109_overlays`, `C110_layout`, `C111_scalars_partial`, `C111_vectors_partial`, `C111_positions_partial`, `C111_colors_partial`, `C111_scalars_straight`, `C111_vectors_straight`, `C111_positions_straight`, `C111_counterexample`, `C112_calls`, `C112_out_of_range`, `C112_hidden`, `C113_styles`, `C113_round_trip`, `C114_numbers`, `C114_scalars`, `C114_vectors`, `C114_positions`, `C114_colors`, `C115_point`, `C115_point_skewed`, `C115_layer`, `C116_numbers`, `C116_points`, `C116_scalars`, `C116_straight`, `C117_drawn`, `C117_calls`, `C117_unique`, `C118_returns`, `C118_overflows`, `C118_document`, `C118_drawn`, `C119_shown`, `C119_seen`, `C119_unique`, `C120_one_window`, `C120_renderers`, `C120_renderers_once`, `C120_pictures`, `C120_no_panic`, `C120_suspended`, `C120_polling`, `C121_title_partial`, `C121_no_argument_partial`, `C121_counterexample`, `C122_vsync_partial`, `C122_counterexample`, `C123_window`, `C123_copies`, `C123_cut`, `C124_regroup`, `C125_tiger`, `C125_polyStar`, `C125_plays`, `C125_splash`, `C126_command`, `C126_default`, `C126_test_scenes`, `C126_displayed`, `C126_scenes`, `C126_something_partial`, `C126_counterexample`, `C127_calls`, `C128_loaded`, `C129_parents`, `C129_meant`, `C129_into`, `C129_ways`, `C129_calls`, `C130_outline_partial`, `C130_calls_partial`, `C130_every_frame_partial`, `C130_last_keyframe`, `C131_calls_partial`, `C131_nested_partial`, `C131_counterexample`, `C132_calls`, `C133_star`, `C133_rectangle`, `C133_ellipse`, `C134_steady`, `C134_straight_partial`, `C134_static`, `C134_ignored`, `C134_counterexample`, `C135_stops_partial`, `C135_offsets`, `C135_opacity`, `C135_ramp`, `C135_counterexample`, `C136_vectors_played`, `C136_positions_played`, `C136_colors_played`, `C136_offsets`, `C136_scalars`, `C136_vectors_partial`, `C136_positions_partial`, `C136_colors_partial`, `C136_gradients_partial`, `C137_after`, `C138_rest_partial`, `C139_elsewhere_partial`, `C139_counterexample`, `C140_same`, `C141_scalars`, `C141_vectors`, `C141_positions`, `C141_colors`, `C141_gradients`, `C141_paths`, `C141_imported`, `C141_anywhere`, `C141_document`, `C142_sources`, `C142_drawn`, `C143_all`, `C144_drawn`, `C145_rearranged`, `C145_unseen`, `C145_swap`, `C146_calls`, `C146_picture`, `C147_calls`, `C148_same`, `C148_named`, `C149_imported`, `C149_drawn`, `C150_held`, `C150_exact`, `C150_missing_stops`, `C151_imported`, `C151_drawn`, `C152_imported`, `C152_drawn`, `C153_spelled`, `C153_import`, `C154_drawn`, `C154_position`

## Quot.sound, propext

`C01_no_panic`, `C01_fixed`, `C15_no_panic`, `C15_no_panic_animated`, `C15_empty`, `C15_import`, `C34_acyclic`, `C51_scalars`, `C51_paths`, `C52_accepted`, `C52_exact`, `C52_check_needed`, `C59_counterexample`, `C95_fingers`, `C95_single_counterexample`, `C113_constants`, `C128_read`, `C128_rejected`

## none

`C11_rect_ellipse_fixed`

## propext

`C51_sorted`, `C51_sorted_scalars`, `C77_blend_number`, `C113_constants_round_trip`
