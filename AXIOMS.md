# Axioms of the theorems named in MANIFEST.json

Output of `#print axioms` (Lean 4.33.0), grouped by the set of axioms.

## propext

`C24_skipped_frame_partial`, `C48_getter_raises`, `C52_default`, `C56_single_row`, `C57_update_raises`, `C62_no_video`, `C63_empty`, `C74_float`, `C76_points_partial`, `C76_idempotent`, `C76_rank_zero`, `C85_estimates`, `C85_points_blind`, `C141_compute_raises`, `C146_current`, `C146_false_source`, `C146_false_alias`

## Quot.sound, propext

`C02_spec_determines_result`, `C05_stage_nan_iff`, `C05_reid_nan_iff`, `C16_vectorized_str_conflates`, `C19_seen_but_not_live`, `C22_reid_destroyed`, `C23_reid_skips_ids`, `C24_none_with_transformation`, `C26_repeated_detection`, `C29_unseen_point_moved`, `C33_okf_values`, `C33_noFilter`, `C33_noFilter_values`, `C34_noFilter_static`, `C35_noFilter_holds`, `C35_initial_position_lost`, `C37_symmetric`, `C37_entries`, `C38_swap_axes`, `C44_keeps_shape`, `C49_none_raises`, `C52_member_partial`, `C56_read_partial`, `C56_iterate`, `C56_frame_partial`, `C58_search_partial`, `C58_missing`, `C58_found_partial`, `C61_terminal`, `C66_false_reid`, `C66_stale`, `C69_whole_pixels`, `C70_returned`, `C71_grid`, `C73_once`, `C74_scale_partial`, `C76_rejected`, `C81_points_distances`, `C81_vectorized_distances`, `C82_points_distances`, `C86_ties`, `C86_period`, `C89_grid`, `C89_range`, `C90_calls`, `C95_draw_grid`, `C95_paths_call`, `C95_paths_private`, `C95_paths_pictures`, `C95_absolute_paths_call`, `C95_absolute_paths_first`, `C95_absolute_paths_later`, `C96_call`, `C96_events`, `C96_careful`, `C98_glimpse_witness`, `C100_points`, `C100_ties`, `C102_edits`, `C102_last_detection`, `C104_reid_gap`, `C113_false`, `C113_false_reid`, `C114_every_frame_partial`, `C114_openpose_partial`, `C114_false`, `C122_shaped_boxes`, `C122_shaped_centers`, `C126_alone_partial`, `C126_motion`, `C132_open_written`, `C132_period`, `C135_sides`, `C145_name`

## Classical.choice, Quot.sound, propext

`C01_matching_one_to_one`, `C02_matching_greedy`, `C02_matching_maximal`, `C03_matching_terminates`, `C03_returns_unique`, `C03_diverges_iff`, `C03_float32_terminates_partial`, `C03_float32_exact_terminates_partial`, `C03_float32_threshold_diverges`, `C04_matching_order_independent`, `C05_vectorized_nan_iff`, `C05_nan_second_round`, `C05_nan_rejected`, `C05_no_nan_no_error`, `C06_ids_unique`, `C06_identity_never_reused`, `C07_identity_stable`, `C08_global_ids_unique`, `C09_update_returns_active`, `C10_detections_used_once`, `C10_unique_owner`, `C11_counter_steps`, `C11_new_objects`, `C12_upper`, `C12_upper_period_one`, `C12_lower`, `C13_inertia`, `C13_returned_iff`, `C13_never_again`, `C14_delay_state`, `C14_first_returned`, `C14_creating_call`, `C14_unmatched_never_returned`, `C15_age_step`, `C15_age_counts_frames`, `C16_labels_scalar`, `C16_labels_vectorized`, `C16_one_call`, `C17_last_distance_below`, `C17_current_min_below`, `C18_past_length`, `C18_past_ordered`, `C18_forgets_only_old`, `C19_one_entry_per_point`, `C19_upper`, `C19_upper_own`, `C19_matched_nonneg`, `C19_counter_exact`, `C19_live_after_match_partial`, `C19_expiry`, `C20_reid_merge`, `C21_dead_objects`, `C22_matched_kept`, `C22_matched_returned`, `C22_matched_kept_reid_partial`, `C23_total_count`, `C23_new_ids_returned`, `C23_total_is_number_returned`, `C25_no_interference`, `C26_detections_absolute_partial`, `C26_detections_unchanged`, `C26_estimates_follow_camera`, `C26_transformation_kept`, `C26_no_transformation`, `C26_new_object_in_place`, `C27_valid_iff`, `C27_arguments`, `C27_default_valid`, `C27_default_unchecked`, `C28_typeError_iff`, `C28_survives_errors`, `C29_first_seen_partial`, `C29_unseen_not_moved_partial`, `C29_first_seen_not_snapped`, `C30_never_detected_velocity`, `C30_unseen_points_do_not_drift`, `C31_textbook`, `C31_skipped_frame_differs`, `C32_valid`, `C32_denominator`, `C32_between`, `C32_tracker`, `C33_okf_unobserved`, `C33_okf_independent`, `C33_filterPy`, `C33_filterPy_values`, `C33_filterPy_unobserved`, `C34_okf_static`, `C34_filterPy_static`, `C34_born_at_rest`, `C34_static`, `C35_last_detection`, `C35_velocity`, `C35_last_seen`, `C35_not_seen_partial`, `C36_decouples`, `C36_invertible`, `C37_range`, `C37_zero_iff`, `C37_one_iff`, `C37_malformed`, `C37_intersection_over_union`, `C37_degenerate_nan`, `C38_scale_translate`, `C39_frobenius`, `C39_mean_euclidean`, `C39_mean_manhattan`, `C39_formulas`, `C39_no_points`, `C40_votes`, `C40_range`, `C40_decreasing`, `C40_needs_scores`, `C41_bound_partial`, `C41_not_bounded_by_one`, `C42_agree`, `C42_conflated_labels`, `C42_mixed_labels`, `C43_names`, `C44_round_trip`, `C44_moves`, `C44_accumulate`, `C45_point`, `C45_round_trip`, `C45_keeps_shape`, `C45_infinity`, `C46_around`, `C46_mode`, `C47_translation`, `C47_translation_points`, `C47_translation_restart`, `C47_homography`, `C48_translation`, `C48_homography_few_points`, `C48_homography_not_reset`, `C49_first_frame`, `C49_next_frame`, `C49_whole_pixels`, `C49_history`, `C49_stabilizes`, `C50_history`, `C50_picture`, `C50_never_raises`, `C50_no_transformation`, `C50_alphas`, `C51_six_digits`, `C51_three_digits`, `C51_accepts_partial`, `C51_newline`, `C51_capitals`, `C51_predefined`, `C52_empty`, `C52_different`, `C52_periodic`, `C52_predefined`, `C52_set_name`, `C52_set_colors`, `C52_set_default`, `C53_colors`, `C53_dead_objects`, `C53_circles`, `C53_all_circles`, `C53_by_id`, `C53_does_not_raise`, `C53_color_by_label`, `C53_nan_position`, `C54_text`, `C55_line`, `C55_file`, `C55_closed`, `C55_read`, `C55_roundtrip`, `C56_once_partial`, `C57_video_partial`, `C57_extra_updates`, `C57_videos_partial`, `C58_lines`, `C58_number`, `C58_superscript`, `C59_frames`, `C59_writer`, `C59_no_codec`, `C59_loop`, `C59_break`, `C59_arguments`, `C59_write_after_loop`, `C60_file`, `C60_folder`, `C60_not_the_input`, `C60_cameras`, `C60_same_output`, `C60_codec`, `C61_short`, `C61_fits_partial`, `C61_narrow_terminal`, `C62_frames`, `C62_distinct`, `C62_released_once`, `C63_pixels_partial`, `C63_negative`, `C64_two_greedy_rounds`, `C65_no_missed_match`, `C66_reid_partial`, `C66_current_min_partial`, `C67_scored`, `C67_voting`, `C67_shaped_reid`, `C67_shaped`, `C67_trace_reid`, `C67_trace`, `C67_point_distances`, `C67_scipy`, `C67_update_succeeds`, `C68_triangle`, `C69_colors`, `C69_does_not_raise`, `C69_boxes`, `C69_no_drawables`, `C69_no_box`, `C70_mask`, `C70_default_point`, `C72_compare_partial`, `C72_single_prediction`, `C72_same_name`, `C72_shifted`, `C75_reid_returned_partial`, `C75_table`, `C75_returned_partial`, `C75_new_object`, `C75_repr`, `C77_sphere`, `C77_zero`, `C77_symmetric`, `C77_distinct_partial`, `C77_distinct_polar_partial`, `C77_polar_repeats`, `C78_rows`, `C78_boxes`, `C78_where`, `C78_points`, `C78_live`, `C79_points`, `C79_boxes`, `C79_no_ids`, `C79_points_texts`, `C79_boxes_texts`, `C79_ids_missing`, `C79_id_size`, `C79_boxes_sizes`, `C79_points_sizes`, `C80_filters`, `C80_units`, `C80_iou`, `C80_scales`, `C80_points`, `C81_rename`, `C82_monotone`, `C83_stabilized`, `C83_invariant`, `C83_points_transparent`, `C83_iou_transparent`, `C83_translations`, `C83_iou`, `C83_zoom`, `C84_bounded`, `C85_objects`, `C85_returned`, `C86_objects`, `C86_returned`, `C87_follows`, `C87_vanishes`, `C87_filters`, `C88_frobenius`, `C88_mean_manhattan`, `C88_mean_euclidean`, `C88_never_confused`, `C88_one_call`, `C88_targets`, `C89_fades`, `C89_speed`, `C89_returned`, `C89_erased`, `C89_default_attenuation`, `C89_absolute_paths`, `C89_untouched`, `C89_between`, `C89_draw_points`, `C89_draw_boxes`, `C89_top_box`, `C89_alpha_blend`, `C90_points_place`, `C90_default_size`, `C90_draw_points`, `C90_draw_boxes`, `C90_above_box`, `C90_circle`, `C91_objects`, `C91_noFilter_partial`, `C91_inverted`, `C91_kalman_counterexample`, `C91_scores_needed`, `C91_constant_size_partial`, `C92_update`, `C92_trace`, `C92_reachable`, `C92_two_greedy_rounds`, `C92_iou_rowwise`, `C92_iou`, `C92_conflated_labels`, `C93_relations`, `C93_rigid`, `C93_scores_needed`, `C94_one_per_target`, `C94_never_switched`, `C94_found_again`, `C94_vectorized_one_per_target`, `C94_vectorized_never_switched`, `C94_vectorized_found_again`, `C95_draw_points`, `C95_draw_boxes`, `C95_absolute_paths_witness`, `C96_drawings_stay`, `C96_witness`, `C97_third_round_any`, `C97_third_round`, `C98_never_switched`, `C98_recognized`, `C98_comes_back`, `C99_points`, `C99_points_color`, `C99_boxes`, `C100_same_decisions`, `C100_history`, `C100_rounding`, `C101_half_as_many`, `C101_mutually_nearest`, `C101_half_the_gain`, `C101_call`, `C101_bound_attained`, `C101_sum_unbounded`, `C102_by_name`, `C102_keypoints_voting`, `C103_returns`, `C103_exact`, `C103_one_per_target`, `C103_never_switched`, `C103_found_again`, `C103_movie`, `C103_unmoved`, `C104_no_gaps`, `C105_boxes`, `C105_sequence`, `C105_read`, `C105_unique`, `C105_no_gaps`, `C105_detections`, `C105_evaluation`, `C105_iou`, `C106_movie_partial`, `C106_false_estimate`, `C106_false_missed`, `C106_false_filter`, `C107_mask_partial`, `C107_false_mask`, `C107_points`, `C107_sequence`, `C107_evaluation`, `C107_homography`, `C107_false_points`, `C108_parameters`, `C108_init`, `C108_pixels_partial`, `C108_false_column`, `C108_lines`, `C108_visible`, `C108_scaled`, `C108_tracker`, `C109_conversion`, `C109_iou`, `C109_boxes`, `C109_range`, `C110_collision`, `C110_detections`, `C110_picture`, `C110_seen`, `C110_position`, `C110_embedding`, `C111_coasts`, `C111_filters`, `C111_hidden`, `C111_vanishes`, `C111_alone`, `C111_found`, `C111_through`, `C112_unseen_points_partial`, `C112_filters`, `C112_translation`, `C112_homography`, `C112_keypoints_voting`, `C112_leaks`, `C113_kept_partial`, `C113_returned_partial`, `C113_initialized_partial`, `C113_lost`, `C113_drawn_partial`, `C113_reid_partial`, `C113_reid_returned_partial`, `C114_raises`, `C115_centroids_partial`, `C115_no_points`, `C115_persons_partial`, `C115_false_poses`, `C115_false_boxes`, `C116_five_votes_partial`, `C116_same_place_partial`, `C116_any_size`, `C116_blind`, `C117_bound_partial`, `C117_false`, `C118_from_predictions`, `C118_apart`, `C118_complete_partial`, `C118_false`, `C119_back_partial`, `C119_ratio_pad_partial`, `C119_ratio`, `C119_shape`, `C119_false_scaleup`, `C119_false_stretched`, `C120_follows`, `C120_filters`, `C120_margin`, `C120_settles`, `C120_lag`, `C121_same`, `C121_fresh_partial`, `C121_false_parent`, `C121_false_suffix`, `C122_yolo`, `C122_camera`, `C122_boxes`, `C122_nas_partial`, `C122_cars`, `C122_vehicles`, `C122_detectron`, `C122_poses`, `C122_openpose`, `C122_false_nas`, `C122_false_detectron`, `C123_cells`, `C123_all`, `C123_expressible`, `C123_range`, `C123_suppression`, `C124_place_partial`, `C124_shown_partial`, `C124_boxes_partial`, `C124_false_size`, `C125_frames`, `C125_outputs_partial`, `C125_false_gap`, `C126_false_leftover`, `C127_objects`, `C127_edge`, `C127_near`, `C128_same`, `C128_video_partial`, `C128_false_ids`, `C129_centers_partial`, `C129_boxes_partial`, `C129_to_the_end`, `C129_sized_partial`, `C129_demo`, `C129_false_boxes`, `C129_false_hidden`, `C130_border`, `C130_border_raises`, `C130_to_the_end`, `C130_recognized_partial`, `C130_false_closest`, `C130_false_border`, `C130_demo`, `C131_same_partial`, `C131_kinds`, `C131_hidden`, `C131_to_the_end`, `C131_false_persons`, `C132_open_same_partial`, `C132_prof_same_partial`, `C132_false_empty`, `C132_open_to_the_end`, `C132_prof_to_the_end`, `C132_false_dropped`, `C133_yolo4`, `C133_detectron`, `C133_mm`, `C133_yolo7`, `C133_to_the_end`, `C133_faint`, `C134_yolo7_partial`, `C134_nas_partial`, `C134_sahi_partial`, `C134_false_nas`, `C134_false_track`, `C134_sized_partial`, `C134_nas_sized_partial`, `C134_trackers_partial`, `C134_false_boxes`, `C134_false_stale`, `C135_pictures`, `C135_to_the_end_partial`, `C135_false_flat`, `C136_pictures_partial`, `C136_tracked_partial`, `C136_false_size`, `C136_sized_partial`, `C136_false_flat`, `C137_pictures_partial`, `C137_to_the_end`, `C137_false_homography`, `C137_false_paths`, `C137_false_fixed`, `C138_sequence`, `C138_objects`, `C139_center_raises`, `C139_center_partial`, `C139_byte_same`, `C139_byte_raises`, `C139_byte_partial`, `C139_false_raises`, `C140_pictures_partial`, `C140_to_the_end`, `C140_other`, `C140_tracker`, `C140_false_paths`, `C141_save_partial`, `C141_save_raises`, `C141_last`, `C141_script_partial`, `C141_script_raises`, `C141_false_kept`, `C141_false_stale`, `C141_false_slash`, `C142_same_partial`, `C142_gap`, `C142_to_the_end`, `C142_close`, `C142_false_age`, `C143_nan`, `C143_ratio_partial`, `C143_to_the_end_partial`, `C143_tracker`, `C143_false_nan`, `C144_center_partial`, `C144_center_raises`, `C144_byte_partial`, `C144_byte_raises`, `C144_false_one`, `C145_folder`, `C145_selected`, `C145_raises`, `C145_script`, `C145_script_selected`, `C145_center_partial`, `C145_false_selected`, `C145_false_default`, `C146_step`, `C146_latest_partial`, `C147_links_partial`, `C147_same`, `C147_only_less`, `C147_only_docs`, `C147_false_links`
