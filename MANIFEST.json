{
 "claims": [
  {
   "property": "C01",
   "status": "proved",
   "theorems": [
    "Norfair.Props.C01_matching_one_to_one"
   ],
   "note": ""
  },
  {
   "property": "C02",
   "status": "proved",
   "theorems": [
    "Norfair.Props.C02_matching_greedy",
    "Norfair.Props.C02_spec_determines_result",
    "Norfair.Props.C02_matching_maximal"
   ],
   "note": ""
  },
  {
   "property": "C03",
   "status": "partial",
   "theorems": [
    "Norfair.Props.C03_matching_terminates",
    "Norfair.Props.C03_returns_unique",
    "Norfair.Props.C03_diverges_iff",
    "Norfair.Props.C03_float32_terminates_partial",
    "Norfair.Props.C03_float32_exact_terminates_partial",
    "Norfair.Props.C03_float32_threshold_diverges"
   ],
   "note": "The unbounded statement is false of the code: C03_float32_threshold_diverges is a concrete threshold whose stored fill value rounds below the threshold. Proved: exact characterisation of divergence, termination for every threshold in (-2^24-1, 2^24-1) and for every float32 threshold."
  },
  {
   "property": "C04",
   "status": "proved",
   "theorems": [
    "Norfair.Props.C04_matching_order_independent"
   ],
   "note": ""
  },
  {
   "property": "C05",
   "status": "proved",
   "theorems": [
    "Norfair.Props.C05_vectorized_nan_iff",
    "Norfair.Props.C05_nan_second_round",
    "Norfair.Props.C05_stage_nan_iff",
    "Norfair.Props.C05_reid_nan_iff",
    "Norfair.Props.C05_nan_rejected",
    "Norfair.Props.C05_no_nan_no_error"
   ],
   "note": ""
  },
  {
   "property": "C06",
   "status": "proved",
   "theorems": [
    "Norfair.Props.C06_ids_unique",
    "Norfair.Props.C06_identity_never_reused"
   ],
   "note": ""
  },
  {
   "property": "C07",
   "status": "proved",
   "theorems": [
    "Norfair.Props.C07_identity_stable"
   ],
   "note": ""
  },
  {
   "property": "C08",
   "status": "proved",
   "theorems": [
    "Norfair.Props.C08_global_ids_unique"
   ],
   "note": ""
  },
  {
   "property": "C09",
   "status": "proved",
   "theorems": [
    "Norfair.Props.C09_update_returns_active"
   ],
   "note": ""
  },
  {
   "property": "C10",
   "status": "proved",
   "theorems": [
    "Norfair.Props.C10_detections_used_once",
    "Norfair.Props.C10_unique_owner"
   ],
   "note": ""
  },
  {
   "property": "C11",
   "status": "proved",
   "theorems": [
    "Norfair.Props.C11_counter_steps",
    "Norfair.Props.C11_new_objects"
   ],
   "note": ""
  },
  {
   "property": "C12",
   "status": "proved",
   "theorems": [
    "Norfair.Props.C12_upper",
    "Norfair.Props.C12_upper_period_one",
    "Norfair.Props.C12_lower"
   ],
   "note": ""
  },
  {
   "property": "C13",
   "status": "proved",
   "theorems": [
    "Norfair.Props.C13_inertia",
    "Norfair.Props.C13_returned_iff",
    "Norfair.Props.C13_never_again"
   ],
   "note": ""
  },
  {
   "property": "C14",
   "status": "proved",
   "theorems": [
    "Norfair.Props.C14_delay_state",
    "Norfair.Props.C14_first_returned",
    "Norfair.Props.C14_creating_call",
    "Norfair.Props.C14_unmatched_never_returned"
   ],
   "note": ""
  },
  {
   "property": "C15",
   "status": "proved",
   "theorems": [
    "Norfair.Props.C15_age_step",
    "Norfair.Props.C15_age_counts_frames"
   ],
   "note": ""
  },
  {
   "property": "C16",
   "status": "proved",
   "theorems": [
    "Norfair.Props.C16_labels_scalar",
    "Norfair.Props.C16_labels_vectorized",
    "Norfair.Props.C16_one_call",
    "Norfair.Props.C16_vectorized_str_conflates"
   ],
   "note": ""
  },
  {
   "property": "C17",
   "status": "proved",
   "theorems": [
    "Norfair.Props.C17_last_distance_below",
    "Norfair.Props.C17_current_min_below"
   ],
   "note": ""
  },
  {
   "property": "C18",
   "status": "proved",
   "theorems": [
    "Norfair.Props.C18_past_length",
    "Norfair.Props.C18_past_ordered",
    "Norfair.Props.C18_forgets_only_old"
   ],
   "note": ""
  },
  {
   "property": "C19",
   "status": "partial",
   "theorems": [
    "Norfair.Props.C19_one_entry_per_point",
    "Norfair.Props.C19_upper",
    "Norfair.Props.C19_upper_own",
    "Norfair.Props.C19_matched_nonneg",
    "Norfair.Props.C19_counter_exact",
    "Norfair.Props.C19_live_after_match_partial",
    "Norfair.Props.C19_expiry",
    "Norfair.Props.C19_seen_but_not_live"
   ],
   "note": "Bounds, exact values and expiry are proved. 'Live right after a match with the point over the threshold' is false when the counter ran below zero during missed frames (C19_seen_but_not_live); proved when the counter before was at least 2 - 2*period, as an equivalence, in C19_live_after_match_partial."
  },
  {
   "property": "C20",
   "status": "proved",
   "theorems": [
    "Norfair.Props.C20_reid_merge"
   ],
   "note": ""
  },
  {
   "property": "C21",
   "status": "proved",
   "theorems": [
    "Norfair.Props.C21_dead_objects"
   ],
   "note": ""
  },
  {
   "property": "C22",
   "status": "partial",
   "theorems": [
    "Norfair.Props.C22_matched_kept",
    "Norfair.Props.C22_matched_returned",
    "Norfair.Props.C22_matched_kept_reid_partial",
    "Norfair.Props.C22_reid_destroyed"
   ],
   "note": "With reid_hit_counter_max the statement is false when the object's hit counter is 0 (C22_reid_destroyed); proved without it, and with it for positive counters."
  },
  {
   "property": "C23",
   "status": "proved",
   "theorems": [
    "Norfair.Props.C23_total_count",
    "Norfair.Props.C23_new_ids_returned",
    "Norfair.Props.C23_total_is_number_returned",
    "Norfair.Props.C23_reid_skips_ids"
   ],
   "note": ""
  },
  {
   "property": "C24",
   "status": "partial",
   "theorems": [
    "Norfair.Props.C24_skipped_frame_partial",
    "Norfair.Props.C24_none_with_transformation"
   ],
   "note": "False with a coordinate transformation: update() raises TypeError (C24_none_with_transformation). Proved without one."
  },
  {
   "property": "C25",
   "status": "proved",
   "theorems": [
    "Norfair.Props.C25_no_interference"
   ],
   "note": ""
  },
  {
   "property": "C26",
   "status": "partial",
   "theorems": [
    "Norfair.Props.C26_detections_absolute_partial",
    "Norfair.Props.C26_detections_unchanged",
    "Norfair.Props.C26_estimates_follow_camera",
    "Norfair.Props.C26_transformation_kept",
    "Norfair.Props.C26_no_transformation",
    "Norfair.Props.C26_new_object_in_place",
    "Norfair.Props.C26_repeated_detection"
   ],
   "note": "A detection listed twice in one call is converted twice (C26_repeated_detection); proved for lists without repetition. The rest is proved without restriction."
  },
  {
   "property": "C27",
   "status": "proved",
   "theorems": [
    "Norfair.Props.C27_valid_iff",
    "Norfair.Props.C27_arguments",
    "Norfair.Props.C27_default_valid",
    "Norfair.Props.C27_default_unchecked"
   ],
   "note": ""
  },
  {
   "property": "C28",
   "status": "proved",
   "theorems": [
    "Norfair.Props.C28_typeError_iff",
    "Norfair.Props.C28_survives_errors"
   ],
   "note": ""
  },
  {
   "property": "C29",
   "status": "partial",
   "theorems": [
    "Norfair.Props.C29_first_seen_partial",
    "Norfair.Props.C29_unseen_not_moved_partial",
    "Norfair.Props.C29_unseen_point_moved",
    "Norfair.Props.C29_first_seen_not_snapped"
   ],
   "note": "False for several points of dimension > 1: the sensor mask is laid out differently from the state (C29_unseen_point_moved, C29_first_seen_not_snapped). Proved for the layouts where both agree (all points seen, none unseen, one point or one coordinate), as stated in the _partial theorems."
  },
  {
   "property": "C30",
   "status": "proved",
   "theorems": [
    "Norfair.Props.C30_never_detected_velocity",
    "Norfair.Props.C30_unseen_points_do_not_drift"
   ],
   "note": ""
  },
  {
   "property": "C31",
   "status": "proved",
   "theorems": [
    "Norfair.Props.C31_textbook",
    "Norfair.Props.C31_skipped_frame_differs"
   ],
   "note": ""
  },
  {
   "property": "C32",
   "status": "proved",
   "theorems": [
    "Norfair.Props.C32_valid",
    "Norfair.Props.C32_denominator",
    "Norfair.Props.C32_between",
    "Norfair.Props.C32_tracker"
   ],
   "note": ""
  },
  {
   "property": "C33",
   "status": "proved",
   "theorems": [
    "Norfair.Props.C33_okf_unobserved",
    "Norfair.Props.C33_okf_values",
    "Norfair.Props.C33_okf_independent",
    "Norfair.Props.C33_noFilter",
    "Norfair.Props.C33_noFilter_values",
    "Norfair.Props.C33_filterPy",
    "Norfair.Props.C33_filterPy_values",
    "Norfair.Props.C33_filterPy_unobserved"
   ],
   "note": ""
  },
  {
   "property": "C34",
   "status": "proved",
   "theorems": [
    "Norfair.Props.C34_noFilter_static",
    "Norfair.Props.C34_okf_static",
    "Norfair.Props.C34_filterPy_static",
    "Norfair.Props.C34_born_at_rest",
    "Norfair.Props.C34_static"
   ],
   "note": ""
  },
  {
   "property": "C35",
   "status": "partial",
   "theorems": [
    "Norfair.Props.C35_last_detection",
    "Norfair.Props.C35_noFilter_holds",
    "Norfair.Props.C35_velocity",
    "Norfair.Props.C35_last_seen",
    "Norfair.Props.C35_not_seen_partial",
    "Norfair.Props.C35_initial_position_lost"
   ],
   "note": "Velocity 0 and 'the position of the last detection in which the point was over the threshold' are proved without restriction (over calls in which the point is not seen: without ReID; for points over the threshold in the last detection of the object: with ReID and failed calls, C35_last_detection). 'Or the initial position' is false for never seen points of objects with several points (C35_initial_position_lost), because of the mask layout of C29; proved for points seen before and for single points in C35_not_seen_partial."
  },
  {
   "property": "C36",
   "status": "proved",
   "theorems": [
    "Norfair.Props.C36_decouples",
    "Norfair.Props.C36_invertible"
   ],
   "note": ""
  },
  {
   "property": "C37",
   "status": "proved",
   "theorems": [
    "Norfair.Props.C37_range",
    "Norfair.Props.C37_symmetric",
    "Norfair.Props.C37_zero_iff",
    "Norfair.Props.C37_one_iff",
    "Norfair.Props.C37_malformed",
    "Norfair.Props.C37_entries",
    "Norfair.Props.C37_intersection_over_union",
    "Norfair.Props.C37_degenerate_nan"
   ],
   "note": ""
  },
  {
   "property": "C38",
   "status": "proved",
   "theorems": [
    "Norfair.Props.C38_scale_translate",
    "Norfair.Props.C38_swap_axes"
   ],
   "note": ""
  },
  {
   "property": "C39",
   "status": "proved",
   "theorems": [
    "Norfair.Props.C39_frobenius",
    "Norfair.Props.C39_mean_euclidean",
    "Norfair.Props.C39_mean_manhattan",
    "Norfair.Props.C39_formulas",
    "Norfair.Props.C39_no_points"
   ],
   "note": ""
  },
  {
   "property": "C40",
   "status": "proved",
   "theorems": [
    "Norfair.Props.C40_votes",
    "Norfair.Props.C40_range",
    "Norfair.Props.C40_decreasing",
    "Norfair.Props.C40_needs_scores"
   ],
   "note": ""
  },
  {
   "property": "C41",
   "status": "partial",
   "theorems": [
    "Norfair.Props.C41_bound_partial",
    "Norfair.Props.C41_not_bounded_by_one"
   ],
   "note": "False as stated (and as documented): the bound is sqrt(2), attained exactly for opposite corners (C41_not_bounded_by_one)."
  },
  {
   "property": "C42",
   "status": "proved",
   "theorems": [
    "Norfair.Props.C42_agree",
    "Norfair.Props.C42_conflated_labels",
    "Norfair.Props.C42_mixed_labels"
   ],
   "note": ""
  },
  {
   "property": "C43",
   "status": "proved",
   "theorems": [
    "Norfair.Props.C43_names"
   ],
   "note": ""
  },
  {
   "property": "C44",
   "status": "proved",
   "theorems": [
    "Norfair.Props.C44_round_trip",
    "Norfair.Props.C44_moves",
    "Norfair.Props.C44_accumulate",
    "Norfair.Props.C44_keeps_shape"
   ],
   "note": ""
  },
  {
   "property": "C45",
   "status": "proved",
   "theorems": [
    "Norfair.Props.C45_point",
    "Norfair.Props.C45_round_trip",
    "Norfair.Props.C45_keeps_shape",
    "Norfair.Props.C45_infinity"
   ],
   "note": ""
  },
  {
   "property": "C46",
   "status": "proved",
   "theorems": [
    "Norfair.Props.C46_around",
    "Norfair.Props.C46_mode"
   ],
   "note": ""
  },
  {
   "property": "C47",
   "status": "proved",
   "theorems": [
    "Norfair.Props.C47_translation",
    "Norfair.Props.C47_translation_points",
    "Norfair.Props.C47_translation_restart",
    "Norfair.Props.C47_homography"
   ],
   "note": ""
  },
  {
   "property": "C48",
   "status": "partial",
   "theorems": [
    "Norfair.Props.C48_getter_raises",
    "Norfair.Props.C48_translation",
    "Norfair.Props.C48_homography_few_points",
    "Norfair.Props.C48_homography_not_reset"
   ],
   "note": "Proved for every getter that raises (C48_getter_raises) and for the translation getter, with failing flow or no points (C48_translation). False for the homography getter after a first estimate: with failing optical flow or fewer than 4 points it does not raise but returns the old transformation (C48_homography_few_points, C48_homography_not_reset)."
  },
  {
   "property": "C49",
   "status": "proved",
   "theorems": [
    "Norfair.Props.C49_first_frame",
    "Norfair.Props.C49_next_frame",
    "Norfair.Props.C49_whole_pixels",
    "Norfair.Props.C49_history",
    "Norfair.Props.C49_stabilizes",
    "Norfair.Props.C49_none_raises"
   ],
   "note": ""
  },
  {
   "property": "C50",
   "status": "proved",
   "theorems": [
    "Norfair.Props.C50_history",
    "Norfair.Props.C50_picture",
    "Norfair.Props.C50_never_raises",
    "Norfair.Props.C50_no_transformation",
    "Norfair.Props.C50_alphas"
   ],
   "note": ""
  },
  {
   "property": "C51",
   "status": "partial",
   "theorems": [
    "Norfair.Props.C51_six_digits",
    "Norfair.Props.C51_three_digits",
    "Norfair.Props.C51_accepts_partial",
    "Norfair.Props.C51_newline",
    "Norfair.Props.C51_capitals",
    "Norfair.Props.C51_predefined"
   ],
   "note": "False as stated in one point: '$' in the regular expression also accepts a trailing newline (C51_newline). Proved: the accepted strings are exactly the formats of the statement, with or without that newline (C51_accepts_partial), the values, and the inverse of formatting."
  },
  {
   "property": "C52",
   "status": "partial",
   "theorems": [
    "Norfair.Props.C52_default",
    "Norfair.Props.C52_member_partial",
    "Norfair.Props.C52_empty",
    "Norfair.Props.C52_different",
    "Norfair.Props.C52_periodic",
    "Norfair.Props.C52_predefined",
    "Norfair.Props.C52_set_name",
    "Norfair.Props.C52_set_colors",
    "Norfair.Props.C52_set_default"
   ],
   "note": "An empty palette is accepted by Palette.set and choose_color then raises ZeroDivisionError (C52_empty). Proved for palettes that are not empty."
  },
  {
   "property": "C53",
   "status": "proved",
   "theorems": [
    "Norfair.Props.C53_colors",
    "Norfair.Props.C53_dead_objects",
    "Norfair.Props.C53_circles",
    "Norfair.Props.C53_all_circles",
    "Norfair.Props.C53_by_id",
    "Norfair.Props.C53_does_not_raise",
    "Norfair.Props.C53_color_by_label",
    "Norfair.Props.C53_nan_position"
   ],
   "note": ""
  },
  {
   "property": "C54",
   "status": "proved",
   "theorems": [
    "Norfair.Props.C54_text"
   ],
   "note": ""
  },
  {
   "property": "C55",
   "status": "proved",
   "theorems": [
    "Norfair.Props.C55_line",
    "Norfair.Props.C55_file",
    "Norfair.Props.C55_closed",
    "Norfair.Props.C55_read",
    "Norfair.Props.C55_roundtrip"
   ],
   "note": "The roundtrip through DetectionFileParser (C55_roundtrip) is proved in exact arithmetic; the code reads numbers as float32."
  },
  {
   "property": "C56",
   "status": "partial",
   "theorems": [
    "Norfair.Props.C56_read_partial",
    "Norfair.Props.C56_single_row",
    "Norfair.Props.C56_iterate",
    "Norfair.Props.C56_frame_partial",
    "Norfair.Props.C56_once_partial"
   ],
   "note": "A det.txt with exactly one row cannot be read (np.loadtxt returns a one-dimensional array), nor an empty one (C56_single_row). Proved for files with at least two rows, in exact arithmetic."
  },
  {
   "property": "C57",
   "status": "partial",
   "theorems": [
    "Norfair.Props.C57_video_partial",
    "Norfair.Props.C57_extra_updates",
    "Norfair.Props.C57_update_raises",
    "Norfair.Props.C57_videos_partial"
   ],
   "note": "Further updates store the matrix again (C57_extra_updates), and a single prediction is stored as a plain list instead of a matrix with one row (C57_video_partial says which). Proved otherwise."
  },
  {
   "property": "C58",
   "status": "partial",
   "theorems": [
    "Norfair.Props.C58_lines",
    "Norfair.Props.C58_search_partial",
    "Norfair.Props.C58_missing",
    "Norfair.Props.C58_found_partial",
    "Norfair.Props.C58_number",
    "Norfair.Props.C58_superscript"
   ],
   "note": "A value made of digits that are not decimal, such as a superscript two, makes search raise ValueError although the line exists (C58_superscript). Proved otherwise."
  },
  {
   "property": "C59",
   "status": "proved",
   "theorems": [
    "Norfair.Props.C59_frames",
    "Norfair.Props.C59_writer",
    "Norfair.Props.C59_no_codec",
    "Norfair.Props.C59_loop",
    "Norfair.Props.C59_break",
    "Norfair.Props.C59_arguments",
    "Norfair.Props.C59_write_after_loop"
   ],
   "note": "Proved as stated. Two limits of the code are shown as well: a consumer that breaks out of the loop never releases anything (C59_break), and frames written after the loop are never finished (C59_write_after_loop)."
  },
  {
   "property": "C60",
   "status": "partial",
   "theorems": [
    "Norfair.Props.C60_file",
    "Norfair.Props.C60_folder",
    "Norfair.Props.C60_not_the_input",
    "Norfair.Props.C60_cameras",
    "Norfair.Props.C60_same_output",
    "Norfair.Props.C60_codec"
   ],
   "note": "'Different cameras get different files' is false: line 261 is not an f-string (C60_cameras); inputs that differ only after the first dot of their names also share a file (C60_same_output). The rest is proved."
  },
  {
   "property": "C61",
   "status": "partial",
   "theorems": [
    "Norfair.Props.C61_short",
    "Norfair.Props.C61_fits_partial",
    "Norfair.Props.C61_narrow_terminal",
    "Norfair.Props.C61_terminal"
   ],
   "note": "False for terminals with fewer than 32 columns (C61_narrow_terminal); proved for all others in C61_fits_partial."
  },
  {
   "property": "C62",
   "status": "proved",
   "theorems": [
    "Norfair.Props.C62_frames",
    "Norfair.Props.C62_distinct",
    "Norfair.Props.C62_released_once",
    "Norfair.Props.C62_no_video"
   ],
   "note": ""
  },
  {
   "property": "C63",
   "status": "partial",
   "theorems": [
    "Norfair.Props.C63_pixels_partial",
    "Norfair.Props.C63_empty",
    "Norfair.Props.C63_negative"
   ],
   "note": "False for negative coordinates, which count from the other end of the image (C63_negative); proved for coordinates greater than -1."
  },
  {
   "property": "C64",
   "status": "proved",
   "theorems": [
    "Norfair.Props.C64_two_greedy_rounds"
   ],
   "note": ""
  },
  {
   "property": "C65",
   "status": "proved",
   "theorems": [
    "Norfair.Props.C65_no_missed_match"
   ],
   "note": ""
  },
  {
   "property": "C66",
   "status": "partial",
   "theorems": [
    "Norfair.Props.C66_false_reid",
    "Norfair.Props.C66_reid_partial",
    "Norfair.Props.C66_current_min_partial",
    "Norfair.Props.C66_stale"
   ],
   "note": "False when all distances of the round are 0 or there are no detections: the old value is kept (C66_stale). False with ReID: the value of an initialized object without detection is overwritten by its ReID distance, even above distance_threshold, and a recognized object takes the value of the new object (C66_false_reid). Proved when some distance to the object is nonzero, without ReID or when no alive object is initializing (C66_reid_partial)."
  },
  {
   "property": "C67",
   "status": "proved",
   "theorems": [
    "Norfair.Props.C67_scored",
    "Norfair.Props.C67_voting",
    "Norfair.Props.C67_shaped_reid",
    "Norfair.Props.C67_shaped",
    "Norfair.Props.C67_trace_reid",
    "Norfair.Props.C67_trace",
    "Norfair.Props.C67_point_distances",
    "Norfair.Props.C67_scipy",
    "Norfair.Props.C67_update_succeeds"
   ],
   "note": ""
  },
  {
   "property": "C68",
   "status": "proved",
   "theorems": [
    "Norfair.Props.C68_triangle"
   ],
   "note": ""
  },
  {
   "property": "C69",
   "status": "proved",
   "theorems": [
    "Norfair.Props.C69_colors",
    "Norfair.Props.C69_does_not_raise",
    "Norfair.Props.C69_whole_pixels",
    "Norfair.Props.C69_boxes",
    "Norfair.Props.C69_no_drawables",
    "Norfair.Props.C69_no_box"
   ],
   "note": ""
  },
  {
   "property": "C70",
   "status": "proved",
   "theorems": [
    "Norfair.Props.C70_mask",
    "Norfair.Props.C70_returned",
    "Norfair.Props.C70_default_point"
   ],
   "note": ""
  },
  {
   "property": "C71",
   "status": "proved",
   "theorems": [
    "Norfair.Props.C71_grid"
   ],
   "note": ""
  },
  {
   "property": "C72",
   "status": "partial",
   "theorems": [
    "Norfair.Props.C72_compare_partial",
    "Norfair.Props.C72_single_prediction",
    "Norfair.Props.C72_same_name",
    "Norfair.Props.C72_shifted"
   ],
   "note": "False for videos with exactly one prediction (C72_single_prediction), for videos with the same name in different folders (C72_same_name) and after superfluous updates (C72_shifted). Proved otherwise."
  },
  {
   "property": "C73",
   "status": "proved",
   "theorems": [
    "Norfair.Props.C73_once"
   ],
   "note": ""
  },
  {
   "property": "C74",
   "status": "partial",
   "theorems": [
    "Norfair.Props.C74_scale_partial",
    "Norfair.Props.C74_float"
   ],
   "note": "False for floats, the documented type of the argument, other than 1: the sizes are floats, which OpenCV rejects (C74_float). Proved for positive integers."
  },
  {
   "property": "C75",
   "status": "partial",
   "theorems": [
    "Norfair.Props.C75_reid_returned_partial",
    "Norfair.Props.C75_table",
    "Norfair.Props.C75_returned_partial",
    "Norfair.Props.C75_new_object",
    "Norfair.Props.C75_repr"
   ],
   "note": "Printing is false for objects that were never matched: with initialization_delay=0 the first update returns such an object and print_objects_as_table raises TypeError (C75_new_object). Proved for calls with a period of at most initialization_delay: without ReID for well-formed calls, with ReID for calls that return (C75_reid_returned_partial); texts are proved without restriction."
  },
  {
   "property": "C76",
   "status": "partial",
   "theorems": [
    "Norfair.Props.C76_rejected",
    "Norfair.Props.C76_points_partial",
    "Norfair.Props.C76_idempotent",
    "Norfair.Props.C76_rank_zero"
   ],
   "note": "Arrays without axes are accepted as well (C76_rank_zero). Proved otherwise."
  },
  {
   "property": "C77",
   "status": "partial",
   "theorems": [
    "Norfair.Props.C77_sphere",
    "Norfair.Props.C77_zero",
    "Norfair.Props.C77_symmetric",
    "Norfair.Props.C77_distinct_partial",
    "Norfair.Props.C77_distinct_polar_partial",
    "Norfair.Props.C77_polar_repeats"
   ],
   "note": "'Pairwise different' is false for the polar grid of odd size from 3 on: the middle is repeated (C77_polar_repeats). Proved for the default grid, and for the polar grid except for this middle row. The size must be positive (C77_zero)."
  },
  {
   "property": "C78",
   "status": "proved",
   "theorems": [
    "Norfair.Props.C78_rows",
    "Norfair.Props.C78_boxes",
    "Norfair.Props.C78_where",
    "Norfair.Props.C78_points",
    "Norfair.Props.C78_live"
   ],
   "note": ""
  },
  {
   "property": "C79",
   "status": "partial",
   "theorems": [
    "Norfair.Props.C79_points",
    "Norfair.Props.C79_boxes",
    "Norfair.Props.C79_no_ids",
    "Norfair.Props.C79_points_texts",
    "Norfair.Props.C79_boxes_texts",
    "Norfair.Props.C79_ids_missing",
    "Norfair.Props.C79_id_size",
    "Norfair.Props.C79_boxes_sizes",
    "Norfair.Props.C79_points_sizes"
   ],
   "note": "Circles, rectangles, texts, radii, sizes and raising are proved. By default draw_tracked_boxes writes no ids, unlike draw_boxes (C79_ids_missing, C79_no_ids)."
  },
  {
   "property": "C80",
   "status": "proved",
   "theorems": [
    "Norfair.Props.C80_filters",
    "Norfair.Props.C80_units",
    "Norfair.Props.C80_iou",
    "Norfair.Props.C80_scales",
    "Norfair.Props.C80_points"
   ],
   "note": ""
  },
  {
   "property": "C81",
   "status": "proved",
   "theorems": [
    "Norfair.Props.C81_rename",
    "Norfair.Props.C81_points_distances",
    "Norfair.Props.C81_vectorized_distances"
   ],
   "note": ""
  },
  {
   "property": "C82",
   "status": "proved",
   "theorems": [
    "Norfair.Props.C82_monotone",
    "Norfair.Props.C82_points_distances"
   ],
   "note": ""
  },
  {
   "property": "C83",
   "status": "proved",
   "theorems": [
    "Norfair.Props.C83_stabilized",
    "Norfair.Props.C83_invariant",
    "Norfair.Props.C83_points_transparent",
    "Norfair.Props.C83_iou_transparent",
    "Norfair.Props.C83_translations",
    "Norfair.Props.C83_iou",
    "Norfair.Props.C83_zoom"
   ],
   "note": "Proved for every distance that is invariant under the transformations used (C83_stabilized), in particular for translations with the distances named. It does not extend to homographies that zoom (C83_zoom)."
  },
  {
   "property": "C84",
   "status": "proved",
   "theorems": [
    "Norfair.Props.C84_bounded"
   ],
   "note": ""
  },
  {
   "property": "C85",
   "status": "proved",
   "theorems": [
    "Norfair.Props.C85_objects",
    "Norfair.Props.C85_returned",
    "Norfair.Props.C85_estimates",
    "Norfair.Props.C85_points_blind"
   ],
   "note": ""
  },
  {
   "property": "C86",
   "status": "proved",
   "theorems": [
    "Norfair.Props.C86_objects",
    "Norfair.Props.C86_returned",
    "Norfair.Props.C86_ties",
    "Norfair.Props.C86_period"
   ],
   "note": ""
  },
  {
   "property": "C87",
   "status": "proved",
   "theorems": [
    "Norfair.Props.C87_follows",
    "Norfair.Props.C87_vanishes",
    "Norfair.Props.C87_filters"
   ],
   "note": ""
  },
  {
   "property": "C88",
   "status": "proved",
   "theorems": [
    "Norfair.Props.C88_frobenius",
    "Norfair.Props.C88_mean_manhattan",
    "Norfair.Props.C88_mean_euclidean",
    "Norfair.Props.C88_never_confused",
    "Norfair.Props.C88_one_call",
    "Norfair.Props.C88_targets"
   ],
   "note": ""
  },
  {
   "property": "C89",
   "status": "proved",
   "theorems": [
    "Norfair.Props.C89_fades",
    "Norfair.Props.C89_speed",
    "Norfair.Props.C89_returned",
    "Norfair.Props.C89_erased",
    "Norfair.Props.C89_default_attenuation",
    "Norfair.Props.C89_absolute_paths",
    "Norfair.Props.C89_grid",
    "Norfair.Props.C89_range",
    "Norfair.Props.C89_untouched",
    "Norfair.Props.C89_between",
    "Norfair.Props.C89_draw_points",
    "Norfair.Props.C89_draw_boxes",
    "Norfair.Props.C89_top_box",
    "Norfair.Props.C89_alpha_blend"
   ],
   "note": ""
  },
  {
   "property": "C90",
   "status": "proved",
   "theorems": [
    "Norfair.Props.C90_points_place",
    "Norfair.Props.C90_calls",
    "Norfair.Props.C90_default_size",
    "Norfair.Props.C90_draw_points",
    "Norfair.Props.C90_draw_boxes",
    "Norfair.Props.C90_above_box",
    "Norfair.Props.C90_circle"
   ],
   "note": ""
  },
  {
   "property": "C91",
   "status": "partial",
   "theorems": [
    "Norfair.Props.C91_objects",
    "Norfair.Props.C91_noFilter_partial",
    "Norfair.Props.C91_inverted",
    "Norfair.Props.C91_kalman_counterexample",
    "Norfair.Props.C91_scores_needed",
    "Norfair.Props.C91_constant_size_partial"
   ],
   "note": "False with a Kalman filter: it extrapolates a shrinking box until it is inverted, and then iou may be 0 / 0 (C91_kalman_counterexample, default arguments). Proved for NoFilter (C91_noFilter_partial, C91_objects), and for all filters if the boxes of a label have a constant size (C91_constant_size_partial); the condition on scores is needed (C91_scores_needed). An inverted box has distance 1 or NaN from all boxes (C91_inverted)."
  },
  {
   "property": "C92",
   "status": "proved",
   "theorems": [
    "Norfair.Props.C92_update",
    "Norfair.Props.C92_trace",
    "Norfair.Props.C92_reachable",
    "Norfair.Props.C92_two_greedy_rounds",
    "Norfair.Props.C92_iou_rowwise",
    "Norfair.Props.C92_iou",
    "Norfair.Props.C92_conflated_labels"
   ],
   "note": ""
  },
  {
   "property": "C93",
   "status": "proved",
   "theorems": [
    "Norfair.Props.C93_relations",
    "Norfair.Props.C93_rigid",
    "Norfair.Props.C93_scores_needed"
   ],
   "note": ""
  },
  {
   "property": "C94",
   "status": "proved",
   "theorems": [
    "Norfair.Props.C94_one_per_target",
    "Norfair.Props.C94_never_switched",
    "Norfair.Props.C94_found_again",
    "Norfair.Props.C94_vectorized_one_per_target",
    "Norfair.Props.C94_vectorized_never_switched",
    "Norfair.Props.C94_vectorized_found_again"
   ],
   "note": ""
  },
  {
   "property": "C95",
   "status": "proved",
   "theorems": [
    "Norfair.Props.C95_draw_points",
    "Norfair.Props.C95_draw_boxes",
    "Norfair.Props.C95_draw_grid",
    "Norfair.Props.C95_paths_call",
    "Norfair.Props.C95_paths_private",
    "Norfair.Props.C95_paths_pictures",
    "Norfair.Props.C95_absolute_paths_call",
    "Norfair.Props.C95_absolute_paths_first",
    "Norfair.Props.C95_absolute_paths_later",
    "Norfair.Props.C95_absolute_paths_witness"
   ],
   "note": ""
  },
  {
   "property": "C96",
   "status": "proved",
   "theorems": [
    "Norfair.Props.C96_call",
    "Norfair.Props.C96_events",
    "Norfair.Props.C96_careful",
    "Norfair.Props.C96_drawings_stay",
    "Norfair.Props.C96_witness"
   ],
   "note": ""
  },
  {
   "property": "C97",
   "status": "proved",
   "theorems": [
    "Norfair.Props.C97_third_round_any",
    "Norfair.Props.C97_third_round"
   ],
   "note": ""
  },
  {
   "property": "C98",
   "status": "proved",
   "theorems": [
    "Norfair.Props.C98_never_switched",
    "Norfair.Props.C98_recognized",
    "Norfair.Props.C98_comes_back",
    "Norfair.Props.C98_glimpse_witness"
   ],
   "note": "That the dead object is the only one of its target is needed: an object that was started by a single detection and died may take the target first (C98_glimpse_witness)."
  },
  {
   "property": "C99",
   "status": "proved",
   "theorems": [
    "Norfair.Props.C99_points",
    "Norfair.Props.C99_points_color",
    "Norfair.Props.C99_boxes"
   ],
   "note": ""
  },
  {
   "property": "C100",
   "status": "proved",
   "theorems": [
    "Norfair.Props.C100_same_decisions",
    "Norfair.Props.C100_points",
    "Norfair.Props.C100_history",
    "Norfair.Props.C100_rounding",
    "Norfair.Props.C100_ties"
   ],
   "note": ""
  },
  {
   "property": "C101",
   "status": "proved",
   "theorems": [
    "Norfair.Props.C101_half_as_many",
    "Norfair.Props.C101_mutually_nearest",
    "Norfair.Props.C101_half_the_gain",
    "Norfair.Props.C101_call",
    "Norfair.Props.C101_bound_attained",
    "Norfair.Props.C101_sum_unbounded"
   ],
   "note": ""
  },
  {
   "property": "C102",
   "status": "proved",
   "theorems": [
    "Norfair.Props.C102_edits",
    "Norfair.Props.C102_by_name",
    "Norfair.Props.C102_keypoints_voting",
    "Norfair.Props.C102_last_detection"
   ],
   "note": ""
  },
  {
   "property": "C103",
   "status": "proved",
   "theorems": [
    "Norfair.Props.C103_returns",
    "Norfair.Props.C103_exact",
    "Norfair.Props.C103_one_per_target",
    "Norfair.Props.C103_never_switched",
    "Norfair.Props.C103_found_again",
    "Norfair.Props.C103_movie",
    "Norfair.Props.C103_unmoved"
   ],
   "note": ""
  },
  {
   "property": "C104",
   "status": "proved",
   "theorems": [
    "Norfair.Props.C104_no_gaps",
    "Norfair.Props.C104_reid_gap"
   ],
   "note": "With ReID there may be gaps (C104_reid_gap)."
  },
  {
   "property": "C105",
   "status": "proved",
   "theorems": [
    "Norfair.Props.C105_boxes",
    "Norfair.Props.C105_sequence",
    "Norfair.Props.C105_read",
    "Norfair.Props.C105_unique",
    "Norfair.Props.C105_no_gaps",
    "Norfair.Props.C105_detections",
    "Norfair.Props.C105_evaluation",
    "Norfair.Props.C105_iou"
   ],
   "note": "With a Kalman filter the tracker itself may raise with iou (C91_kalman_counterexample); the loop adds no exceptions of its own. Sequences of equal name and sequences with exactly one row are excluded from C105_evaluation: C72_same_name, C72_single_prediction."
  },
  {
   "property": "C106",
   "status": "partial",
   "theorems": [
    "Norfair.Props.C106_movie_partial",
    "Norfair.Props.C106_false_estimate",
    "Norfair.Props.C106_false_missed",
    "Norfair.Props.C106_false_filter"
   ],
   "note": "False of the code: C106_false_estimate, C106_false_missed, C106_false_filter. C106_movie_partial: NoFilter, all tracked targets detected in the frames without estimate, which are not the first one and do not follow each other; the estimates returned in these frames are wrong, by exactly the movement stated."
  },
  {
   "property": "C107",
   "status": "partial",
   "theorems": [
    "Norfair.Props.C107_mask_partial",
    "Norfair.Props.C107_false_mask",
    "Norfair.Props.C107_points",
    "Norfair.Props.C107_sequence",
    "Norfair.Props.C107_evaluation",
    "Norfair.Props.C107_homography",
    "Norfair.Props.C107_false_points"
   ],
   "note": "False of the code: C107_false_mask, C107_false_points. C107_mask_partial and C107_points: all boxes begin inside the picture (left and top); boxes may end outside. The rest of the claim (C107_sequence, C107_evaluation, C107_homography) is proved in full."
  },
  {
   "property": "C108",
   "status": "partial",
   "theorems": [
    "Norfair.Props.C108_parameters",
    "Norfair.Props.C108_init",
    "Norfair.Props.C108_pixels_partial",
    "Norfair.Props.C108_false_column",
    "Norfair.Props.C108_lines",
    "Norfair.Props.C108_visible",
    "Norfair.Props.C108_scaled",
    "Norfair.Props.C108_tracker"
   ],
   "note": "False of the code: C108_false_column. C108_pixels_partial: rows agree, columns differ by the width times the first coordinate of the principal point in NDC. The other parts are proved in full."
  },
  {
   "property": "C109",
   "status": "proved",
   "theorems": [
    "Norfair.Props.C109_conversion",
    "Norfair.Props.C109_iou",
    "Norfair.Props.C109_boxes",
    "Norfair.Props.C109_range"
   ],
   "note": ""
  },
  {
   "property": "C110",
   "status": "proved",
   "theorems": [
    "Norfair.Props.C110_collision",
    "Norfair.Props.C110_detections",
    "Norfair.Props.C110_picture",
    "Norfair.Props.C110_seen",
    "Norfair.Props.C110_position",
    "Norfair.Props.C110_embedding"
   ],
   "note": ""
  },
  {
   "property": "C111",
   "status": "proved",
   "theorems": [
    "Norfair.Props.C111_coasts",
    "Norfair.Props.C111_filters",
    "Norfair.Props.C111_hidden",
    "Norfair.Props.C111_vanishes",
    "Norfair.Props.C111_alone",
    "Norfair.Props.C111_found",
    "Norfair.Props.C111_through"
   ],
   "note": ""
  },
  {
   "property": "C112",
   "status": "partial",
   "theorems": [
    "Norfair.Props.C112_unseen_points_partial",
    "Norfair.Props.C112_filters",
    "Norfair.Props.C112_translation",
    "Norfair.Props.C112_homography",
    "Norfair.Props.C112_keypoints_voting",
    "Norfair.Props.C112_leaks"
   ],
   "note": "False in general: what is in a point that is not found in an object's first detection leaks into the estimate of that point after it was found (C112_leaks, from the mask of the first-detection assignment, see C29). Proved for all programs in which every object had all points over the threshold since its creation."
  },
  {
   "property": "C113",
   "status": "partial",
   "theorems": [
    "Norfair.Props.C113_kept_partial",
    "Norfair.Props.C113_returned_partial",
    "Norfair.Props.C113_initialized_partial",
    "Norfair.Props.C113_lost",
    "Norfair.Props.C113_drawn_partial",
    "Norfair.Props.C113_false",
    "Norfair.Props.C113_reid_partial",
    "Norfair.Props.C113_reid_returned_partial",
    "Norfair.Props.C113_false_reid"
   ],
   "note": "False if hit_counter_max < skip_period - 1 (C113_false; C113_lost: then every initialized object is dropped between two detections), and with reid_hit_counter_max already if hit_counter_max = skip_period - 1 (C113_false_reid). Proved for hit_counter_max >= skip_period - 1 without ReID (C113_kept_partial, C113_returned_partial, C113_drawn_partial), for hit_counter_max >= skip_period with ReID (C113_reid_partial, C113_reid_returned_partial), the time of initialization for hit_counter_max >= skip_period."
  },
  {
   "property": "C114",
   "status": "partial",
   "theorems": [
    "Norfair.Props.C114_every_frame_partial",
    "Norfair.Props.C114_raises",
    "Norfair.Props.C114_openpose_partial",
    "Norfair.Props.C114_false"
   ],
   "note": "False of the openpose demo: a frame in which the detector runs and finds nobody is not written (C114_false); what it does instead is C114_openpose_partial. Proved for the loops of the other demos (C114_every_frame_partial, C114_raises)."
  },
  {
   "property": "C115",
   "status": "partial",
   "theorems": [
    "Norfair.Props.C115_centroids_partial",
    "Norfair.Props.C115_no_points",
    "Norfair.Props.C115_persons_partial",
    "Norfair.Props.C115_false_poses",
    "Norfair.Props.C115_false_boxes"
   ],
   "note": "False: the labels are mixed up. Poses (label -1) are compared by centroids (C115_false_poses), boxes of persons (label 0) by votes of the corners, never if the score is at most 0.6 (C115_false_boxes). What the two branches do is proved in full (C115_centroids_partial, C115_persons_partial)."
  },
  {
   "property": "C116",
   "status": "partial",
   "theorems": [
    "Norfair.Props.C116_five_votes_partial",
    "Norfair.Props.C116_same_place_partial",
    "Norfair.Props.C116_any_size",
    "Norfair.Props.C116_blind"
   ],
   "note": "False if points 11 and 15 of the estimate coincide, as they do when neither was found: then nothing is ever matched (C116_blind). Otherwise proved; C116_any_size holds in all cases."
  },
  {
   "property": "C117",
   "status": "partial",
   "theorems": [
    "Norfair.Props.C117_bound_partial",
    "Norfair.Props.C117_false"
   ],
   "note": "False for every video that is not square: width and height are swapped (C117_false). The bound that holds is C117_bound_partial."
  },
  {
   "property": "C118",
   "status": "partial",
   "theorems": [
    "Norfair.Props.C118_from_predictions",
    "Norfair.Props.C118_apart",
    "Norfair.Props.C118_complete_partial",
    "Norfair.Props.C118_false"
   ],
   "note": "False for coordinates beyond a range of 4096, where the class offset does not keep classes apart (C118_false). Completeness is proved for coordinates within the range or agnostic mode, up to 30000 candidates (C118_complete_partial), which the demo meets if the image is not too wide (C123_suppression); the rest without conditions."
  },
  {
   "property": "C119",
   "status": "partial",
   "theorems": [
    "Norfair.Props.C119_back_partial",
    "Norfair.Props.C119_ratio_pad_partial",
    "Norfair.Props.C119_ratio",
    "Norfair.Props.C119_shape",
    "Norfair.Props.C119_false_scaleup",
    "Norfair.Props.C119_false_stretched"
   ],
   "note": "False if images are not scaled up and only the shapes are passed (C119_false_scaleup), and for stretched images (C119_false_stretched). Proved otherwise (C119_back_partial, C119_ratio_pad_partial) and C119_shape for all modes."
  },
  {
   "property": "C120",
   "status": "proved",
   "theorems": [
    "Norfair.Props.C120_follows",
    "Norfair.Props.C120_filters",
    "Norfair.Props.C120_margin",
    "Norfair.Props.C120_settles",
    "Norfair.Props.C120_lag"
   ],
   "note": ""
  },
  {
   "property": "C121",
   "status": "partial",
   "theorems": [
    "Norfair.Props.C121_same",
    "Norfair.Props.C121_fresh_partial",
    "Norfair.Props.C121_false_parent",
    "Norfair.Props.C121_false_suffix"
   ],
   "note": "False if the path of the project contains the name with a number (C121_false_parent), and if the name has a suffix (C121_false_suffix): then an existing directory is returned. Proved otherwise (C121_fresh_partial, C121_same)."
  },
  {
   "property": "C122",
   "status": "partial",
   "theorems": [
    "Norfair.Props.C122_yolo",
    "Norfair.Props.C122_camera",
    "Norfair.Props.C122_boxes",
    "Norfair.Props.C122_nas_partial",
    "Norfair.Props.C122_cars",
    "Norfair.Props.C122_vehicles",
    "Norfair.Props.C122_detectron",
    "Norfair.Props.C122_poses",
    "Norfair.Props.C122_openpose",
    "Norfair.Props.C122_shaped_boxes",
    "Norfair.Props.C122_shaped_centers",
    "Norfair.Props.C122_false_nas",
    "Norfair.Props.C122_false_detectron"
   ],
   "note": "False for YOLO-NAS with centroids, which returns None, so that the tracker never returns an object (C122_false_nas), and for Detectron2, which follows persons as well (C122_false_detectron). Proved for the other demos and modes, without restriction."
  },
  {
   "property": "C123",
   "status": "proved",
   "theorems": [
    "Norfair.Props.C123_cells",
    "Norfair.Props.C123_all",
    "Norfair.Props.C123_expressible",
    "Norfair.Props.C123_range",
    "Norfair.Props.C123_suppression"
   ],
   "note": ""
  },
  {
   "property": "C124",
   "status": "partial",
   "theorems": [
    "Norfair.Props.C124_place_partial",
    "Norfair.Props.C124_shown_partial",
    "Norfair.Props.C124_boxes_partial",
    "Norfair.Props.C124_false_size"
   ],
   "note": "False for every --img-size other than 640: showing the area raises (C124_false_size). Proved for 640 (C124_shown_partial, C124_place_partial, C124_boxes_partial)."
  },
  {
   "property": "C125",
   "status": "partial",
   "theorems": [
    "Norfair.Props.C125_frames",
    "Norfair.Props.C125_outputs_partial",
    "Norfair.Props.C125_false_gap"
   ],
   "note": "False if a frame has no detections: the tracker is not called and the boxes of the last frame are written again (C125_false_gap). What is written is characterised exactly (C125_frames); the claim is proved if every frame has detections (C125_outputs_partial)."
  },
  {
   "property": "C126",
   "status": "partial",
   "theorems": [
    "Norfair.Props.C126_alone_partial",
    "Norfair.Props.C126_motion",
    "Norfair.Props.C126_false_leftover"
   ],
   "note": "False with --mask-detections and --track-boxes: the first mask of a video covers the objects left from the video before (C126_false_leftover). Proved otherwise, and if the video before ends without objects (C126_alone_partial); the masks are characterised exactly (C126_motion)."
  },
  {
   "property": "C127",
   "status": "proved",
   "theorems": [
    "Norfair.Props.C127_objects",
    "Norfair.Props.C127_edge",
    "Norfair.Props.C127_near"
   ],
   "note": ""
  },
  {
   "property": "C128",
   "status": "partial",
   "theorems": [
    "Norfair.Props.C128_same",
    "Norfair.Props.C128_video_partial",
    "Norfair.Props.C128_false_ids"
   ],
   "note": "False for the ids: no id is written, and the pictures are the same if all ids are larger by ten (C128_false_ids). Proved: results without and with video are the same (C128_same), and every pixel of every picture is the one of the frame with the boxes of detections and objects in their colors (C128_video_partial)."
  },
  {
   "property": "C129",
   "status": "partial",
   "theorems": [
    "Norfair.Props.C129_centers_partial",
    "Norfair.Props.C129_boxes_partial",
    "Norfair.Props.C129_to_the_end",
    "Norfair.Props.C129_sized_partial",
    "Norfair.Props.C129_demo",
    "Norfair.Props.C129_false_boxes",
    "Norfair.Props.C129_false_hidden"
   ],
   "note": "False with boxes: the tracker raises for a sequence of proper boxes (C129_false_boxes). False with centers: an object returned by the tracker is not drawn when its point is not live (C129_false_hidden). Proved: with centers every video is processed to its end (C129_to_the_end, C129_demo), with boxes if the boxes of a class have the same size (C129_sized_partial); the frames written are exactly the frames with the objects that have a live point (C129_centers_partial), or with all objects (C129_boxes_partial), of a tracker that gets the converted boxes."
  },
  {
   "property": "C130",
   "status": "partial",
   "theorems": [
    "Norfair.Props.C130_border",
    "Norfair.Props.C130_border_raises",
    "Norfair.Props.C130_to_the_end",
    "Norfair.Props.C130_recognized_partial",
    "Norfair.Props.C130_false_closest",
    "Norfair.Props.C130_false_border",
    "Norfair.Props.C130_demo"
   ],
   "note": "False for border_size 0 or negative: the first frame raises (C130_false_border; C130_border_raises says exactly when). False for the object that looks most alike: an older detection of the new object decides (C130_false_closest). Proved: with a border of at least 1 every video is processed to its end with exactly these embeddings, calls and pictures (C130_to_the_end, C130_demo, C130_border), and a dead object is alive again only in a new object of the same label with a correlation above 1/2 (C130_recognized_partial)."
  },
  {
   "property": "C131",
   "status": "partial",
   "theorems": [
    "Norfair.Props.C131_same_partial",
    "Norfair.Props.C131_kinds",
    "Norfair.Props.C131_hidden",
    "Norfair.Props.C131_to_the_end",
    "Norfair.Props.C131_false_persons"
   ],
   "note": "False for every object: boxes are drawn for labels > 0 and poses have label -1, so objects of class 0, which are persons, are tracked and never drawn (C131_false_persons). Proved: every video is processed to its end (C131_to_the_end), the pictures are exactly the frames with the poses seen and the boxes of other classes (C131_same_partial), objects of class 0 make no difference (C131_hidden), and poses and boxes never mix (C131_kinds)."
  },
  {
   "property": "C132",
   "status": "partial",
   "theorems": [
    "Norfair.Props.C132_open_same_partial",
    "Norfair.Props.C132_open_written",
    "Norfair.Props.C132_period",
    "Norfair.Props.C132_prof_same_partial",
    "Norfair.Props.C132_false_empty",
    "Norfair.Props.C132_open_to_the_end",
    "Norfair.Props.C132_prof_to_the_end",
    "Norfair.Props.C132_false_dropped"
   ],
   "note": "False for every frame: the OpenPose demo does not write frames in which OpenPose was asked and returned None, though the tracker returns objects for them (C132_false_dropped), and process_video raises for a video without frames (C132_false_empty). Proved: both demos process every other video to its end (C132_open_to_the_end, C132_prof_to_the_end), with exactly these pictures (C132_open_same_partial, C132_prof_same_partial), exactly the frames without poses are missing (C132_open_written), and the period does not matter without detections (C132_period)."
  },
  {
   "property": "C133",
   "status": "proved",
   "theorems": [
    "Norfair.Props.C133_yolo4",
    "Norfair.Props.C133_detectron",
    "Norfair.Props.C133_mm",
    "Norfair.Props.C133_yolo7",
    "Norfair.Props.C133_to_the_end",
    "Norfair.Props.C133_faint"
   ],
   "note": ""
  },
  {
   "property": "C134",
   "status": "partial",
   "theorems": [
    "Norfair.Props.C134_yolo7_partial",
    "Norfair.Props.C134_nas_partial",
    "Norfair.Props.C134_sahi_partial",
    "Norfair.Props.C134_false_nas",
    "Norfair.Props.C134_false_track",
    "Norfair.Props.C134_sized_partial",
    "Norfair.Props.C134_nas_sized_partial",
    "Norfair.Props.C134_trackers_partial",
    "Norfair.Props.C134_false_boxes",
    "Norfair.Props.C134_false_stale"
   ],
   "note": "False: with boxes the estimate of an object not seen can get a negative width and the tracker raises (C134_false_boxes); SAHI draws in skipped frames what it detected before (C134_false_stale); YOLO-NAS with anything but bbox tracks and draws nothing (C134_false_nas), and so does YOLOv7 with a value it does not know (C134_false_track). Proved: the pictures are exactly those (C134_yolo7_partial, C134_nas_partial, C134_sahi_partial with the boxes of the last frame looked at), videos in which boxes of a class keep their size are processed to the end (C134_sized_partial, C134_nas_sized_partial), and which trackers can be made (C134_trackers_partial)."
  },
  {
   "property": "C135",
   "status": "partial",
   "theorems": [
    "Norfair.Props.C135_pictures",
    "Norfair.Props.C135_sides",
    "Norfair.Props.C135_to_the_end_partial",
    "Norfair.Props.C135_false_flat"
   ],
   "note": "False: if an object whose corners 1 and 8 coincide is seen twice at the same place, the distance is 0 / 0 and the tracker raises (C135_false_flat, with the default arguments). Proved: the pictures are exactly those, with and without paths (C135_pictures, C135_sides), and every video in which corners 1 and 8 of every seen object differ is processed to the end (C135_to_the_end_partial)."
  },
  {
   "property": "C136",
   "status": "partial",
   "theorems": [
    "Norfair.Props.C136_pictures_partial",
    "Norfair.Props.C136_tracked_partial",
    "Norfair.Props.C136_false_size",
    "Norfair.Props.C136_sized_partial",
    "Norfair.Props.C136_false_flat"
   ],
   "note": "False for every image size but 640: the demo raises in the first frame (C136_false_size). False with the defaults: what is seen in the border below the frame becomes a box without height, and if it is seen twice the distance is 0 / 0 and the tracker raises (C136_false_flat). Proved for image size 640: tracked boxes and pictures are exactly those (C136_pictures_partial, C136_tracked_partial); videos in which the boxes of a class all have the same positive size are processed to the end (C136_sized_partial)."
  },
  {
   "property": "C137",
   "status": "partial",
   "theorems": [
    "Norfair.Props.C137_pictures_partial",
    "Norfair.Props.C137_to_the_end",
    "Norfair.Props.C137_false_homography",
    "Norfair.Props.C137_false_paths",
    "Norfair.Props.C137_false_fixed"
   ],
   "note": "False with paths for a frame without motion, or with --transformation none: the demo raises at the first live object (C137_false_paths). False with the fixed camera without motion (C137_false_fixed) and for every homography, the default transformation (C137_false_homography). Proved: the frames written are exactly those pictures, up to the first such frame, and the end is reached iff there is none and the tracker does not raise (C137_pictures_partial); without paths and fixed camera every frame is written (C137_to_the_end)."
  },
  {
   "property": "C138",
   "status": "proved",
   "theorems": [
    "Norfair.Props.C138_sequence",
    "Norfair.Props.C138_objects"
   ],
   "note": ""
  },
  {
   "property": "C139",
   "status": "partial",
   "theorems": [
    "Norfair.Props.C139_center_raises",
    "Norfair.Props.C139_center_partial",
    "Norfair.Props.C139_byte_same",
    "Norfair.Props.C139_byte_raises",
    "Norfair.Props.C139_byte_partial",
    "Norfair.Props.C139_false_raises"
   ],
   "note": "False: draw_tracked_boxes makes a Drawable of each object, which raises for classes other than Detection and TrackedObject, and both scripts pass objects of their own classes. So they raise as soon as an object is returned (C139_center_raises, C139_byte_raises, witness C139_false_raises). Proved: if no object is ever returned, the results are those without video, and the video has one picture per frame with the boxes of the detections (C139_center_partial, C139_byte_partial)."
  },
  {
   "property": "C140",
   "status": "partial",
   "theorems": [
    "Norfair.Props.C140_pictures_partial",
    "Norfair.Props.C140_to_the_end",
    "Norfair.Props.C140_other",
    "Norfair.Props.C140_tracker",
    "Norfair.Props.C140_false_paths"
   ],
   "note": "False: AbsolutePaths.draw needs a motion for each live object, so the demo raises at the first frame with a live object for which the estimator finds none (witness C140_false_paths; the tracker would go on). Proved: the exact pictures up to that frame, and to the end if there is no such frame (C140_pictures_partial, C140_to_the_end); the frames are unchanged for other values of --track-points (C140_other); the tracker of the demo fits (C140_tracker)."
  },
  {
   "property": "C141",
   "status": "partial",
   "theorems": [
    "Norfair.Props.C141_save_partial",
    "Norfair.Props.C141_save_raises",
    "Norfair.Props.C141_last",
    "Norfair.Props.C141_compute_raises",
    "Norfair.Props.C141_script_partial",
    "Norfair.Props.C141_script_raises",
    "Norfair.Props.C141_false_kept",
    "Norfair.Props.C141_false_stale",
    "Norfair.Props.C141_false_slash"
   ],
   "note": "False in two points: save_metrics without metrics raises after it emptied the old file (C141_false_kept), and sequences given with a slash at the end all have the empty name, so that only the last one has a file and is compared (C141_false_slash); predictions after compute_metrics are not in the text (C141_false_stale). Proved: the exact text and disk for sequences with different names, none with exactly one prediction (C141_script_partial); save_metrics (C141_save_partial, C141_save_raises); any order of calls (C141_last, C141_compute_raises). A sequence with exactly one box in all frames makes the script raise (C141_script_raises)."
  },
  {
   "property": "C142",
   "status": "partial",
   "theorems": [
    "Norfair.Props.C142_same_partial",
    "Norfair.Props.C142_gap",
    "Norfair.Props.C142_to_the_end",
    "Norfair.Props.C142_close",
    "Norfair.Props.C142_false_age"
   ],
   "note": "False for frames without boxes: the tracker is not called for them, they are written without objects, and objects do not age in them (C142_false_age, C142_gap). Proved: the exact pictures, with one call for each frame with boxes (C142_same_partial); at least three keypoints for a match (C142_close); videos of frames of one height are processed to the end (C142_to_the_end)."
  },
  {
   "property": "C143",
   "status": "partial",
   "theorems": [
    "Norfair.Props.C143_nan",
    "Norfair.Props.C143_ratio_partial",
    "Norfair.Props.C143_to_the_end_partial",
    "Norfair.Props.C143_tracker",
    "Norfair.Props.C143_false_nan"
   ],
   "note": "False in general: a box that gets narrower is extrapolated to a negative ratio of sides, and a new box with the opposite area gives 0/0 (C143_false_nan, computed with the default filter of norfair; the script uses the one of filterpy). Proved: exactly when the distance is NaN (C143_nan), the tracker and its distance (C143_tracker), and that nothing raises if all boxes of a sequence have the same ratio of sides, whatever their heights (C143_ratio_partial, C143_to_the_end_partial with the filter of the script)."
  },
  {
   "property": "C144",
   "status": "partial",
   "theorems": [
    "Norfair.Props.C144_center_partial",
    "Norfair.Props.C144_center_raises",
    "Norfair.Props.C144_byte_partial",
    "Norfair.Props.C144_byte_raises",
    "Norfair.Props.C144_false_one"
   ],
   "note": "False in general: with one sequence of exactly one box the script raises and the metrics of all sequences are lost (C144_center_raises, C144_byte_raises for all such cases; C144_false_one). Proved: everything else, for all lists of sequences without such a one, with different names and without directories or files in the way (C144_center_partial, C144_byte_partial); without --make-video."
  },
  {
   "property": "C145",
   "status": "partial",
   "theorems": [
    "Norfair.Props.C145_name",
    "Norfair.Props.C145_folder",
    "Norfair.Props.C145_selected",
    "Norfair.Props.C145_raises",
    "Norfair.Props.C145_script",
    "Norfair.Props.C145_script_selected",
    "Norfair.Props.C145_center_partial",
    "Norfair.Props.C145_false_selected",
    "Norfair.Props.C145_false_default"
   ],
   "note": "False in two points: with --select-sequences names with a slash can be evaluated under the same name or be outside of the folder (C145_false_selected), and the folder cannot be left out (C145_false_default; exactly when: C145_raises). Proved: the name is the last part of what is given (C145_name), the paths in both cases (C145_folder, C145_selected), and each of the three scripts on them (C145_script, C145_script_selected for names without a slash; with boxes by center down to the printed text: C145_center_partial)."
  },
  {
   "property": "C146",
   "status": "partial",
   "theorems": [
    "Norfair.Props.C146_step",
    "Norfair.Props.C146_latest_partial",
    "Norfair.Props.C146_current",
    "Norfair.Props.C146_false_source",
    "Norfair.Props.C146_false_alias"
   ],
   "note": "False in two points: an older micro version or a pre-release with the same major.minor replaces the documentation that has the alias (C146_false_source), and a documentation with a second alias is not found, so that any version takes the alias (C146_false_alias). Proved: the place of the alias after any deployments by the script, by an invariant (C146_step, C146_latest_partial), and what is published (C146_current). What mike does is not in the repository; it is an assumption of the model, made without its source at hand."
  },
  {
   "property": "C147",
   "status": "partial",
   "theorems": [
    "Norfair.Props.C147_links_partial",
    "Norfair.Props.C147_same",
    "Norfair.Props.C147_only_less",
    "Norfair.Props.C147_only_docs",
    "Norfair.Props.C147_false_links"
   ],
   "note": "False for links with docs in them twice, with other quotes, with ./ and by reference (C147_false_links). Proved: nothing but the folder docs of links is taken out (C147_only_docs, C147_only_less), a README without such links stays (C147_same), and no link of the two forms the script looks for goes to docs if none has docs twice (C147_links_partial)."
  }
 ]
}
