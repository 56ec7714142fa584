'MaRC.Utility.C01_invert_samples_mirrors' depends on axioms: [propext, Classical.choice, Quot.sound]
'MaRC.Utility.C01_invert_lines_mirrors' depends on axioms: [propext, Classical.choice, Quot.sound]
'MaRC.Utility.C01_inversions_are_involutions' depends on axioms: [propext, Classical.choice, Quot.sound]
'MaRC.Utility.C01_inversions_commute' depends on axioms: [propext, Classical.choice, Quot.sound]
'MaRC.Utility.C01_wrong_size_rejected' depends on axioms: [propext]
'MaRC.Utility.C01_size_check_wraps' depends on axioms: [propext, Quot.sound]
'MaRC.C02_latitude' depends on axioms: [propext, Classical.choice, Quot.sound]
'MaRC.C02_longitude' depends on axioms: [propext, Classical.choice, Quot.sound]
'MaRC.C02_position_angle' depends on axioms: [propext, Classical.choice, Quot.sound]
'MaRC.Extrema.C03_history' depends on axioms: [propext, Classical.choice, Quot.sound]
'MaRC.Extrema.C03_no_data' depends on axioms: [propext]
'MaRC.Extrema.C03_order_irrelevant' depends on axioms: [propext, Classical.choice, Quot.sound]
'MaRC.Extrema.C03_nan_first_sticks' depends on axioms: [propext]
'MaRC.Extrema.C04_merge_partial' depends on axioms: [propext]
'MaRC.Extrema.C04_violated' depends on axioms: [propext, Quot.sound]
'MaRC.Extrema.C05_in_range' depends on axioms: [propext, Classical.choice, Quot.sound]
'MaRC.Extrema.C05_in_range_nan' depends on axioms: [propext, Classical.choice, Quot.sound]
'MaRC.Extrema.C05_make_double' depends on axioms: [propext, Classical.choice, Quot.sound]
'MaRC.Extrema.C05_make_nan_min' depends on axioms: [propext, Classical.choice, Quot.sound]
'MaRC.Extrema.C05_minimum_integral' depends on axioms: [propext, Classical.choice, Quot.sound]
'MaRC.Extrema.C05_maximum_integral' depends on axioms: [propext, Classical.choice, Quot.sound]
'MaRC.Extrema.C05_maximum_i64_violated' depends on axioms: [propext, Classical.choice, Quot.sound]
'MaRC.Extrema.C05_maximum_i64_partial' depends on axioms: [propext, Classical.choice, Quot.sound]
'MaRC.Extrema.C05_make_ordered' depends on axioms: [propext, Classical.choice, Quot.sound]
'MaRC.Extrema.C05_make_integral' depends on axioms: [propext, Classical.choice, Quot.sound]
'MaRC.Extrema.C05_clip_in_type' depends on axioms: [propext, Classical.choice, Quot.sound]
'MaRC.MapFactory.C06_limits' depends on axioms: [propext, Classical.choice, Quot.sound]
'MaRC.MapFactory.C06_cells' depends on axioms: [propext, Classical.choice, Quot.sound]
'MaRC.MapFactory.C06_cells_each_visited_once' depends on axioms: [propext, Classical.choice, Quot.sound]
'MaRC.MapFactory.C06_converted_limits' depends on axioms: [propext, Classical.choice, Quot.sound]
'MaRC.MapFactory.C06_no_failure' depends on axioms: [propext, Classical.choice, Quot.sound]
'MaRC.MapFactory.C06_i64_violated' depends on axioms: [propext, Classical.choice, Quot.sound]
'MaRC.MapFactory.C07_extrema_over_planes' depends on axioms: [propext, Classical.choice, Quot.sound]
'MaRC.MapFactory.C08_blank_must_fit' depends on axioms: [propext, Classical.choice, Quot.sound]
'MaRC.MapFactory.C08_unplotted_blank' depends on axioms: [propext, Classical.choice, Quot.sound]
'MaRC.MapFactory.C09_one_map' depends on axioms: [propext, Classical.choice, Quot.sound]
'MaRC.MapFactory.C09_planes' depends on axioms: [propext, Classical.choice, Quot.sound]
'MaRC.MapFactory.C09_subscribed' depends on axioms: [propext, Classical.choice, Quot.sound]
'MaRC.MapFactory.C10_strictly_increasing_partial' depends on axioms: [propext, Classical.choice, Quot.sound]
'MaRC.MapFactory.C10_violated' depends on axioms: [propext, Classical.choice, Quot.sound]
'MaRC.Progress.Console.C11_percent_bounds' depends on axioms: [propext, Classical.choice, Quot.sound]
'MaRC.Progress.Console.C11_complete_map' depends on axioms: [propext, Classical.choice, Quot.sound]
'MaRC.Progress.Console.C11_all_planes' depends on axioms: [propext, Classical.choice, Quot.sound]
'MaRC.Projection.C12_cylindrical' depends on axioms: [propext, Classical.choice, Quot.sound]
'MaRC.Projection.C12_mercator' depends on axioms: [propext, Classical.choice, Quot.sound]
'MaRC.Projection.C12_stereographic' depends on axioms: [propext, Classical.choice, Quot.sound]
'MaRC.Projection.C12_orthographic' depends on axioms: [propext, Classical.choice, Quot.sound]
'MaRC.Projection.C13_centric' depends on axioms: [propext, Classical.choice, Quot.sound]
'MaRC.Projection.C13_graphic' depends on axioms: [propext, Classical.choice, Quot.sound]
'MaRC.Projection.C14_range_partial' depends on axioms: [propext, Classical.choice, Quot.sound]
'MaRC.Projection.C14_pixels' depends on axioms: [propext, Classical.choice, Quot.sound]
'MaRC.Projection.C14_direction' depends on axioms: [propext, Classical.choice, Quot.sound]
'MaRC.Projection.C14_mirror' depends on axioms: [propext, Classical.choice, Quot.sound]
'MaRC.Projection.C14_violated' depends on axioms: [propext, Classical.choice, Quot.sound]
'MaRC.Projection.C15_odd' depends on axioms: [propext, Classical.choice, Quot.sound]
'MaRC.Projection.C15_increasing' depends on axioms: [propext, Classical.choice, Quot.sound]
'MaRC.Projection.C15_unique' depends on axioms: [propext, Classical.choice, Quot.sound]
'MaRC.Projection.C15_sphere' depends on axioms: [propext, Classical.choice, Quot.sound]
'MaRC.Projection.C15_plotted_within' depends on axioms: [propext, Classical.choice, Quot.sound]
'MaRC.Projection.C15_plotted' depends on axioms: [propext, Classical.choice, Quot.sound]
'MaRC.Projection.C16_longitudes' depends on axioms: [propext, Classical.choice, Quot.sound]
'MaRC.Projection.C16_symmetric' depends on axioms: [propext, Classical.choice, Quot.sound]
'MaRC.Projection.C17_radius' depends on axioms: [propext, Classical.choice, Quot.sound]
'MaRC.Projection.C17_unique' depends on axioms: [propext, Classical.choice, Quot.sound]
'MaRC.Projection.C17_maximum' depends on axioms: [propext, Classical.choice, Quot.sound]
'MaRC.Projection.C17_plotted' depends on axioms: [propext, Classical.choice, Quot.sound]
'MaRC.Projection.Ortho.C18_viewer' depends on axioms: [propext, Classical.choice, Quot.sound]
'MaRC.Projection.Ortho.C18_plotted' depends on axioms: [propext, Classical.choice, Quot.sound]
'MaRC.Projection.Ortho.C18_center' depends on axioms: [propext, Classical.choice, Quot.sound]
'MaRC.Projection.Ortho.C18_default' depends on axioms: [propext, Classical.choice, Quot.sound]
'MaRC.Projection.Ortho.C18_sees_partial' depends on axioms: [propext, Classical.choice, Quot.sound]
'MaRC.Projection.Ortho.C18_violated' depends on axioms: [propext, Classical.choice, Quot.sound]
'MaRC.Projection.Ortho.C18_violated_instance' depends on axioms: [propext, Classical.choice, Quot.sound]
'MaRC.C19_scale_partial' depends on axioms: [propext, Classical.choice, Quot.sound]
'MaRC.C19_scale_violated' depends on axioms: [propext, Classical.choice, Quot.sound]
'MaRC.C19_too_wide' depends on axioms: [propext, Classical.choice, Quot.sound]
'MaRC.C19_point_violated' depends on axioms: [propext, Classical.choice, Quot.sound]
'MaRC.C19_span' depends on axioms: [propext, Classical.choice, Quot.sound]
'MaRC.C19_fits_partial' depends on axioms: [propext, Classical.choice, Quot.sound]
'MaRC.C19_fits_violated' depends on axioms: [propext, Classical.choice, Quot.sound]
'MaRC.C19_program_ranges' depends on axioms: [propext, Classical.choice, Quot.sound]
'MaRC.C19_floating' depends on axioms: [propext, Classical.choice, Quot.sound]
'MaRC.C20_round_trip' depends on axioms: [propext, Classical.choice, Quot.sound]
'MaRC.C20_quantised' depends on axioms: [propext, Classical.choice, Quot.sound]
'MaRC.C20_none' depends on axioms: [propext, Classical.choice, Quot.sound]
'MaRC.Compositing.C21_first_read' depends on axioms: [propext, Quot.sound]
'MaRC.Compositing.C21_later_not_consulted' depends on axioms: [propext, Quot.sound]
'MaRC.Compositing.C22_mean' depends on axioms: [propext, Classical.choice, Quot.sound]
'MaRC.Compositing.C22_mean_exact' depends on axioms: [propext, Classical.choice, Quot.sound]
'MaRC.Compositing.C22_success' depends on axioms: [propext, Classical.choice, Quot.sound]
'MaRC.Compositing.C22_single_partial' depends on axioms: [propext, Classical.choice, Quot.sound]
'MaRC.Compositing.C22_single_violated' depends on axioms: [propext, Classical.choice, Quot.sound]
'MaRC.Compositing.C23_weighted_mean' depends on axioms: [propext, Classical.choice, Quot.sound]
'MaRC.Compositing.C23_weighted_mean_exact' depends on axioms: [propext, Classical.choice, Quot.sound]
'MaRC.Compositing.C23_equal_weights' depends on axioms: [propext, Classical.choice, Quot.sound]
'MaRC.Compositing.C23_zero_weight_ignored' depends on axioms: [propext, Classical.choice, Quot.sound]
'MaRC.Compositing.C23_zero_weights_last' depends on axioms: [propext, Classical.choice, Quot.sound]
'MaRC.Photo.C24_no_out_of_bounds' depends on axioms: [propext, Classical.choice, Quot.sound]
'MaRC.Photo.C24_nibble_violated' depends on axioms: [propext, Classical.choice, Quot.sound]
'MaRC.Photo.C24_null_config_violated' depends on axioms: [propext]
'MaRC.Photo.C24_constructor_rejects' depends on axioms: [propext, Quot.sound]
'MaRC.Photo.C25_successful_read' depends on axioms: [propext, Classical.choice, Quot.sound]
'MaRC.Photo.C25_datum' depends on axioms: [propext, Classical.choice, Quot.sound]
'MaRC.Photo.C25_readable' depends on axioms: [propext, Classical.choice, Quot.sound]
'MaRC.Photo.C26_violated' depends on axioms: [propext, Classical.choice, Quot.sound]
'MaRC.Photo.C26_mosaic_violated' depends on axioms: [propext, Classical.choice, Quot.sound]
'MaRC.Photo.C26_partial' depends on axioms: [propext, Classical.choice, Quot.sound]
'MaRC.Photo.C27_no_sky_partial' depends on axioms: [propext, Classical.choice, Quot.sound]
'MaRC.Photo.C27_column_partial' depends on axioms: [propext, Quot.sound]
'MaRC.Photo.C27_sky_violated' depends on axioms: [propext, Classical.choice, Quot.sound]
'MaRC.Photo.C27_sky_witness_violated' depends on axioms: [propext, Classical.choice, Quot.sound]
'MaRC.Bilinear.C28_fails_iff' depends on axioms: [propext, Classical.choice, Quot.sound]
'MaRC.Bilinear.C28_local' depends on axioms: [propext, Classical.choice, Quot.sound]
'MaRC.Bilinear.C28_affine' depends on axioms: [propext, Classical.choice, Quot.sound]
'MaRC.Bilinear.C28_constant' depends on axioms: [propext, Classical.choice, Quot.sound]
'MaRC.Bilinear.C28_overshoot' depends on axioms: [propext, Classical.choice, Quot.sound]
'MaRC.Bilinear.C28_hull_violated' depends on axioms: [propext, Classical.choice, Quot.sound]
'MaRC.Bilinear.C28_corner' depends on axioms: [propext, Classical.choice, Quot.sound]
'MaRC.Bilinear.C28_corner_violated' depends on axioms: [propext, Classical.choice, Quot.sound]
'MaRC.Bilinear.C28_right_pair_violated' depends on axioms: [propext, Classical.choice, Quot.sound]
'MaRC.C29_matrix' depends on axioms: [propext, Classical.choice, Quot.sound]
'MaRC.C29_isometry' depends on axioms: [propext, Classical.choice, Quot.sound]
'MaRC.C29_compose' depends on axioms: [propext, Classical.choice, Quot.sound]
'MaRC.C29_inverse' depends on axioms: [propext, Classical.choice, Quot.sound]
'MaRC.C29_orthogonal' depends on axioms: [propext, Classical.choice, Quot.sound]
'MaRC.C29_sense' depends on axioms: [propext, Classical.choice, Quot.sound]
'MaRC.C30_linear_algebra' depends on axioms: [propext, Classical.choice, Quot.sound]
'MaRC.C30_assoc' depends on axioms: [propext, Classical.choice, Quot.sound]
'MaRC.C30_transpose' depends on axioms: [propext, Classical.choice, Quot.sound]
'MaRC.C30_distrib' depends on axioms: [propext, Classical.choice, Quot.sound]
'MaRC.C30_dot' depends on axioms: [propext, Classical.choice, Quot.sound]
'MaRC.C30_initializer' depends on axioms: [propext, Classical.choice, Quot.sound]
'MaRC.C30_unit' depends on axioms: [propext, Classical.choice, Quot.sound]
'MaRC.C30_unit_one_violated' depends on axioms: [propext, Classical.choice, Quot.sound]
'MaRC.C31_image_object_image' depends on axioms: [propext, Classical.choice, Quot.sound]
'MaRC.C31_object_image_object' depends on axioms: [propext, Classical.choice, Quot.sound]
'MaRC.C31_radial' depends on axioms: [propext, Classical.choice, Quot.sound]
'MaRC.RootFind.C32_rejects' depends on axioms: [propext, Classical.choice, Quot.sound]
'MaRC.RootFind.C32_ends' depends on axioms: [propext, Classical.choice, Quot.sound]
'MaRC.RootFind.C32_bracket_partial' depends on axioms: [propext, Classical.choice, Quot.sound]
'MaRC.RootFind.C32_root' depends on axioms: [propext, Classical.choice, Quot.sound]
'MaRC.RootFind.C32_flat_root_throws' depends on axioms: [propext, Classical.choice, Quot.sound]
'MaRC.RootFind.C32_bracket_violated' depends on axioms: [propext, Classical.choice, Quot.sound]
'MaRC.RootFind.C32_guess' depends on axioms: [propext, Classical.choice, Quot.sound]
'MaRC.RootFind.C32_derivative' depends on axioms: [propext, Classical.choice, Quot.sound]
'MaRC.Spheroid.C33_range' depends on axioms: [propext, Classical.choice, Quot.sound]
'MaRC.Spheroid.C33_inverse' depends on axioms: [propext, Classical.choice, Quot.sound]
'MaRC.Spheroid.C33_increasing' depends on axioms: [propext, Classical.choice, Quot.sound]
'MaRC.Spheroid.C33_odd' depends on axioms: [propext, Classical.choice, Quot.sound]
'MaRC.Spheroid.C33_farther' depends on axioms: [propext, Classical.choice, Quot.sound]
'MaRC.Spheroid.C33_sphere' depends on axioms: [propext, Classical.choice, Quot.sound]
'MaRC.Spheroid.C33_double_pole' depends on axioms: [propext, Classical.choice, Quot.sound]
'MaRC.C34_construct' depends on axioms: [propext, Classical.choice, Quot.sound]
'MaRC.Spheroid.C34_surface' depends on axioms: [propext, Classical.choice, Quot.sound]
'MaRC.Spheroid.C34_bounds' depends on axioms: [propext, Classical.choice, Quot.sound]
'MaRC.Spheroid.C34_ends' depends on axioms: [propext, Classical.choice, Quot.sound]
'MaRC.Spheroid.C34_decreasing' depends on axioms: [propext, Classical.choice, Quot.sound]
'MaRC.Spheroid.C34_sphere' depends on axioms: [propext, Classical.choice, Quot.sound]
'MaRC.Spheroid.C35_mu' depends on axioms: [propext, Classical.choice, Quot.sound]
'MaRC.Spheroid.C35_mu0' depends on axioms: [propext, Classical.choice, Quot.sound]
'MaRC.Spheroid.C35_cos_phase' depends on axioms: [propext, Classical.choice, Quot.sound]
'MaRC.Spheroid.C35_bounds' depends on axioms: [propext, Classical.choice, Quot.sound]
'MaRC.Spheroid.C35_divisor' depends on axioms: [propext, Classical.choice, Quot.sound]
'MaRC.Spheroid.C35_center' depends on axioms: [propext, Classical.choice, Quot.sound]
'MaRC.Spheroid.C35_center_flattened' depends on axioms: [propext, Classical.choice, Quot.sound]
'MaRC.Spheroid.C36_order' depends on axioms: [propext, Classical.choice, Quot.sound]
'MaRC.Spheroid.C36_sphere' depends on axioms: [propext, Classical.choice, Quot.sound]
'MaRC.Spheroid.C36_equator' depends on axioms: [propext, Classical.choice, Quot.sound]
'MaRC.Spheroid.C36_pole' depends on axioms: [propext, Classical.choice, Quot.sound]
'MaRC.Spheroid.C37_bad_input' depends on axioms: [propext, Classical.choice, Quot.sound]
'MaRC.Spheroid.C37_miss' depends on axioms: [propext, Classical.choice, Quot.sound]
'MaRC.Spheroid.C37_found' depends on axioms: [propext, Classical.choice, Quot.sound]
'MaRC.Spheroid.C37_found_iff' depends on axioms: [propext, Classical.choice, Quot.sound]
'MaRC.Spheroid.C37_nearer' depends on axioms: [propext, Classical.choice, Quot.sound]
'MaRC.Spheroid.C37_violated' depends on axioms: [propext, Classical.choice, Quot.sound]
'MaRC.Spheroid.C37_instances' depends on axioms: [propext, Classical.choice, Quot.sound]
'MaRC.C38_success' depends on axioms: [propext, Classical.choice, Quot.sound]
'MaRC.C38_roots' depends on axioms: [propext, Classical.choice, Quot.sound]
'MaRC.C38_order' depends on axioms: [propext, Classical.choice, Quot.sound]
'MaRC.C38_violated' depends on axioms: [propext, Classical.choice, Quot.sound]
'MaRC.C38_linear' depends on axioms: [propext, Classical.choice, Quot.sound]
'MaRC.Camera.C39_visible' depends on axioms: [propext, Classical.choice, Quot.sound]
'MaRC.Camera.C39_monotone' depends on axioms: [propext, Classical.choice, Quot.sound]
'MaRC.Camera.C39_limits' depends on axioms: [propext, Classical.choice, Quot.sound]
'MaRC.Camera.C39_limit_checked' depends on axioms: [propext, Classical.choice, Quot.sound]
'MaRC.Camera.C39_nan_violated' depends on axioms: [propext, Classical.choice, Quot.sound]
'MaRC.Camera.C39_occlusion' depends on axioms: [propext, Classical.choice, Quot.sound]
'MaRC.Camera.C40_success' depends on axioms: [propext, Classical.choice, Quot.sound]
'MaRC.Camera.C40_perspective' depends on axioms: [propext, Classical.choice, Quot.sound]
'MaRC.Camera.C40_round_trip_partial' depends on axioms: [propext, Classical.choice, Quot.sound]
'MaRC.Camera.C40_retrograde_violated' depends on axioms: [propext, Classical.choice, Quot.sound]
'MaRC.Camera.C40_instance' depends on axioms: [propext, Classical.choice, Quot.sound]
'MaRC.ViewInput.C41_center' depends on axioms: [propext, Classical.choice, Quot.sound]
'MaRC.ViewInput.C41_axis' depends on axioms: [propext, Classical.choice, Quot.sound]
'MaRC.ViewInput.C41_setup_partial' depends on axioms: [propext, Classical.choice, Quot.sound]
'MaRC.ViewInput.C41_violated' depends on axioms: [propext, Classical.choice, Quot.sound]
'MaRC.ViewSettings.C42_atomic' depends on axioms: [propext, Classical.choice, Quot.sound]
'MaRC.ViewSettings.C42_constants' depends on axioms: [propext, Classical.choice, Quot.sound]
'MaRC.ViewSettings.C42_accepts' depends on axioms: [propext, Classical.choice, Quot.sound]
'MaRC.ViewSettings.C42_rejects' depends on axioms: [propext, Classical.choice, Quot.sound]
'MaRC.ViewSettings.C42_nan_violated' depends on axioms: [propext, Classical.choice, Quot.sound]
'MaRC.ViewSettings.C42_longitude' depends on axioms: [propext, Classical.choice, Quot.sound]
'MaRC.ViewSettings.C42_longitude_violated' depends on axioms: [propext, Classical.choice, Quot.sound]
'MaRC.ViewSettings.C42_pair_violated' depends on axioms: [propext, Classical.choice, Quot.sound]
'MaRC.ViewSettings.C42_pair' depends on axioms: [propext, Classical.choice, Quot.sound]
'MaRC.Projection.C43_cylindrical_partial' depends on axioms: [propext, Classical.choice, Quot.sound]
'MaRC.Projection.C43_edge_violated' depends on axioms: [propext, Classical.choice, Quot.sound]
'MaRC.Projection.C43_edge_instance' depends on axioms: [propext, Classical.choice, Quot.sound]
'MaRC.Projection.C43_wrap_violated' depends on axioms: [propext, Classical.choice, Quot.sound]
'MaRC.Projection.C43_endless_violated' depends on axioms: [propext, Classical.choice, Quot.sound]
'MaRC.Projection.C43_mercator' depends on axioms: [propext, Classical.choice, Quot.sound]
'MaRC.Projection.C43_stereographic' depends on axioms: [propext, Classical.choice, Quot.sound]
'MaRC.Projection.Ortho.C43_orthographic' depends on axioms: [propext, Classical.choice, Quot.sound]
'MaRC.MapParams.C44_string' depends on axioms: [propext, Classical.choice, Quot.sound]
'MaRC.MapParams.C44_real' depends on axioms: [propext, Classical.choice, Quot.sound]
'MaRC.MapParams.C44_blank' depends on axioms: [propext, Classical.choice, Quot.sound]
'MaRC.MapParams.C44_bitpix' depends on axioms: [propext, Classical.choice, Quot.sound]
'MaRC.MapParams.C44_comments' depends on axioms: [propext, Classical.choice, Quot.sound]
'MaRC.MapParams.C45_first_supplied' depends on axioms: [propext, Classical.choice, Quot.sound]
'MaRC.MapParams.C45_populate' depends on axioms: [propext, Classical.choice, Quot.sound]
'MaRC.MapParams.C45_history_partial' depends on axioms: [propext, Classical.choice, Quot.sound]
'MaRC.MapParams.C45_history_blank_partial' depends on axioms: [propext, Quot.sound]
'MaRC.MapParams.C45_history_violated' depends on axioms: [propext, Classical.choice, Quot.sound]
'MaRC.MapParams.C46_first_plane_wins' depends on axioms: [propext, Classical.choice, Quot.sound]
'MaRC.MapParams.C46_violated' depends on axioms: [propext, Classical.choice, Quot.sound]
'MaRC.MapParams.C46_merge_violated' depends on axioms: [propext, Classical.choice, Quot.sound]
'MaRC.MapParams.C46_partial' depends on axioms: [propext, Classical.choice, Quot.sound]
'MaRC.MapParams.C47_bitpix' depends on axioms: [propext, Classical.choice, Quot.sound]
'MaRC.MapParams.C47_invalid_no_effect' depends on axioms: [propext, Classical.choice, Quot.sound]
'MaRC.MapParams.C47_plane' depends on axioms: [propext, Classical.choice, Quot.sound]
'MaRC.Fits.C48_history' depends on axioms: [propext, Classical.choice, Quot.sound]
'MaRC.Fits.C48_positions' depends on axioms: [propext, Quot.sound]
'MaRC.Fits.C48_all_planes' depends on axioms: [propext, Classical.choice, Quot.sound]
'MaRC.Fits.C48_one_by_one_violated' depends on axioms: [propext]
'MaRC.Fits.C48_read' depends on axioms: [propext, Classical.choice, Quot.sound]
'MaRC.Fits.C48_cube_violated' depends on axioms: [propext, Quot.sound]
'MaRC.MapCommand.C49_file' depends on axioms: [propext, Classical.choice, Quot.sound]
'MaRC.MapCommand.C49_keywords' depends on axioms: [propext, Classical.choice, Quot.sound]
'MaRC.MapCommand.C49_number_of_digits' depends on axioms: [propext, Classical.choice, Quot.sound]
'MaRC.CommandLine.C50_operands' depends on axioms: [propext, Classical.choice, Quot.sound]
'MaRC.CommandLine.C50_end_of_options' depends on axioms: [propext, Classical.choice, Quot.sound]
'MaRC.CommandLine.C50_option' depends on axioms: [propext, Classical.choice, Quot.sound]
'MaRC.CommandLine.C50_complete' depends on axioms: [propext, Classical.choice, Quot.sound]
'MaRC.Parser.C51_accepts' depends on axioms: [propext, Classical.choice, Quot.sound]
'MaRC.Parser.C51_completes' depends on axioms: [propext, Classical.choice, Quot.sound]
'MaRC.Parser.C51_rejects_nan' depends on axioms: [propext, Classical.choice, Quot.sound]
'MaRC.Parser.C51_api_violated' depends on axioms: [propext, Classical.choice, Quot.sound]
'MaRC.Parser.C52_circle' depends on axioms: [propext, Classical.choice, Quot.sound]
'MaRC.Parser.C52_circle_rounded' depends on axioms: [propext, Classical.choice, Quot.sound]
'MaRC.Parser.C52_circle_violated' depends on axioms: [propext, Classical.choice, Quot.sound]
'MaRC.Parser.C52_longitude' depends on axioms: [propext, Classical.choice, Quot.sound]
'MaRC.Parser.C52_longitude_rejects' depends on axioms: [propext, Classical.choice, Quot.sound]
'MaRC.Parser.C52_prime_meridian_violated' depends on axioms: [propext, Classical.choice, Quot.sound]
'MaRC.Parser.C52_nan_violated' depends on axioms: [propext, Classical.choice, Quot.sound]
'MaRC.Parser.C52_latitude' depends on axioms: [propext, Classical.choice, Quot.sound]
'MaRC.Parser.C52_position_angle' depends on axioms: [propext, Classical.choice, Quot.sound]
'MaRC.Calc.C53_value' depends on axioms: [propext, Classical.choice, Quot.sound]
'MaRC.Calc.C53_unambiguous' depends on axioms: [propext, Classical.choice, Quot.sound]
'MaRC.Calc.C53_text' depends on axioms: [propext, Classical.choice, Quot.sound]
'MaRC.Calc.C53_unspaced_violated' depends on axioms: [propext, Classical.choice, Quot.sound]
'MaRC.Calc.C53_sign_violated' depends on axioms: [propext, Classical.choice, Quot.sound]
'MaRC.Calc.C53_sign_general' depends on axioms: [propext, Classical.choice, Quot.sound]
'MaRC.Calc.C53_no_variables' depends on axioms: [propext, Classical.choice, Quot.sound]
'MaRC.Calc.C54_first_wins' depends on axioms: [propext, Quot.sound]
'MaRC.Calc.C54_builtins_kept' depends on axioms: [propext, Quot.sound]
'MaRC.Factory.C55_violated' depends on axioms: [propext, Classical.choice, Quot.sound]
'MaRC.Factory.C55_maximum_partial' depends on axioms: [propext, Classical.choice, Quot.sound]
'MaRC.Factory.C55_file_extrema_violated' depends on axioms: [propext, Classical.choice, Quot.sound]
'MaRC.Factory.C55_photos' depends on axioms: [propext, Quot.sound]
'MaRC.C56_graphic' depends on axioms: [propext, Classical.choice, Quot.sound]
'MaRC.C56_longitude' depends on axioms: [propext, Classical.choice, Quot.sound]
'MaRC.C56_longitude_not_finite' depends on axioms: [propext, Classical.choice, Quot.sound]
'MaRC.C56_latitude' depends on axioms: [propext, Classical.choice, Quot.sound]
'MaRC.C56_nan_violated' depends on axioms: [propext, Classical.choice, Quot.sound]
'MaRC.Factory.C57_pixels' depends on axioms: [propext, Classical.choice, Quot.sound]
'MaRC.Factory.C57_once' depends on axioms: [propext, Classical.choice, Quot.sound]
'MaRC.Factory.C57_mismatch' depends on axioms: [propext, Classical.choice, Quot.sound]
'MaRC.Factory.C57_success' depends on axioms: [propext, Classical.choice, Quot.sound]
'MaRC.MapCommand.C58_all_run' depends on axioms: [propext, Quot.sound]
'MaRC.MapCommand.C58_exception_stops' depends on axioms: [propext, Quot.sound]
'MaRC.MapCommand.C58_parse_first' depends on axioms: [propext, Quot.sound]
'MaRC.MapCommand.C58_success' depends on axioms: [propext, Classical.choice, Quot.sound]
'MaRC.C59_symmetric' depends on axioms: [propext, Classical.choice, Quot.sound]
'MaRC.C59_reflexive' depends on axioms: [propext, Classical.choice, Quot.sound]
'MaRC.C59_nan' depends on axioms: [propext, Classical.choice, Quot.sound]
'MaRC.C59_monotone' depends on axioms: [propext, Classical.choice, Quot.sound]
'MaRC.C59_close_exact' depends on axioms: [propext, Classical.choice, Quot.sound]
'MaRC.C59_close_partial' depends on axioms: [propext, Classical.choice, Quot.sound]
'MaRC.C59_close_violated' depends on axioms: [propext, Classical.choice, Quot.sound]
'MaRC.C59_zero_symmetric' depends on axioms: [propext, Classical.choice, Quot.sound]
'MaRC.C59_zero' depends on axioms: [propext, Classical.choice, Quot.sound]
'MaRC.C59_sign' depends on axioms: [propext, Classical.choice, Quot.sound]
'MaRC.Parser.C60_order' depends on axioms: [propext]
'MaRC.Parser.C60_whole_limits_partial' depends on axioms: [propext, Classical.choice, Quot.sound]
'MaRC.Parser.C60_violated' depends on axioms: [propext, Classical.choice, Quot.sound]
'MaRC.Parser.C61_own_limits_partial' depends on axioms: [propext, Quot.sound]
'MaRC.Parser.C61_violated' depends on axioms: [propext, Quot.sound]
'MaRC.MapCommand.C62_no_data_partial' depends on axioms: [propext, Classical.choice, Quot.sound]
'MaRC.MapCommand.C62_violated' depends on axioms: [propext, Classical.choice, Quot.sound]
'MaRC.Parser.C63_whole_partial' depends on axioms: [propext, Quot.sound]
'MaRC.Parser.C63_rest_ignored' depends on axioms: [propext, Quot.sound]
'MaRC.Parser.C63_violated' depends on axioms: [propext, Classical.choice, Quot.sound]
'MaRC.Parser.C63_extent' depends on axioms: [propext]
'MaRC.Parser.C64_explicit_partial' depends on axioms: [propext, Quot.sound]
'MaRC.Parser.C64_violated' depends on axioms: [propext, Quot.sound]
'MaRC.Parser.C64_projection_violated' depends on axioms: [propext, Quot.sound]
'MaRC.Parser.C65_grids' depends on axioms: [propext, Quot.sound]
'MaRC.Parser.C65_both_partial' depends on axioms: [propext, Quot.sound]
'MaRC.Parser.C65_violated' depends on axioms: [propext, Quot.sound]
'MaRC.Parser.C66_numbers' depends on axioms: [propext, Classical.choice, Quot.sound]
'MaRC.Parser.C66_accepted' depends on axioms: [propext, Classical.choice, Quot.sound]
'MaRC.Parser.C67_blank' depends on axioms: [propext, Classical.choice, Quot.sound]
'MaRC.Parser.C67_usable' depends on axioms: [propext, Classical.choice, Quot.sound]
'MaRC.Parser.C67_no_type_violated' depends on axioms: [propext]
'MaRC.ViewInput.C68_axis_iff' depends on axioms: [propext, Classical.choice, Quot.sound]
'MaRC.ViewInput.C68_axis_violated' depends on axioms: [propext, Classical.choice, Quot.sound]
'MaRC.ViewInput.C68_axis_scale' depends on axioms: [propext, Classical.choice, Quot.sound]
'MaRC.ViewInput.C68_center' depends on axioms: [propext, Classical.choice, Quot.sound]
'MaRC.ViewInput.C68_setup_km' depends on axioms: [propext, Classical.choice, Quot.sound]
'MaRC.ViewInput.C68_setup_focal' depends on axioms: [propext, Classical.choice, Quot.sound]
'MaRC.ViewInput.C68_center_image' depends on axioms: [propext, Classical.choice, Quot.sound]
'MaRC.ViewInput.C68_pole' depends on axioms: [propext, Classical.choice, Quot.sound]
'MaRC.Camera.C69_axis_violated' depends on axioms: [propext, Classical.choice, Quot.sound]
'MaRC.Camera.C69_partial' depends on axioms: [propext, Classical.choice, Quot.sound]
'MaRC.Projection.Ortho.C70_visible' depends on axioms: [propext, Classical.choice, Quot.sound]
'MaRC.Projection.Ortho.C70_middle' depends on axioms: [propext, Classical.choice, Quot.sound]
'MaRC.Projection.Ortho.C70_accepted_partial' depends on axioms: [propext, Classical.choice, Quot.sound]
'MaRC.Projection.Ortho.C70_violated' depends on axioms: [propext, Classical.choice, Quot.sound]
'MaRC.Projection.Ortho.C70_polar_partial' depends on axioms: [propext, Classical.choice, Quot.sound]
'MaRC.Projection.C71_cylindrical_only' depends on axioms: [propext, Classical.choice, Quot.sound]
'MaRC.Projection.C71_cylindrical_latitudes' depends on axioms: [propext, Classical.choice, Quot.sound]
'MaRC.Projection.C71_cylindrical_longitudes_partial' depends on axioms: [propext, Classical.choice, Quot.sound]
'MaRC.Projection.C71_mercator_only' depends on axioms: [propext, Classical.choice, Quot.sound]
'MaRC.Projection.C71_mercator_latitudes' depends on axioms: [propext, Classical.choice, Quot.sound]
'MaRC.Projection.C71_mercator_longitudes_partial' depends on axioms: [propext, Classical.choice, Quot.sound]
'MaRC.Projection.C71_meridian_violated' depends on axioms: [propext, Classical.choice, Quot.sound]
'MaRC.Projection.Ortho.C72_near' depends on axioms: [propext, Classical.choice, Quot.sound]
'MaRC.Projection.Ortho.C72_lines_partial' depends on axioms: [propext, Classical.choice, Quot.sound]
'MaRC.Projection.Ortho.C72_prograde' depends on axioms: [propext, Classical.choice, Quot.sound]
'MaRC.Projection.Ortho.C72_violated' depends on axioms: [propext, Classical.choice, Quot.sound]
'MaRC.Projection.Ortho.C72_polar_partial' depends on axioms: [propext, Classical.choice, Quot.sound]
'MaRC.Projection.Ortho.C72_equator_violated' depends on axioms: [propext, Classical.choice, Quot.sound]
'MaRC.Projection.C73_drawn_partial' depends on axioms: [propext, Classical.choice, Quot.sound]
'MaRC.Projection.C73_mirrored_violated' depends on axioms: [propext, Classical.choice, Quot.sound]
'MaRC.Projection.C73_opposite_violated' depends on axioms: [propext, Classical.choice, Quot.sound]
'MaRC.Execute.C74_type' depends on axioms: [propext]
'MaRC.Execute.C74_parameters' depends on axioms: [propext, Classical.choice, Quot.sound]
'MaRC.Execute.C74_file' depends on axioms: [propext, Classical.choice, Quot.sound]
'MaRC.Execute.C74_header' depends on axioms: [propext, Classical.choice, Quot.sound]
'MaRC.Execute.C74_data_partial' depends on axioms: [propext, Classical.choice, Quot.sound]
'MaRC.Execute.C74_grid' depends on axioms: [propext, Classical.choice, Quot.sound]
'MaRC.Execute.C74_unwritten_violated' depends on axioms: [propext, Classical.choice, Quot.sound]
'MaRC.Execute.C75_other_files' depends on axioms: [propext, Classical.choice, Quot.sound]
'MaRC.Execute.C75_refused_partial' depends on axioms: [propext, Classical.choice, Quot.sound]
'MaRC.Execute.C75_returned' depends on axioms: [propext, Classical.choice, Quot.sound]
'MaRC.Execute.C75_violated' depends on axioms: [propext, Classical.choice, Quot.sound]
'MaRC.Execute.C75_source_violated' depends on axioms: [propext, Classical.choice, Quot.sound]
'MaRC.Execute.C76_scaling' depends on axioms: [propext, Classical.choice, Quot.sound]
'MaRC.Execute.C76_physical_partial' depends on axioms: [propext, Classical.choice, Quot.sound]
'MaRC.Execute.C76_extrema_violated' depends on axioms: [propext, Classical.choice, Quot.sound]
'MaRC.Execute.C76_no_blank_violated' depends on axioms: [propext, Classical.choice, Quot.sound]
'MaRC.Execute.C76_history_partial' depends on axioms: [propext, Classical.choice, Quot.sound]
'MaRC.Execute.C76_longlong_violated' depends on axioms: [propext, Classical.choice, Quot.sound]
'MaRC.Execute.C77_user_text' depends on axioms: [propext, Classical.choice, Quot.sound]
'MaRC.Execute.C77_user_comments' depends on axioms: [propext, Classical.choice, Quot.sound]
'MaRC.Execute.C77_user_blank' depends on axioms: [propext, Classical.choice, Quot.sound]
'MaRC.Execute.C77_scale_violated' depends on axioms: [propext, Classical.choice, Quot.sound]
'MaRC.Execute.C77_observation_violated' depends on axioms: [propext, Classical.choice, Quot.sound]
'MaRC.Parser.C78_projection_partial' depends on axioms: [propext, Classical.choice, Quot.sound]
'MaRC.Parser.C78_cylindrical' depends on axioms: [propext, Classical.choice, Quot.sound]
'MaRC.Parser.C78_accepted' depends on axioms: [propext, Classical.choice, Quot.sound]
'MaRC.C79_violated' depends on axioms: [propext, Classical.choice, Quot.sound]
'MaRC.C79_blank_violated' depends on axioms: [propext, Classical.choice, Quot.sound]
'MaRC.C79_bound_partial' depends on axioms: [propext, Classical.choice, Quot.sound]
'MaRC.C79_read_partial' depends on axioms: [propext, Classical.choice, Quot.sound]
'MaRC.Parser.C80_options_partial' depends on axioms: [propext, Classical.choice, Quot.sound]
'MaRC.Parser.C80_plane_partial' depends on axioms: [propext, Classical.choice, Quot.sound]
'MaRC.Parser.C80_accepts' depends on axioms: [propext, Classical.choice, Quot.sound]
'MaRC.Parser.C80_rejects_partial' depends on axioms: [propext, Classical.choice, Quot.sound]
'MaRC.Parser.C80_lens_violated' depends on axioms: [propext, Classical.choice, Quot.sound]
'MaRC.Parser.C80_center_violated' depends on axioms: [propext, Classical.choice, Quot.sound]
'MaRC.Parser.C80_minnaert_violated' depends on axioms: [propext, Classical.choice, Quot.sound]
'MaRC.Parser.C80_user_nibble_partial' depends on axioms: [propext, Quot.sound]
'MaRC.Parser.C80_user_nibble_violated' depends on axioms: [propext, Quot.sound]
'MaRC.Parser.C80_ortho_center' depends on axioms: [propext, Classical.choice, Quot.sound]
'MaRC.C80_sky_default_violated' depends on axioms: [propext, Classical.choice, Quot.sound]
'MaRC.Projection.C81_mercator' depends on axioms: [propext, Classical.choice, Quot.sound]
'MaRC.Projection.C81_stereographic_conformal' depends on axioms: [propext, Classical.choice, Quot.sound]
'MaRC.Projection.C81_stereographic_partial' depends on axioms: [propext, Classical.choice, Quot.sound]
'MaRC.Projection.C81_stereographic_violated' depends on axioms: [propext, Classical.choice, Quot.sound]
'MaRC.C82_shown' depends on axioms: [propext, Classical.choice, Quot.sound]
'MaRC.C82_complete' depends on axioms: [propext, Classical.choice, Quot.sound]
'MaRC.C82_made' depends on axioms: [propext, Classical.choice, Quot.sound]
'MaRC.C83_latitude' depends on axioms: [propext, Classical.choice, Quot.sound]
'MaRC.C83_longitude' depends on axioms: [propext, Classical.choice, Quot.sound]
'MaRC.C83_empty_violated' depends on axioms: [propext, Classical.choice, Quot.sound]
'MaRC.Source.C84_texts_partial' depends on axioms: [propext, Classical.choice, Quot.sound]
'MaRC.Source.C84_equinox_partial' depends on axioms: [propext, Classical.choice, Quot.sound]
'MaRC.Source.C84_blank_partial' depends on axioms: [propext, Classical.choice, Quot.sound]
'MaRC.Source.C84_type_partial' depends on axioms: [propext, Classical.choice, Quot.sound]
'MaRC.Source.C84_header_partial' depends on axioms: [propext, Classical.choice, Quot.sound]
'MaRC.Source.C84_damaged' depends on axioms: [propext, Classical.choice, Quot.sound]
'MaRC.Source.C84_mosaic' depends on axioms: [propext, Classical.choice, Quot.sound]
'MaRC.Source.C84_mosaic_violated' depends on axioms: [propext, Classical.choice, Quot.sound]
'MaRC.Source.C85_cells_partial' depends on axioms: [propext, Classical.choice, Quot.sound]
'MaRC.Source.C85_whole_partial' depends on axioms: [propext, Classical.choice, Quot.sound]
'MaRC.Source.C85_scaled_violated' depends on axioms: [propext, Classical.choice, Quot.sound]
'MaRC.Source.C85_blank_violated' depends on axioms: [propext, Classical.choice, Quot.sound]
'MaRC.Source.C85_flat_field_violated' depends on axioms: [propext, Classical.choice, Quot.sound]
'MaRC.Source.C85_type_violated' depends on axioms: [propext, Classical.choice, Quot.sound]
'MaRC.Props.C86_layout' depends on axioms: [propext, Classical.choice, Quot.sound]
'MaRC.Props.C86_note_violated' depends on axioms: [propext, Classical.choice, Quot.sound]
'MaRC.Props.C86_tight_violated' depends on axioms: [propext, Classical.choice, Quot.sound]
'MaRC.Props.C86_empty_text_violated' depends on axioms: [propext, Classical.choice, Quot.sound]
'MaRC.Props.C86_function_case_violated' depends on axioms: [propext, Classical.choice, Quot.sound]
'MaRC.Props.C86_crlf_violated' depends on axioms: [propext, Classical.choice, Quot.sound]
'MaRC.Props.C87_one_reading' depends on axioms: [propext, Classical.choice, Quot.sound]
'MaRC.Props.C87_unique' depends on axioms: [propext, Classical.choice, Quot.sound]
'MaRC.Props.C87_refused' depends on axioms: [propext, Classical.choice, Quot.sound]
'MaRC.Props.C87_user_violated' depends on axioms: [propext, Classical.choice, Quot.sound]
'MaRC.Props.C87_ortho_violated' depends on axioms: [propext, Classical.choice, Quot.sound]
'MaRC.Props.C87_polar_violated' depends on axioms: [propext, Classical.choice, Quot.sound]
'MaRC.Props.C87_integer_violated' depends on axioms: [propext, Classical.choice, Quot.sound]
'MaRC.Props.C88_commands_partial' depends on axioms: [propext, Classical.choice, Quot.sound]
'MaRC.Props.C88_first_partial' depends on axioms: [propext, Classical.choice, Quot.sound]
'MaRC.Props.C88_defaults' depends on axioms: [propext, Classical.choice, Quot.sound]
'MaRC.Source.C89_cells' depends on axioms: [propext, Classical.choice, Quot.sound]
'MaRC.Source.C89_missing' depends on axioms: [propext, Classical.choice, Quot.sound]
'MaRC.Source.C89_physical' depends on axioms: [propext, Classical.choice, Quot.sound]
'MaRC.Source.C89_double' depends on axioms: [propext, Classical.choice, Quot.sound]
'MaRC.Program.C90_maps' depends on axioms: [propext, Classical.choice, Quot.sound]
'MaRC.Program.C90_other_files' depends on axioms: [propext, Classical.choice, Quot.sound]
'MaRC.Program.C90_refused' depends on axioms: [propext, Classical.choice, Quot.sound]
'MaRC.Program.C90_command_line' depends on axioms: [propext, Classical.choice, Quot.sound]
'MaRC.Program.C90_photos' depends on axioms: [propext, Classical.choice, Quot.sound]
'MaRC.Program.C91_data_partial' depends on axioms: [propext, Classical.choice, Quot.sound]
'MaRC.Program.C91_mosaic_violated' depends on axioms: [propext, Classical.choice, Quot.sound]
'MaRC.Props.C92_accepted' depends on axioms: [propext, Classical.choice, Quot.sound]
'MaRC.Props.C92_commands' depends on axioms: [propext, Classical.choice, Quot.sound]
'MaRC.Props.C92_refused_partial' depends on axioms: [propext, Classical.choice, Quot.sound]
'MaRC.Props.C92_accepted_iff_partial' depends on axioms: [propext, Classical.choice, Quot.sound]
'MaRC.Props.C92_interval_violated' depends on axioms: [propext, Classical.choice, Quot.sound]
'MaRC.C93_emission' depends on axioms: [propext, Classical.choice, Quot.sound]
'MaRC.C93_phase' depends on axioms: [propext, Classical.choice, Quot.sound]
'MaRC.C93_incidence' depends on axioms: [propext, Classical.choice, Quot.sound]
'MaRC.C94_emission_partial' depends on axioms: [propext, Classical.choice, Quot.sound]
'MaRC.C94_phase_partial' depends on axioms: [propext, Classical.choice, Quot.sound]
'MaRC.C94_emission_violated' depends on axioms: [propext, Classical.choice, Quot.sound]
'MaRC.C94_emission_read_partial' depends on axioms: [propext, Classical.choice, Quot.sound]
'MaRC.C94_phase_read_partial' depends on axioms: [propext, Classical.choice, Quot.sound]
'MaRC.C94_phase_violated' depends on axioms: [propext, Classical.choice, Quot.sound]
'MaRC.C94_blank_violated' depends on axioms: [propext, Classical.choice, Quot.sound]
'MaRC.Program.C95_computed' depends on axioms: [propext, Classical.choice, Quot.sound]
'MaRC.Program.C95_type_needed' depends on axioms: [propext, Classical.choice, Quot.sound]
'MaRC.Program.C95_bytes_needed' depends on axioms: [propext, Classical.choice, Quot.sound]
'MaRC.C96_graphic_lines' depends on axioms: [propext, Classical.choice, Quot.sound]
'MaRC.C96_mercator_samples' depends on axioms: [propext, Classical.choice, Quot.sound]
'MaRC.C96_centric' depends on axioms: [propext, Classical.choice, Quot.sound]
'MaRC.C96_longitudes' depends on axioms: [propext, Classical.choice, Quot.sound]
'MaRC.C96_graphic' depends on axioms: [propext, Classical.choice, Quot.sound]
'MaRC.C96_lines' depends on axioms: [propext, Classical.choice, Quot.sound]
'MaRC.C96_samples' depends on axioms: [propext, Classical.choice, Quot.sound]
'MaRC.C96_mercator' depends on axioms: [propext, Classical.choice, Quot.sound]
'MaRC.C97_latitude' depends on axioms: [propext, Classical.choice, Quot.sound]
'MaRC.C97_even' depends on axioms: [propext, Classical.choice, Quot.sound]
'MaRC.C97_longitude' depends on axioms: [propext, Classical.choice, Quot.sound]
'MaRC.C97_mercator_longitude' depends on axioms: [propext, Classical.choice, Quot.sound]
'MaRC.Spheroid.C98_flattening' depends on axioms: [propext, Classical.choice, Quot.sound]
'MaRC.Spheroid.C98_eccentricity' depends on axioms: [propext, Classical.choice, Quot.sound]
'MaRC.Spheroid.C98_foci' depends on axioms: [propext, Classical.choice, Quot.sound]
'MaRC.Spheroid.C98_given' depends on axioms: [propext, Classical.choice, Quot.sound]
'MaRC.Scan.C99_matches' depends on axioms: [propext, Classical.choice, Quot.sound]
'MaRC.Scan.C99_line' depends on axioms: [propext, Classical.choice, Quot.sound]
'MaRC.Scan.C99_end' depends on axioms: [propext, Classical.choice, Quot.sound]
'MaRC.Scan.C99_column_partial' depends on axioms: [propext, Classical.choice, Quot.sound]
'MaRC.Scan.C99_column_violated' depends on axioms: [propext, Classical.choice, Quot.sound]
'MaRC.Scan.C99_indented_violated' depends on axioms: [propext, Classical.choice, Quot.sound]
'MaRC.Scan.C99_line_violated' depends on axioms: [propext, Classical.choice, Quot.sound]
'MaRC.C100_body_partial' depends on axioms: [propext, Classical.choice, Quot.sound]
'MaRC.C100_sky_partial' depends on axioms: [propext, Classical.choice, Quot.sound]
'MaRC.C100_mask' depends on axioms: [propext, Classical.choice, Quot.sound]
'MaRC.C100_axis_violated' depends on axioms: [propext, Classical.choice, Quot.sound]
'MaRC.C100_exact_partial' depends on axioms: [propext, Classical.choice, Quot.sound]
