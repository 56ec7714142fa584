{
 "claims": [
  {
   "property": "C01",
   "status": "proved",
   "theorems": [
    "MaRC.Utility.C01_invert_samples_mirrors",
    "MaRC.Utility.C01_invert_lines_mirrors",
    "MaRC.Utility.C01_inversions_are_involutions",
    "MaRC.Utility.C01_inversions_commute",
    "MaRC.Utility.C01_wrong_size_rejected",
    "MaRC.Utility.C01_size_check_wraps"
   ],
   "note": "C01_size_check_wraps shows the size test itself wraps modulo 2^64."
  },
  {
   "property": "C02",
   "status": "proved",
   "theorems": [
    "MaRC.C02_latitude",
    "MaRC.C02_longitude",
    "MaRC.C02_position_angle"
   ],
   "note": ""
  },
  {
   "property": "C03",
   "status": "proved",
   "theorems": [
    "MaRC.Extrema.C03_history",
    "MaRC.Extrema.C03_no_data",
    "MaRC.Extrema.C03_order_irrelevant",
    "MaRC.Extrema.C03_nan_first_sticks"
   ],
   "note": "C03_nan_first_sticks shows the NaN hypothesis is needed."
  },
  {
   "property": "C04",
   "status": "partial",
   "theorems": [
    "MaRC.Extrema.C04_merge_partial",
    "MaRC.Extrema.C04_violated"
   ],
   "note": "False of the code when the destination minimum is unset (C04_violated); proved otherwise."
  },
  {
   "property": "C05",
   "status": "partial",
   "theorems": [
    "MaRC.Extrema.C05_in_range",
    "MaRC.Extrema.C05_in_range_nan",
    "MaRC.Extrema.C05_make_double",
    "MaRC.Extrema.C05_make_nan_min",
    "MaRC.Extrema.C05_minimum_integral",
    "MaRC.Extrema.C05_maximum_integral",
    "MaRC.Extrema.C05_maximum_i64_violated",
    "MaRC.Extrema.C05_maximum_i64_partial",
    "MaRC.Extrema.C05_make_ordered",
    "MaRC.Extrema.C05_make_integral",
    "MaRC.Extrema.C05_clip_in_type"
   ],
   "note": "Proved for double and the integer types of at most 32 bits; for 64-bit integers the upper clip is undefined behaviour (C05_maximum_i64_violated). A minimum above an integer type's range, or a maximum below it, is undefined behaviour."
  },
  {
   "property": "C06",
   "status": "partial",
   "theorems": [
    "MaRC.MapFactory.C06_limits",
    "MaRC.MapFactory.C06_cells",
    "MaRC.MapFactory.C06_cells_each_visited_once",
    "MaRC.MapFactory.C06_converted_limits",
    "MaRC.MapFactory.C06_no_failure",
    "MaRC.MapFactory.C06_i64_violated"
   ],
   "note": "Proved for 8/16/32-bit integer, float and double maps; for 64-bit integer maps without a user maximum the code runs into undefined behaviour (C06_i64_violated). The cell characterisation C06_cells holds for every type whenever a map is returned."
  },
  {
   "property": "C07",
   "status": "proved",
   "theorems": [
    "MaRC.MapFactory.C07_extrema_over_planes"
   ],
   "note": ""
  },
  {
   "property": "C08",
   "status": "proved",
   "theorems": [
    "MaRC.MapFactory.C08_blank_must_fit",
    "MaRC.MapFactory.C08_unplotted_blank"
   ],
   "note": ""
  },
  {
   "property": "C09",
   "status": "proved",
   "theorems": [
    "MaRC.MapFactory.C09_one_map",
    "MaRC.MapFactory.C09_planes",
    "MaRC.MapFactory.C09_subscribed"
   ],
   "note": ""
  },
  {
   "property": "C10",
   "status": "partial",
   "theorems": [
    "MaRC.MapFactory.C10_strictly_increasing_partial",
    "MaRC.MapFactory.C10_violated"
   ],
   "note": "False of the code for every map all of whose cells are visited (C10_violated); proved otherwise."
  },
  {
   "property": "C11",
   "status": "proved",
   "theorems": [
    "MaRC.Progress.Console.C11_percent_bounds",
    "MaRC.Progress.Console.C11_complete_map",
    "MaRC.Progress.Console.C11_all_planes"
   ],
   "note": ""
  },
  {
   "property": "C12",
   "status": "proved",
   "theorems": [
    "MaRC.Projection.C12_cylindrical",
    "MaRC.Projection.C12_mercator",
    "MaRC.Projection.C12_stereographic",
    "MaRC.Projection.C12_orthographic"
   ],
   "note": "All four projections, any size and parameters; the root finder is a parameter (Solver)."
  },
  {
   "property": "C13",
   "status": "proved",
   "theorems": [
    "MaRC.Projection.C13_centric",
    "MaRC.Projection.C13_graphic"
   ],
   "note": "Real arithmetic; the degree constant is the exact double used by the code."
  },
  {
   "property": "C14",
   "status": "partial",
   "theorems": [
    "MaRC.Projection.C14_range_partial",
    "MaRC.Projection.C14_pixels",
    "MaRC.Projection.C14_direction",
    "MaRC.Projection.C14_mirror",
    "MaRC.Projection.C14_violated"
   ],
   "note": "Width is positive when lo_lon - hi_lon <= 360 (C14_range_partial); C14_violated: 350 and -20 degrees are accepted and give a negative width. Pixel longitudes, direction and mirror image are proved in full."
  },
  {
   "property": "C15",
   "status": "proved",
   "theorems": [
    "MaRC.Projection.C15_odd",
    "MaRC.Projection.C15_increasing",
    "MaRC.Projection.C15_unique",
    "MaRC.Projection.C15_sphere",
    "MaRC.Projection.C15_plotted_within",
    "MaRC.Projection.C15_plotted"
   ],
   "note": "Real arithmetic; the root finder is a parameter, exact (C15_plotted) or within a tolerance (C15_plotted_within)."
  },
  {
   "property": "C16",
   "status": "proved",
   "theorems": [
    "MaRC.Projection.C16_longitudes",
    "MaRC.Projection.C16_symmetric"
   ],
   "note": "Real arithmetic; opposite latitudes need an exact root finder."
  },
  {
   "property": "C17",
   "status": "proved",
   "theorems": [
    "MaRC.Projection.C17_radius",
    "MaRC.Projection.C17_unique",
    "MaRC.Projection.C17_maximum",
    "MaRC.Projection.C17_plotted"
   ],
   "note": "Real arithmetic; the pixel exactly at the pole is excluded from the latitude clause (its longitude clause holds)."
  },
  {
   "property": "C18",
   "status": "partial",
   "theorems": [
    "MaRC.Projection.Ortho.C18_viewer",
    "MaRC.Projection.Ortho.C18_plotted",
    "MaRC.Projection.Ortho.C18_center",
    "MaRC.Projection.Ortho.C18_default",
    "MaRC.Projection.Ortho.C18_sees_partial",
    "MaRC.Projection.Ortho.C18_violated",
    "MaRC.Projection.Ortho.C18_violated_instance"
   ],
   "note": "Which pixels are plotted is proved in full (C18_plotted). The plotted point is the one seen for spheres, equatorial and polar views (C18_sees_partial); C18_violated: for every oblate body and other viewing latitude the middle coefficient of the solved quadratic has the wrong sign and the plotted points do not project back onto their pixels."
  },
  {
   "property": "C19",
   "status": "partial",
   "theorems": [
    "MaRC.C19_scale_partial",
    "MaRC.C19_scale_violated",
    "MaRC.C19_too_wide",
    "MaRC.C19_point_violated",
    "MaRC.C19_span",
    "MaRC.C19_fits_partial",
    "MaRC.C19_fits_violated",
    "MaRC.C19_program_ranges",
    "MaRC.C19_floating"
   ],
   "note": "Scale is a power of ten, at least 1 except for 64-bit maps (C19_scale_violated); C19_fits_partial gives when the transformed range fits, C19_fits_violated when not; C19_program_ranges: it does for the ranges and types the program uses. Equal bounds are undefined behaviour (C19_point_violated). log10 is taken to be exact."
  },
  {
   "property": "C20",
   "status": "proved",
   "theorems": [
    "MaRC.C20_round_trip",
    "MaRC.C20_quantised",
    "MaRC.C20_none"
   ],
   "note": "Exact arithmetic; C20_quantised bounds the loss through an integer map."
  },
  {
   "property": "C21",
   "status": "proved",
   "theorems": [
    "MaRC.Compositing.C21_first_read",
    "MaRC.Compositing.C21_later_not_consulted"
   ],
   "note": ""
  },
  {
   "property": "C22",
   "status": "partial",
   "theorems": [
    "MaRC.Compositing.C22_mean",
    "MaRC.Compositing.C22_mean_exact",
    "MaRC.Compositing.C22_success",
    "MaRC.Compositing.C22_single_partial",
    "MaRC.Compositing.C22_single_violated"
   ],
   "note": "The mean is proved for two or more successful reads. With exactly one success the datum may be overwritten by a later failing read (C22_single_violated); C22_single_partial gives the conditions under which it is not."
  },
  {
   "property": "C23",
   "status": "proved",
   "theorems": [
    "MaRC.Compositing.C23_weighted_mean",
    "MaRC.Compositing.C23_weighted_mean_exact",
    "MaRC.Compositing.C23_equal_weights",
    "MaRC.Compositing.C23_zero_weight_ignored",
    "MaRC.Compositing.C23_zero_weights_last"
   ],
   "note": "C23_zero_weights_last shows what happens when all weights are zero."
  },
  {
   "property": "C24",
   "status": "proved",
   "theorems": [
    "MaRC.Photo.C24_no_out_of_bounds",
    "MaRC.Photo.C24_nibble_violated",
    "MaRC.Photo.C24_null_config_violated",
    "MaRC.Photo.C24_constructor_rejects"
   ],
   "note": "For viewing geometries that report finite pixel coordinates below 2^64. C24_nibble_violated: nibbling more than the image dimension passes validation and reads out of bounds. C24_null_config_violated: a null configuration is dereferenced."
  },
  {
   "property": "C25",
   "status": "proved",
   "theorems": [
    "MaRC.Photo.C25_successful_read",
    "MaRC.Photo.C25_datum",
    "MaRC.Photo.C25_readable"
   ],
   "note": ""
  },
  {
   "property": "C26",
   "status": "partial",
   "theorems": [
    "MaRC.Photo.C26_violated",
    "MaRC.Photo.C26_mosaic_violated",
    "MaRC.Photo.C26_partial"
   ],
   "note": "False of the code (C26_violated, C26_mosaic_violated) when the caller's variable holds NaN; C26_partial proves it otherwise."
  },
  {
   "property": "C27",
   "status": "partial",
   "theorems": [
    "MaRC.Photo.C27_no_sky_partial",
    "MaRC.Photo.C27_column_partial",
    "MaRC.Photo.C27_sky_violated",
    "MaRC.Photo.C27_sky_witness_violated"
   ],
   "note": "Proved without sky removal. With sky removal it is false of the code: the weight of every readable pixel is 0 (C27_sky_violated)."
  },
  {
   "property": "C28",
   "status": "proved",
   "theorems": [
    "MaRC.Bilinear.C28_fails_iff",
    "MaRC.Bilinear.C28_local",
    "MaRC.Bilinear.C28_affine",
    "MaRC.Bilinear.C28_constant",
    "MaRC.Bilinear.C28_overshoot",
    "MaRC.Bilinear.C28_hull_violated",
    "MaRC.Bilinear.C28_corner",
    "MaRC.Bilinear.C28_corner_violated",
    "MaRC.Bilinear.C28_right_pair_violated"
   ],
   "note": "Formula level (exact arithmetic) except C28_fails_iff and C28_local, which hold for any rounding. Negations: C28_hull_violated, C28_corner_violated, C28_right_pair_violated."
  },
  {
   "property": "C29",
   "status": "proved",
   "theorems": [
    "MaRC.C29_matrix",
    "MaRC.C29_isometry",
    "MaRC.C29_compose",
    "MaRC.C29_inverse",
    "MaRC.C29_orthogonal",
    "MaRC.C29_sense"
   ],
   "note": "Over the reals: agreement with matrices, isometry, composition, inverse, orthogonality, determinant and sense of rotation."
  },
  {
   "property": "C30",
   "status": "proved",
   "theorems": [
    "MaRC.C30_linear_algebra",
    "MaRC.C30_assoc",
    "MaRC.C30_transpose",
    "MaRC.C30_distrib",
    "MaRC.C30_dot",
    "MaRC.C30_initializer",
    "MaRC.C30_unit",
    "MaRC.C30_unit_one_violated"
   ],
   "note": "All dimensions over any commutative ring, against Mathlib's matrices; initializer-list constructor and checked access; unit vectors for 2 and 3 elements over the reals. C30_unit_one_violated: one-element vectors lose their direction."
  },
  {
   "property": "C31",
   "status": "proved",
   "theorems": [
    "MaRC.C31_image_object_image",
    "MaRC.C31_object_image_object",
    "MaRC.C31_radial"
   ],
   "note": "Over the reals, both directions, both modes."
  },
  {
   "property": "C32",
   "status": "partial",
   "theorems": [
    "MaRC.RootFind.C32_rejects",
    "MaRC.RootFind.C32_ends",
    "MaRC.RootFind.C32_bracket_partial",
    "MaRC.RootFind.C32_root",
    "MaRC.RootFind.C32_flat_root_throws",
    "MaRC.RootFind.C32_bracket_violated",
    "MaRC.RootFind.C32_guess",
    "MaRC.RootFind.C32_derivative"
   ],
   "note": "Rejection, termination within 100 steps and the shape of the outcome hold for every function and for IEEE rounding; that a returned point lies in the bracket is proved for exact arithmetic and violated with rounding (C32_bracket_violated). C32_flat_root_throws shows a bracketed root of x^3 that is not found. C32_guess and C32_derivative also cover the unbracketed search and the slopes."
  },
  {
   "property": "C33",
   "status": "proved",
   "theorems": [
    "MaRC.Spheroid.C33_range",
    "MaRC.Spheroid.C33_inverse",
    "MaRC.Spheroid.C33_increasing",
    "MaRC.Spheroid.C33_odd",
    "MaRC.Spheroid.C33_farther",
    "MaRC.Spheroid.C33_sphere",
    "MaRC.Spheroid.C33_double_pole"
   ],
   "note": "Over the reals; the nearest double to a right angle is inside the interval (C33_double_pole)."
  },
  {
   "property": "C34",
   "status": "proved",
   "theorems": [
    "MaRC.C34_construct",
    "MaRC.Spheroid.C34_surface",
    "MaRC.Spheroid.C34_bounds",
    "MaRC.Spheroid.C34_ends",
    "MaRC.Spheroid.C34_decreasing",
    "MaRC.Spheroid.C34_sphere"
   ],
   "note": "Over the reals; C34_construct covers every double, NaN and infinity included."
  },
  {
   "property": "C35",
   "status": "partial",
   "theorems": [
    "MaRC.Spheroid.C35_mu",
    "MaRC.Spheroid.C35_mu0",
    "MaRC.Spheroid.C35_cos_phase",
    "MaRC.Spheroid.C35_bounds",
    "MaRC.Spheroid.C35_divisor",
    "MaRC.Spheroid.C35_center",
    "MaRC.Spheroid.C35_center_flattened"
   ],
   "note": "Proved over the reals for latitudes strictly between the poles (every double in +-M_PI_2). In floating point the values are these up to 2^-42 (C93), but may exceed 1 by a rounding error, so that the assertions fail (C79_violated, C94_emission_violated, C94_phase_violated)."
  },
  {
   "property": "C36",
   "status": "proved",
   "theorems": [
    "MaRC.Spheroid.C36_order",
    "MaRC.Spheroid.C36_sphere",
    "MaRC.Spheroid.C36_equator",
    "MaRC.Spheroid.C36_pole"
   ],
   "note": "Over the reals; the value at a pole is the limit toward it (C36_pole)."
  },
  {
   "property": "C37",
   "status": "partial",
   "theorems": [
    "MaRC.Spheroid.C37_bad_input",
    "MaRC.Spheroid.C37_miss",
    "MaRC.Spheroid.C37_found",
    "MaRC.Spheroid.C37_found_iff",
    "MaRC.Spheroid.C37_nearer",
    "MaRC.Spheroid.C37_violated",
    "MaRC.Spheroid.C37_instances"
   ],
   "note": "Bad input, no solution and found results are characterised over the reals. The claim fails for tangent lines and for chords not ahead of the observer, where the assertion fails (C37_violated)."
  },
  {
   "property": "C38",
   "status": "proved",
   "theorems": [
    "MaRC.C38_success",
    "MaRC.C38_roots",
    "MaRC.C38_order",
    "MaRC.C38_violated",
    "MaRC.C38_linear"
   ],
   "note": "Over the reals; C38_violated is the excepted case b = c = 0."
  },
  {
   "property": "C39",
   "status": "partial",
   "theorems": [
    "MaRC.Camera.C39_visible",
    "MaRC.Camera.C39_monotone",
    "MaRC.Camera.C39_limits",
    "MaRC.Camera.C39_limit_checked",
    "MaRC.Camera.C39_nan_violated",
    "MaRC.Camera.C39_occlusion"
   ],
   "note": "Exact meaning proved, including occlusion; a NaN limit is accepted by the setter and hides everything (C39_nan_violated)."
  },
  {
   "property": "C40",
   "status": "partial",
   "theorems": [
    "MaRC.Camera.C40_success",
    "MaRC.Camera.C40_perspective",
    "MaRC.Camera.C40_round_trip_partial",
    "MaRC.Camera.C40_retrograde_violated",
    "MaRC.Camera.C40_instance"
   ],
   "note": "Perspective projection proved; the way back by pix2latlon proved for prograde bodies, refuted for retrograde ones (C40_retrograde_violated)."
  },
  {
   "property": "C41",
   "status": "partial",
   "theorems": [
    "MaRC.ViewInput.C41_center",
    "MaRC.ViewInput.C41_axis",
    "MaRC.ViewInput.C41_setup_partial",
    "MaRC.ViewInput.C41_violated"
   ],
   "note": "The selected matrices are rotations, mutually inverse. When no tilt solves the equation, set-up reports success with zero matrices (C41_violated)."
  },
  {
   "property": "C42",
   "status": "partial",
   "theorems": [
    "MaRC.ViewSettings.C42_atomic",
    "MaRC.ViewSettings.C42_constants",
    "MaRC.ViewSettings.C42_accepts",
    "MaRC.ViewSettings.C42_rejects",
    "MaRC.ViewSettings.C42_nan_violated",
    "MaRC.ViewSettings.C42_longitude",
    "MaRC.ViewSettings.C42_longitude_violated",
    "MaRC.ViewSettings.C42_pair_violated",
    "MaRC.ViewSettings.C42_pair"
   ],
   "note": "NaN arguments are accepted, longitudes are reduced but not range checked and focal length/scale pairs are not kept consistent (violations proved)."
  },
  {
   "property": "C43",
   "status": "partial",
   "theorems": [
    "MaRC.Projection.C43_cylindrical_partial",
    "MaRC.Projection.C43_edge_violated",
    "MaRC.Projection.C43_edge_instance",
    "MaRC.Projection.C43_wrap_violated",
    "MaRC.Projection.C43_endless_violated",
    "MaRC.Projection.C43_mercator",
    "MaRC.Projection.C43_stereographic",
    "MaRC.Projection.Ortho.C43_orthographic"
   ],
   "note": "Proved for simple cylindrical maps without a grid longitude half a sample or more before the western edge (the others run into undefined behaviour, C43_edge_violated), Mercator, polar stereographic and orthographic maps; wrap and endless-loop violations proved."
  },
  {
   "property": "C44",
   "status": "proved",
   "theorems": [
    "MaRC.MapParams.C44_string",
    "MaRC.MapParams.C44_real",
    "MaRC.MapParams.C44_blank",
    "MaRC.MapParams.C44_bitpix",
    "MaRC.MapParams.C44_comments"
   ],
   "note": ""
  },
  {
   "property": "C45",
   "status": "partial",
   "theorems": [
    "MaRC.MapParams.C45_first_supplied",
    "MaRC.MapParams.C45_populate",
    "MaRC.MapParams.C45_history_partial",
    "MaRC.MapParams.C45_history_blank_partial",
    "MaRC.MapParams.C45_history_violated"
   ],
   "note": "The value part is proved (C45_first_supplied, C45_populate). The record of conflicting values is only made for parameters of a nonzero plane (C45_history_partial); in the program's own flow it is never made (C45_history_violated)."
  },
  {
   "property": "C46",
   "status": "partial",
   "theorems": [
    "MaRC.MapParams.C46_first_plane_wins",
    "MaRC.MapParams.C46_violated",
    "MaRC.MapParams.C46_merge_violated",
    "MaRC.MapParams.C46_partial"
   ],
   "note": "False of the code (C46_violated, C46_merge_violated): the first plane that has a BITPIX wins. C46_partial: holds when that plane has the largest type."
  },
  {
   "property": "C47",
   "status": "proved",
   "theorems": [
    "MaRC.MapParams.C47_bitpix",
    "MaRC.MapParams.C47_invalid_no_effect",
    "MaRC.MapParams.C47_plane"
   ],
   "note": ""
  },
  {
   "property": "C48",
   "status": "partial",
   "theorems": [
    "MaRC.Fits.C48_history",
    "MaRC.Fits.C48_positions",
    "MaRC.Fits.C48_all_planes",
    "MaRC.Fits.C48_one_by_one_violated",
    "MaRC.Fits.C48_read",
    "MaRC.Fits.C48_cube_violated"
   ],
   "note": "C48_history, C48_positions, C48_all_planes and C48_read hold; C48_one_by_one_violated: the last plane of a 1x1 cube is refused; C48_cube_violated: photo files with more than two axes are read with coordinates beyond an array."
  },
  {
   "property": "C49",
   "status": "proved",
   "theorems": [
    "MaRC.MapCommand.C49_file",
    "MaRC.MapCommand.C49_keywords",
    "MaRC.MapCommand.C49_number_of_digits"
   ],
   "note": "For planes of at least two elements and CFITSIO succeeding; exceptions end the map."
  },
  {
   "property": "C50",
   "status": "proved",
   "theorems": [
    "MaRC.CommandLine.C50_operands",
    "MaRC.CommandLine.C50_end_of_options",
    "MaRC.CommandLine.C50_option",
    "MaRC.CommandLine.C50_complete"
   ],
   "note": ""
  },
  {
   "property": "C51",
   "status": "partial",
   "theorems": [
    "MaRC.Parser.C51_accepts",
    "MaRC.Parser.C51_completes",
    "MaRC.Parser.C51_rejects_nan",
    "MaRC.Parser.C51_api_violated"
   ],
   "note": "Proved for every clause an input file can contain (exact and IEEE arithmetic); C51_api_violated shows direct API triples that are accepted although inconsistent."
  },
  {
   "property": "C52",
   "status": "partial",
   "theorems": [
    "MaRC.Parser.C52_circle",
    "MaRC.Parser.C52_circle_rounded",
    "MaRC.Parser.C52_circle_violated",
    "MaRC.Parser.C52_longitude",
    "MaRC.Parser.C52_longitude_rejects",
    "MaRC.Parser.C52_prime_meridian_violated",
    "MaRC.Parser.C52_nan_violated",
    "MaRC.Parser.C52_latitude",
    "MaRC.Parser.C52_position_angle"
   ],
   "note": "Exact arithmetic: accepted angles are congruent to the entered ones and in range; violated for NaN, for a tiny negative angle with IEEE rounding and for 0 with an opposing suffix (360 instead of 0)."
  },
  {
   "property": "C53",
   "status": "partial",
   "theorems": [
    "MaRC.Calc.C53_value",
    "MaRC.Calc.C53_unambiguous",
    "MaRC.Calc.C53_text",
    "MaRC.Calc.C53_unspaced_violated",
    "MaRC.Calc.C53_sign_violated",
    "MaRC.Calc.C53_sign_general",
    "MaRC.Calc.C53_no_variables"
   ],
   "note": "Value of every grammatical expression proved, unambiguity proved, spaced text proved to scan as its tokens; violated for unspaced operators before digits and for the sign of a literal."
  },
  {
   "property": "C54",
   "status": "proved",
   "theorems": [
    "MaRC.Calc.C54_first_wins",
    "MaRC.Calc.C54_builtins_kept"
   ],
   "note": ""
  },
  {
   "property": "C55",
   "status": "partial",
   "theorems": [
    "MaRC.Factory.C55_violated",
    "MaRC.Factory.C55_maximum_partial",
    "MaRC.Factory.C55_file_extrema_violated",
    "MaRC.Factory.C55_photos"
   ],
   "note": "C55_maximum_partial. C55_violated: empty optional dereferenced when every photo has a minimum; C55_file_extrema_violated: extrema from the photo files come too late."
  },
  {
   "property": "C56",
   "status": "partial",
   "theorems": [
    "MaRC.C56_graphic",
    "MaRC.C56_longitude",
    "MaRC.C56_longitude_not_finite",
    "MaRC.C56_latitude",
    "MaRC.C56_nan_violated"
   ],
   "note": "Proved in IEEE arithmetic for all finite values; NaN latitudes are not refused (C56_nan_violated). The planetographic conversion enters through the hypothesis that it stays in the interval, which C56_graphic proves for correctly rounded elementary functions."
  },
  {
   "property": "C57",
   "status": "proved",
   "theorems": [
    "MaRC.Factory.C57_pixels",
    "MaRC.Factory.C57_once",
    "MaRC.Factory.C57_mismatch",
    "MaRC.Factory.C57_success"
   ],
   "note": ""
  },
  {
   "property": "C58",
   "status": "proved",
   "theorems": [
    "MaRC.MapCommand.C58_all_run",
    "MaRC.MapCommand.C58_exception_stops",
    "MaRC.MapCommand.C58_parse_first",
    "MaRC.MapCommand.C58_success"
   ],
   "note": "A command that throws (rather than returning an error) does stop later ones: C58_exception_stops."
  },
  {
   "property": "C59",
   "status": "partial",
   "theorems": [
    "MaRC.C59_symmetric",
    "MaRC.C59_reflexive",
    "MaRC.C59_nan",
    "MaRC.C59_monotone",
    "MaRC.C59_close_exact",
    "MaRC.C59_close_partial",
    "MaRC.C59_close_violated",
    "MaRC.C59_zero_symmetric",
    "MaRC.C59_zero",
    "MaRC.C59_sign"
   ],
   "note": "Symmetry, reflexivity, monotonicity, NaN and almost_zero are proved for all doubles; closeness needs the sum not to overflow (C59_close_partial, C59_close_violated)."
  },
  {
   "property": "C60",
   "status": "partial",
   "theorems": [
    "MaRC.Parser.C60_order",
    "MaRC.Parser.C60_whole_limits_partial",
    "MaRC.Parser.C60_violated"
   ],
   "note": "Order of the limits proved; whole-number limits proved for 8/16/32 bit maps; violated for fractional limits on integer maps."
  },
  {
   "property": "C61",
   "status": "partial",
   "theorems": [
    "MaRC.Parser.C61_own_limits_partial",
    "MaRC.Parser.C61_violated"
   ],
   "note": "Violated: user default ranges never take effect, for every history; proved instead that each plane gets exactly its own limits."
  },
  {
   "property": "C62",
   "status": "partial",
   "theorems": [
    "MaRC.MapCommand.C62_no_data_partial",
    "MaRC.MapCommand.C62_violated"
   ],
   "note": "C62_no_data_partial characterises the warnings; C62_violated."
  },
  {
   "property": "C63",
   "status": "partial",
   "theorems": [
    "MaRC.Parser.C63_whole_partial",
    "MaRC.Parser.C63_rest_ignored",
    "MaRC.Parser.C63_violated",
    "MaRC.Parser.C63_extent"
   ],
   "note": "Proved for whole numbers; violated for fractions and exponents, which are ignored."
  },
  {
   "property": "C64",
   "status": "partial",
   "theorems": [
    "MaRC.Parser.C64_explicit_partial",
    "MaRC.Parser.C64_violated",
    "MaRC.Parser.C64_projection_violated"
   ],
   "note": "Proved for files that write out every latitude type; violated otherwise."
  },
  {
   "property": "C65",
   "status": "partial",
   "theorems": [
    "MaRC.Parser.C65_grids",
    "MaRC.Parser.C65_both_partial",
    "MaRC.Parser.C65_violated"
   ],
   "note": "Use of the intervals proved for all histories; setting both proved; violated when one is given."
  },
  {
   "property": "C66",
   "status": "proved",
   "theorems": [
    "MaRC.Parser.C66_numbers",
    "MaRC.Parser.C66_accepted"
   ],
   "note": ""
  },
  {
   "property": "C67",
   "status": "proved",
   "theorems": [
    "MaRC.Parser.C67_blank",
    "MaRC.Parser.C67_usable",
    "MaRC.Parser.C67_no_type_violated"
   ],
   "note": "Also C67_no_type_violated: without a data type the clause throws instead of warning."
  },
  {
   "property": "C68",
   "status": "partial",
   "theorems": [
    "MaRC.ViewInput.C68_axis_iff",
    "MaRC.ViewInput.C68_axis_violated",
    "MaRC.ViewInput.C68_axis_scale",
    "MaRC.ViewInput.C68_center",
    "MaRC.ViewInput.C68_setup_km",
    "MaRC.ViewInput.C68_setup_focal",
    "MaRC.ViewInput.C68_center_image",
    "MaRC.ViewInput.C68_pole"
   ],
   "note": "Proved for the body centre set-up; for the optical axis set-up exactly characterised: holds on the central meridian only (C68_axis_violated)."
  },
  {
   "property": "C69",
   "status": "partial",
   "theorems": [
    "MaRC.Camera.C69_axis_violated",
    "MaRC.Camera.C69_partial"
   ],
   "note": "Refuted (C69_axis_violated); only the correction itself keeps its axis."
  },
  {
   "property": "C70",
   "status": "partial",
   "theorems": [
    "MaRC.Projection.Ortho.C70_visible",
    "MaRC.Projection.Ortho.C70_middle",
    "MaRC.Projection.Ortho.C70_accepted_partial",
    "MaRC.Projection.Ortho.C70_violated",
    "MaRC.Projection.Ortho.C70_polar_partial"
   ],
   "note": "Position proved in full (C70_middle); acceptance iff visible proved for longitudes 0..360 away from polar views and, up to 10^-12 degrees of latitude beyond the limb, for polar views (C70_polar_partial); C70_violated: longitude -350 seen from above 350 is rejected."
  },
  {
   "property": "C71",
   "status": "partial",
   "theorems": [
    "MaRC.Projection.C71_cylindrical_only",
    "MaRC.Projection.C71_cylindrical_latitudes",
    "MaRC.Projection.C71_cylindrical_longitudes_partial",
    "MaRC.Projection.C71_mercator_only",
    "MaRC.Projection.C71_mercator_latitudes",
    "MaRC.Projection.C71_mercator_longitudes_partial",
    "MaRC.Projection.C71_meridian_violated"
   ],
   "note": "Proved both ways for simple cylindrical (whenever there is a grid at all, see C43) and Mercator maps but for half a sample at one end; the 0/360 meridian is never drawn for retrograde bodies (C71_meridian_violated)."
  },
  {
   "property": "C72",
   "status": "partial",
   "theorems": [
    "MaRC.Projection.Ortho.C72_near",
    "MaRC.Projection.Ortho.C72_lines_partial",
    "MaRC.Projection.Ortho.C72_prograde",
    "MaRC.Projection.Ortho.C72_violated",
    "MaRC.Projection.Ortho.C72_polar_partial",
    "MaRC.Projection.Ortho.C72_equator_violated"
   ],
   "note": "C72_prograde is the full statement for prograde bodies (and retrograde bodies seen from above longitude 0) away from the poles; C72_lines_partial says where retrograde bodies' circles of latitude are drawn instead, and C72_violated is a visible grid point that is not drawn. C72_polar_partial: polar views, where points of meridians on the equator itself are left out beyond 90 degrees from the prime meridian (C72_equator_violated). C43_orthographic covers all views but only says that white pixels are nearest to points of grid lines."
  },
  {
   "property": "C73",
   "status": "partial",
   "theorems": [
    "MaRC.Projection.C73_drawn_partial",
    "MaRC.Projection.C73_mirrored_violated",
    "MaRC.Projection.C73_opposite_violated"
   ],
   "note": "C73_drawn_partial: white pixels lie on circles of grid latitudes to within 1.5 pixels plus one part in the map size (the grid's scale differs from the map's), or on diameters through grid longitudes. The full claim is false: C73_opposite_violated (the line continues beyond the pole) and C73_mirrored_violated (lines mirrored where longitude increases to the left)."
  },
  {
   "property": "C74",
   "status": "partial",
   "theorems": [
    "MaRC.Execute.C74_type",
    "MaRC.Execute.C74_parameters",
    "MaRC.Execute.C74_file",
    "MaRC.Execute.C74_header",
    "MaRC.Execute.C74_data_partial",
    "MaRC.Execute.C74_grid",
    "MaRC.Execute.C74_unwritten_violated"
   ],
   "note": "CFITSIO calls succeed or fail as an input says; DATE, checksums and the keywords CFITSIO writes itself are not modelled. The data part needs planes of at least two elements (see C48_one_by_one_violated) and CFITSIO succeeding: a failed write is reported on the terminal but the command still returns success (C74_unwritten_violated)."
  },
  {
   "property": "C75",
   "status": "partial",
   "theorems": [
    "MaRC.Execute.C75_other_files",
    "MaRC.Execute.C75_refused_partial",
    "MaRC.Execute.C75_returned",
    "MaRC.Execute.C75_violated",
    "MaRC.Execute.C75_source_violated"
   ],
   "note": "Other files are never touched, and failing to complete the parameters or returning a failure code leaves all files alone. False of the code for exceptions: C75_violated (no data type) and C75_source_violated (unreadable source)."
  },
  {
   "property": "C76",
   "status": "partial",
   "theorems": [
    "MaRC.Execute.C76_scaling",
    "MaRC.Execute.C76_physical_partial",
    "MaRC.Execute.C76_extrema_violated",
    "MaRC.Execute.C76_no_blank_violated",
    "MaRC.Execute.C76_history_partial",
    "MaRC.Execute.C76_longlong_violated"
   ],
   "note": "BSCALE, BZERO, BUNIT, BLANK and the array are consistent (exact arithmetic for the error bound). False of the code for DATAMIN and DATAMAX (C76_extrema_violated), for undefined elements without DATA_BLANK (C76_no_blank_violated) and for the history of 64 bit maps of several planes (C76_longlong_violated)."
  },
  {
   "property": "C77",
   "status": "partial",
   "theorems": [
    "MaRC.Execute.C77_user_text",
    "MaRC.Execute.C77_user_comments",
    "MaRC.Execute.C77_user_blank",
    "MaRC.Execute.C77_scale_violated",
    "MaRC.Execute.C77_observation_violated"
   ],
   "note": "Holds for the user's author, origin, object, comments and blank value. False of the code for scale, offset and unit (C77_scale_violated) and for observation keywords (C77_observation_violated)."
  },
  {
   "property": "C78",
   "status": "partial",
   "theorems": [
    "MaRC.Parser.C78_projection_partial",
    "MaRC.Parser.C78_cylindrical",
    "MaRC.Parser.C78_accepted"
   ],
   "note": "C78_projection_partial covers every projection, option and the averaging mode except the latitude type of a simple cylindrical map that leaves it out (C64_projection_violated shows it leaks from earlier planes); C78_cylindrical covers the other options of such maps; C78_accepted characterises acceptance completely."
  },
  {
   "property": "C79",
   "status": "partial",
   "theorems": [
    "MaRC.C79_violated",
    "MaRC.C79_blank_violated",
    "MaRC.C79_bound_partial",
    "MaRC.C79_read_partial"
   ],
   "note": "False of the program: with the sun above latitude 12 degrees of a sphere the datum at the sub-solar point is 1 + 2^-52 for every correctly rounded mathematical library, so the assertion fails (C79_violated) or, without assertions, the pixel stays blank (C79_blank_violated). C79_bound_partial: the excess is at most 2^-48. In exact arithmetic the value is a cosine (C35)."
  },
  {
   "property": "C80",
   "status": "partial",
   "theorems": [
    "MaRC.Parser.C80_options_partial",
    "MaRC.Parser.C80_plane_partial",
    "MaRC.Parser.C80_accepts",
    "MaRC.Parser.C80_rejects_partial",
    "MaRC.Parser.C80_lens_violated",
    "MaRC.Parser.C80_center_violated",
    "MaRC.Parser.C80_minnaert_violated",
    "MaRC.Parser.C80_user_nibble_partial",
    "MaRC.Parser.C80_user_nibble_violated",
    "MaRC.Parser.C80_ortho_center",
    "MaRC.C80_sky_default_violated"
   ],
   "note": "Every accepted photo is set up from its own clauses after any history (C80_options_partial), valid photos are accepted (C80_accepts), invalid ones rejected (C80_rejects_partial), and centers of orthographic maps do not leak (C80_ortho_center). The code breaks the property for lens values that are not positive and NaN centers (accepted and ignored), MINNAERT clauses (ignored) user nibble defaults of 2^32 and more (wrap around) and the default of REMOVE_SKY (documented as enabled, but disabled)."
  },
  {
   "property": "C81",
   "status": "partial",
   "theorems": [
    "MaRC.Projection.C81_mercator",
    "MaRC.Projection.C81_stereographic_conformal",
    "MaRC.Projection.C81_stereographic_partial",
    "MaRC.Projection.C81_stereographic_violated"
   ],
   "note": "Mercator proved for all bodies. Polar stereographic maps are conformal, but the distortion is right for spheres only; for every flattened body it is wrong in the centre and too small on the equator (C81_stereographic_violated)."
  },
  {
   "property": "C82",
   "status": "proved",
   "theorems": [
    "MaRC.C82_shown",
    "MaRC.C82_complete",
    "MaRC.C82_made"
   ],
   "note": "For any plots with distinct offsets, photos without interpolation, photometric or lens correction; coordinates of the camera are real numbers rounded with an error bound."
  },
  {
   "property": "C83",
   "status": "partial",
   "theorems": [
    "MaRC.C83_latitude",
    "MaRC.C83_longitude",
    "MaRC.C83_empty_violated"
   ],
   "note": "The reading is proved for every data type and IEEE arithmetic (C83_latitude, C83_longitude; no longitude planes exist for BYTE maps). Empty cells of integer maps without a blank value cannot be told apart (C83_empty_violated)."
  },
  {
   "property": "C84",
   "status": "partial",
   "theorems": [
    "MaRC.Source.C84_texts_partial",
    "MaRC.Source.C84_equinox_partial",
    "MaRC.Source.C84_blank_partial",
    "MaRC.Source.C84_type_partial",
    "MaRC.Source.C84_header_partial",
    "MaRC.Source.C84_damaged",
    "MaRC.Source.C84_mosaic",
    "MaRC.Source.C84_mosaic_violated"
   ],
   "note": "Proved for all commands whose mosaics have photos that agree about the keyword; C84_mosaic says what happens otherwise: the last photo speaks for all (C84_mosaic_violated). Damaged files: C84_damaged."
  },
  {
   "property": "C85",
   "status": "partial",
   "theorems": [
    "MaRC.Source.C85_cells_partial",
    "MaRC.Source.C85_whole_partial",
    "MaRC.Source.C85_scaled_violated",
    "MaRC.Source.C85_blank_violated",
    "MaRC.Source.C85_flat_field_violated",
    "MaRC.Source.C85_type_violated"
   ],
   "note": "Proved for photos whose data are not scaled, corrected or interpolated and not 64 bit integers; false otherwise (C85_scaled_violated, C85_blank_violated, C85_flat_field_violated, C85_type_violated)."
  },
  {
   "property": "C86",
   "status": "proved",
   "theorems": [
    "MaRC.Props.C86_layout",
    "MaRC.Props.C86_note_violated",
    "MaRC.Props.C86_tight_violated",
    "MaRC.Props.C86_empty_text_violated",
    "MaRC.Props.C86_function_case_violated",
    "MaRC.Props.C86_crlf_violated"
   ],
   "note": "Every layout of every list of entries is read as its tokens. Names directly after the colon, one-word comments before names, empty texts, upper case functions and CR LF are read differently from what the manual suggests and are shown as violations."
  },
  {
   "property": "C87",
   "status": "proved",
   "theorems": [
    "MaRC.Props.C87_one_reading",
    "MaRC.Props.C87_unique",
    "MaRC.Props.C87_refused",
    "MaRC.Props.C87_user_violated",
    "MaRC.Props.C87_ortho_violated",
    "MaRC.Props.C87_polar_violated",
    "MaRC.Props.C87_integer_violated"
   ],
   "note": "Every file with its entries in order has one parse tree, and every text with a parse tree has its entries in order. Where the manual promises more the negation is proved: user files without a grid interval, orthographic centers without a resolution, polar options without a pole, expressions for the number of samples. Trusted: that Bison's parser accepts exactly the grammar."
  },
  {
   "property": "C88",
   "status": "partial",
   "theorems": [
    "MaRC.Props.C88_commands_partial",
    "MaRC.Props.C88_first_partial",
    "MaRC.Props.C88_defaults"
   ],
   "note": "Commands of accepted files and the defaults they leave are exactly those the entries ask for, after any history; which files are accepted is C92. Missing: the view of photos with a lens or center that is not a number (their other options are covered), independence of the kind of latitudes left by earlier maps (false, C64)."
  },
  {
   "property": "C89",
   "status": "proved",
   "theorems": [
    "MaRC.Source.C89_cells",
    "MaRC.Source.C89_missing",
    "MaRC.Source.C89_physical",
    "MaRC.Source.C89_double"
   ],
   "note": "Maps of one photo used without flat field and interpolation, with any camera geometry; flat fields, interpolation and several planes are covered by C91."
  },
  {
   "property": "C90",
   "status": "proved",
   "theorems": [
    "MaRC.Program.C90_maps",
    "MaRC.Program.C90_other_files",
    "MaRC.Program.C90_refused",
    "MaRC.Program.C90_command_line",
    "MaRC.Program.C90_photos"
   ],
   "note": "The data of the maps are the subject of C91 and success that of C95. Actions performed before a syntax error, and messages, are not modelled."
  },
  {
   "property": "C91",
   "status": "partial",
   "theorems": [
    "MaRC.Program.C91_data_partial",
    "MaRC.Program.C91_mosaic_violated"
   ],
   "note": "Cells of planes of photos (inverted, flat-fielded, nibbled, interpolated), mosaics, latitudes, longitudes and cosines. Missing: cells of mosaics where a photo is seen without having a datum, which the program gets wrong (C91_mosaic_violated)."
  },
  {
   "property": "C92",
   "status": "partial",
   "theorems": [
    "MaRC.Props.C92_accepted",
    "MaRC.Props.C92_commands",
    "MaRC.Props.C92_refused_partial",
    "MaRC.Props.C92_accepted_iff_partial",
    "MaRC.Props.C92_interval_violated"
   ],
   "note": "C92_accepted and C92_commands are complete: valid files are accepted after any history. C92_refused_partial: other files are refused, except for values that are not checked (NaN intervals, distances, emission limits and centers, non-positive lenses), see C92_interval_violated and C80_lens_violated."
  },
  {
   "property": "C93",
   "status": "proved",
   "theorems": [
    "MaRC.C93_emission",
    "MaRC.C93_phase",
    "MaRC.C93_incidence"
   ],
   "note": ""
  },
  {
   "property": "C94",
   "status": "partial",
   "theorems": [
    "MaRC.C94_emission_partial",
    "MaRC.C94_phase_partial",
    "MaRC.C94_emission_violated",
    "MaRC.C94_emission_read_partial",
    "MaRC.C94_phase_read_partial",
    "MaRC.C94_phase_violated",
    "MaRC.C94_blank_violated"
   ],
   "note": "violated at points where the cosine is 1 (C94_emission_violated, C94_phase_violated, C94_blank_violated); proved for points whose cosine is not within 2^-42 of -1 or 1"
  },
  {
   "property": "C95",
   "status": "proved",
   "theorems": [
    "MaRC.Program.C95_computed",
    "MaRC.Program.C95_type_needed",
    "MaRC.Program.C95_bytes_needed"
   ],
   "note": "Assertions of images of cosines are left out: see C94. Maps of photos and planes with DATA_MIN or DATA_MAX are not covered."
  },
  {
   "property": "C96",
   "status": "proved",
   "theorems": [
    "MaRC.C96_graphic_lines",
    "MaRC.C96_mercator_samples",
    "MaRC.C96_centric",
    "MaRC.C96_longitudes",
    "MaRC.C96_graphic",
    "MaRC.C96_lines",
    "MaRC.C96_samples",
    "MaRC.C96_mercator"
   ],
   "note": "Positions of cells of simple cylindrical maps (planetocentric and planetographic latitudes, longitudes) and longitudes of Mercator maps; latitudes of Mercator maps are not covered by the statement (C15, C32 over the reals)."
  },
  {
   "property": "C97",
   "status": "proved",
   "theorems": [
    "MaRC.C97_latitude",
    "MaRC.C97_even",
    "MaRC.C97_longitude",
    "MaRC.C97_mercator_longitude"
   ],
   "note": "C83 joined with C96: values of latitude and longitude planes of simple cylindrical maps, and of longitude planes of Mercator maps."
  },
  {
   "property": "C98",
   "status": "proved",
   "theorems": [
    "MaRC.Spheroid.C98_flattening",
    "MaRC.Spheroid.C98_eccentricity",
    "MaRC.Spheroid.C98_foci",
    "MaRC.Spheroid.C98_given"
   ],
   "note": "Over the reals; the input part in exact arithmetic."
  },
  {
   "property": "C99",
   "status": "partial",
   "theorems": [
    "MaRC.Scan.C99_matches",
    "MaRC.Scan.C99_line",
    "MaRC.Scan.C99_end",
    "MaRC.Scan.C99_column_partial",
    "MaRC.Scan.C99_column_violated",
    "MaRC.Scan.C99_indented_violated",
    "MaRC.Scan.C99_line_violated"
   ],
   "note": "Lines proved for all tokens and the end of the file (C99_line, C99_end; for files with a line ending in a colon only if the generated scanner counts newlines of its default rule). Columns are wrong: two less than the column on the first line, one less on later lines (C99_column_violated, C99_indented_violated)."
  },
  {
   "property": "C100",
   "status": "partial",
   "theorems": [
    "MaRC.C100_body_partial",
    "MaRC.C100_sky_partial",
    "MaRC.C100_mask",
    "MaRC.C100_axis_violated",
    "MaRC.C100_exact_partial"
   ],
   "note": "Given the pixel coordinates of the body center: proved (rays that touch the body fail an assertion). Given the latitude and longitude at the optical axis the property is false (C100_axis_violated)."
  }
 ]
}