{
 "C01": [
  "proved",
  "C01_size_check_wraps shows the size test itself wraps modulo 2^64."
 ],
 "C02": [
  "proved",
  ""
 ],
 "C03": [
  "proved",
  "C03_nan_first_sticks shows the NaN hypothesis is needed."
 ],
 "C04": [
  "partial",
  "False of the code when the destination minimum is unset (C04_violated); proved otherwise."
 ],
 "C05": [
  "partial",
  "Proved for double and the integer types of at most 32 bits; for 64-bit integers the upper clip is undefined behaviour (C05_maximum_i64_violated). A minimum above an integer type's range, or a maximum below it, is undefined behaviour."
 ],
 "C06": [
  "partial",
  "Proved for 8/16/32-bit integer, float and double maps; for 64-bit integer maps without a user maximum the code runs into undefined behaviour (C06_i64_violated). The cell characterisation C06_cells holds for every type whenever a map is returned."
 ],
 "C07": [
  "proved",
  ""
 ],
 "C08": [
  "proved",
  ""
 ],
 "C09": [
  "proved",
  ""
 ],
 "C10": [
  "partial",
  "False of the code for every map all of whose cells are visited (C10_violated); proved otherwise."
 ],
 "C100": [
  "partial",
  "Given the pixel coordinates of the body center: proved (rays that touch the body fail an assertion). Given the latitude and longitude at the optical axis the property is false (C100_axis_violated)."
 ],
 "C11": [
  "proved",
  ""
 ],
 "C12": [
  "proved",
  "All four projections, any size and parameters; the root finder is a parameter (Solver)."
 ],
 "C13": [
  "proved",
  "Real arithmetic; the degree constant is the exact double used by the code."
 ],
 "C14": [
  "partial",
  "Width is positive when lo_lon - hi_lon <= 360 (C14_range_partial); C14_violated: 350 and -20 degrees are accepted and give a negative width. Pixel longitudes, direction and mirror image are proved in full."
 ],
 "C15": [
  "proved",
  "Real arithmetic; the root finder is a parameter, exact (C15_plotted) or within a tolerance (C15_plotted_within)."
 ],
 "C16": [
  "proved",
  "Real arithmetic; opposite latitudes need an exact root finder."
 ],
 "C17": [
  "proved",
  "Real arithmetic; the pixel exactly at the pole is excluded from the latitude clause (its longitude clause holds)."
 ],
 "C18": [
  "partial",
  "Which pixels are plotted is proved in full (C18_plotted). The plotted point is the one seen for spheres, equatorial and polar views (C18_sees_partial); C18_violated: for every oblate body and other viewing latitude the middle coefficient of the solved quadratic has the wrong sign and the plotted points do not project back onto their pixels."
 ],
 "C19": [
  "partial",
  "Scale is a power of ten, at least 1 except for 64-bit maps (C19_scale_violated); C19_fits_partial gives when the transformed range fits, C19_fits_violated when not; C19_program_ranges: it does for the ranges and types the program uses. Equal bounds are undefined behaviour (C19_point_violated). log10 is taken to be exact."
 ],
 "C20": [
  "proved",
  "Exact arithmetic; C20_quantised bounds the loss through an integer map."
 ],
 "C21": [
  "proved",
  ""
 ],
 "C22": [
  "partial",
  "The mean is proved for two or more successful reads. With exactly one success the datum may be overwritten by a later failing read (C22_single_violated); C22_single_partial gives the conditions under which it is not."
 ],
 "C23": [
  "proved",
  "C23_zero_weights_last shows what happens when all weights are zero."
 ],
 "C24": [
  "proved",
  "For viewing geometries that report finite pixel coordinates below 2^64. C24_nibble_violated: nibbling more than the image dimension passes validation and reads out of bounds. C24_null_config_violated: a null configuration is dereferenced."
 ],
 "C25": [
  "proved",
  ""
 ],
 "C26": [
  "partial",
  "False of the code (C26_violated, C26_mosaic_violated) when the caller's variable holds NaN; C26_partial proves it otherwise."
 ],
 "C27": [
  "partial",
  "Proved without sky removal. With sky removal it is false of the code: the weight of every readable pixel is 0 (C27_sky_violated)."
 ],
 "C28": [
  "proved",
  "Formula level (exact arithmetic) except C28_fails_iff and C28_local, which hold for any rounding. Negations: C28_hull_violated, C28_corner_violated, C28_right_pair_violated."
 ],
 "C29": [
  "proved",
  "Over the reals: agreement with matrices, isometry, composition, inverse, orthogonality, determinant and sense of rotation."
 ],
 "C30": [
  "proved",
  "All dimensions over any commutative ring, against Mathlib's matrices; initializer-list constructor and checked access; unit vectors for 2 and 3 elements over the reals. C30_unit_one_violated: one-element vectors lose their direction."
 ],
 "C31": [
  "proved",
  "Over the reals, both directions, both modes."
 ],
 "C32": [
  "partial",
  "Rejection, termination within 100 steps and the shape of the outcome hold for every function and for IEEE rounding; that a returned point lies in the bracket is proved for exact arithmetic and violated with rounding (C32_bracket_violated). C32_flat_root_throws shows a bracketed root of x^3 that is not found. C32_guess and C32_derivative also cover the unbracketed search and the slopes."
 ],
 "C33": [
  "proved",
  "Over the reals; the nearest double to a right angle is inside the interval (C33_double_pole)."
 ],
 "C34": [
  "proved",
  "Over the reals; C34_construct covers every double, NaN and infinity included."
 ],
 "C35": [
  "partial",
  "Proved over the reals for latitudes strictly between the poles (every double in +-M_PI_2). In floating point the values are these up to 2^-42 (C93), but may exceed 1 by a rounding error, so that the assertions fail (C79_violated, C94_emission_violated, C94_phase_violated)."
 ],
 "C36": [
  "proved",
  "Over the reals; the value at a pole is the limit toward it (C36_pole)."
 ],
 "C37": [
  "partial",
  "Bad input, no solution and found results are characterised over the reals. The claim fails for tangent lines and for chords not ahead of the observer, where the assertion fails (C37_violated)."
 ],
 "C38": [
  "proved",
  "Over the reals; C38_violated is the excepted case b = c = 0."
 ],
 "C39": [
  "partial",
  "Exact meaning proved, including occlusion; a NaN limit is accepted by the setter and hides everything (C39_nan_violated)."
 ],
 "C40": [
  "partial",
  "Perspective projection proved; the way back by pix2latlon proved for prograde bodies, refuted for retrograde ones (C40_retrograde_violated)."
 ],
 "C41": [
  "partial",
  "The selected matrices are rotations, mutually inverse. When no tilt solves the equation, set-up reports success with zero matrices (C41_violated)."
 ],
 "C42": [
  "partial",
  "NaN arguments are accepted, longitudes are reduced but not range checked and focal length/scale pairs are not kept consistent (violations proved)."
 ],
 "C43": [
  "partial",
  "Proved for simple cylindrical maps without a grid longitude half a sample or more before the western edge (the others run into undefined behaviour, C43_edge_violated), Mercator, polar stereographic and orthographic maps; wrap and endless-loop violations proved."
 ],
 "C44": [
  "proved",
  ""
 ],
 "C45": [
  "partial",
  "The value part is proved (C45_first_supplied, C45_populate). The record of conflicting values is only made for parameters of a nonzero plane (C45_history_partial); in the program's own flow it is never made (C45_history_violated)."
 ],
 "C46": [
  "partial",
  "False of the code (C46_violated, C46_merge_violated): the first plane that has a BITPIX wins. C46_partial: holds when that plane has the largest type."
 ],
 "C47": [
  "proved",
  ""
 ],
 "C48": [
  "partial",
  "C48_history, C48_positions, C48_all_planes and C48_read hold; C48_one_by_one_violated: the last plane of a 1x1 cube is refused; C48_cube_violated: photo files with more than two axes are read with coordinates beyond an array."
 ],
 "C49": [
  "proved",
  "For planes of at least two elements and CFITSIO succeeding; exceptions end the map."
 ],
 "C50": [
  "proved",
  ""
 ],
 "C51": [
  "partial",
  "Proved for every clause an input file can contain (exact and IEEE arithmetic); C51_api_violated shows direct API triples that are accepted although inconsistent."
 ],
 "C52": [
  "partial",
  "Exact arithmetic: accepted angles are congruent to the entered ones and in range; violated for NaN, for a tiny negative angle with IEEE rounding and for 0 with an opposing suffix (360 instead of 0)."
 ],
 "C53": [
  "partial",
  "Value of every grammatical expression proved, unambiguity proved, spaced text proved to scan as its tokens; violated for unspaced operators before digits and for the sign of a literal."
 ],
 "C54": [
  "proved",
  ""
 ],
 "C55": [
  "partial",
  "C55_maximum_partial. C55_violated: empty optional dereferenced when every photo has a minimum; C55_file_extrema_violated: extrema from the photo files come too late."
 ],
 "C56": [
  "partial",
  "Proved in IEEE arithmetic for all finite values; NaN latitudes are not refused (C56_nan_violated). The planetographic conversion enters through the hypothesis that it stays in the interval, which C56_graphic proves for correctly rounded elementary functions."
 ],
 "C57": [
  "proved",
  ""
 ],
 "C58": [
  "proved",
  "A command that throws (rather than returning an error) does stop later ones: C58_exception_stops."
 ],
 "C59": [
  "partial",
  "Symmetry, reflexivity, monotonicity, NaN and almost_zero are proved for all doubles; closeness needs the sum not to overflow (C59_close_partial, C59_close_violated)."
 ],
 "C60": [
  "partial",
  "Order of the limits proved; whole-number limits proved for 8/16/32 bit maps; violated for fractional limits on integer maps."
 ],
 "C61": [
  "partial",
  "Violated: user default ranges never take effect, for every history; proved instead that each plane gets exactly its own limits."
 ],
 "C62": [
  "partial",
  "C62_no_data_partial characterises the warnings; C62_violated."
 ],
 "C63": [
  "partial",
  "Proved for whole numbers; violated for fractions and exponents, which are ignored."
 ],
 "C64": [
  "partial",
  "Proved for files that write out every latitude type; violated otherwise."
 ],
 "C65": [
  "partial",
  "Use of the intervals proved for all histories; setting both proved; violated when one is given."
 ],
 "C66": [
  "proved",
  ""
 ],
 "C67": [
  "proved",
  "Also C67_no_type_violated: without a data type the clause throws instead of warning."
 ],
 "C68": [
  "partial",
  "Proved for the body centre set-up; for the optical axis set-up exactly characterised: holds on the central meridian only (C68_axis_violated)."
 ],
 "C69": [
  "partial",
  "Refuted (C69_axis_violated); only the correction itself keeps its axis."
 ],
 "C70": [
  "partial",
  "Position proved in full (C70_middle); acceptance iff visible proved for longitudes 0..360 away from polar views and, up to 10^-12 degrees of latitude beyond the limb, for polar views (C70_polar_partial); C70_violated: longitude -350 seen from above 350 is rejected."
 ],
 "C71": [
  "partial",
  "Proved both ways for simple cylindrical (whenever there is a grid at all, see C43) and Mercator maps but for half a sample at one end; the 0/360 meridian is never drawn for retrograde bodies (C71_meridian_violated)."
 ],
 "C72": [
  "partial",
  "C72_prograde is the full statement for prograde bodies (and retrograde bodies seen from above longitude 0) away from the poles; C72_lines_partial says where retrograde bodies' circles of latitude are drawn instead, and C72_violated is a visible grid point that is not drawn. C72_polar_partial: polar views, where points of meridians on the equator itself are left out beyond 90 degrees from the prime meridian (C72_equator_violated). C43_orthographic covers all views but only says that white pixels are nearest to points of grid lines."
 ],
 "C73": [
  "partial",
  "C73_drawn_partial: white pixels lie on circles of grid latitudes to within 1.5 pixels plus one part in the map size (the grid's scale differs from the map's), or on diameters through grid longitudes. The full claim is false: C73_opposite_violated (the line continues beyond the pole) and C73_mirrored_violated (lines mirrored where longitude increases to the left)."
 ],
 "C74": [
  "partial",
  "CFITSIO calls succeed or fail as an input says; DATE, checksums and the keywords CFITSIO writes itself are not modelled. The data part needs planes of at least two elements (see C48_one_by_one_violated) and CFITSIO succeeding: a failed write is reported on the terminal but the command still returns success (C74_unwritten_violated)."
 ],
 "C75": [
  "partial",
  "Other files are never touched, and failing to complete the parameters or returning a failure code leaves all files alone. False of the code for exceptions: C75_violated (no data type) and C75_source_violated (unreadable source)."
 ],
 "C76": [
  "partial",
  "BSCALE, BZERO, BUNIT, BLANK and the array are consistent (exact arithmetic for the error bound). False of the code for DATAMIN and DATAMAX (C76_extrema_violated), for undefined elements without DATA_BLANK (C76_no_blank_violated) and for the history of 64 bit maps of several planes (C76_longlong_violated)."
 ],
 "C77": [
  "partial",
  "Holds for the user's author, origin, object, comments and blank value. False of the code for scale, offset and unit (C77_scale_violated) and for observation keywords (C77_observation_violated)."
 ],
 "C78": [
  "partial",
  "C78_projection_partial covers every projection, option and the averaging mode except the latitude type of a simple cylindrical map that leaves it out (C64_projection_violated shows it leaks from earlier planes); C78_cylindrical covers the other options of such maps; C78_accepted characterises acceptance completely."
 ],
 "C79": [
  "partial",
  "False of the program: with the sun above latitude 12 degrees of a sphere the datum at the sub-solar point is 1 + 2^-52 for every correctly rounded mathematical library, so the assertion fails (C79_violated) or, without assertions, the pixel stays blank (C79_blank_violated). C79_bound_partial: the excess is at most 2^-48. In exact arithmetic the value is a cosine (C35)."
 ],
 "C80": [
  "partial",
  "Every accepted photo is set up from its own clauses after any history (C80_options_partial), valid photos are accepted (C80_accepts), invalid ones rejected (C80_rejects_partial), and centers of orthographic maps do not leak (C80_ortho_center). The code breaks the property for lens values that are not positive and NaN centers (accepted and ignored), MINNAERT clauses (ignored) user nibble defaults of 2^32 and more (wrap around) and the default of REMOVE_SKY (documented as enabled, but disabled)."
 ],
 "C81": [
  "partial",
  "Mercator proved for all bodies. Polar stereographic maps are conformal, but the distortion is right for spheres only; for every flattened body it is wrong in the centre and too small on the equator (C81_stereographic_violated)."
 ],
 "C82": [
  "proved",
  "For any plots with distinct offsets, photos without interpolation, photometric or lens correction; coordinates of the camera are real numbers rounded with an error bound."
 ],
 "C83": [
  "partial",
  "The reading is proved for every data type and IEEE arithmetic (C83_latitude, C83_longitude; no longitude planes exist for BYTE maps). Empty cells of integer maps without a blank value cannot be told apart (C83_empty_violated)."
 ],
 "C84": [
  "partial",
  "Proved for all commands whose mosaics have photos that agree about the keyword; C84_mosaic says what happens otherwise: the last photo speaks for all (C84_mosaic_violated). Damaged files: C84_damaged."
 ],
 "C85": [
  "partial",
  "Proved for photos whose data are not scaled, corrected or interpolated and not 64 bit integers; false otherwise (C85_scaled_violated, C85_blank_violated, C85_flat_field_violated, C85_type_violated)."
 ],
 "C86": [
  "proved",
  "Every layout of every list of entries is read as its tokens. Names directly after the colon, one-word comments before names, empty texts, upper case functions and CR LF are read differently from what the manual suggests and are shown as violations."
 ],
 "C87": [
  "proved",
  "Every file with its entries in order has one parse tree, and every text with a parse tree has its entries in order. Where the manual promises more the negation is proved: user files without a grid interval, orthographic centers without a resolution, polar options without a pole, expressions for the number of samples. Trusted: that Bison's parser accepts exactly the grammar."
 ],
 "C88": [
  "partial",
  "Commands of accepted files and the defaults they leave are exactly those the entries ask for, after any history; which files are accepted is C92. Missing: the view of photos with a lens or center that is not a number (their other options are covered), independence of the kind of latitudes left by earlier maps (false, C64)."
 ],
 "C89": [
  "proved",
  "Maps of one photo used without flat field and interpolation, with any camera geometry; flat fields, interpolation and several planes are covered by C91."
 ],
 "C90": [
  "proved",
  "The data of the maps are the subject of C91 and success that of C95. Actions performed before a syntax error, and messages, are not modelled."
 ],
 "C91": [
  "partial",
  "Cells of planes of photos (inverted, flat-fielded, nibbled, interpolated), mosaics, latitudes, longitudes and cosines. Missing: cells of mosaics where a photo is seen without having a datum, which the program gets wrong (C91_mosaic_violated)."
 ],
 "C92": [
  "partial",
  "C92_accepted and C92_commands are complete: valid files are accepted after any history. C92_refused_partial: other files are refused, except for values that are not checked (NaN intervals, distances, emission limits and centers, non-positive lenses), see C92_interval_violated and C80_lens_violated."
 ],
 "C93": [
  "proved",
  ""
 ],
 "C94": [
  "partial",
  "violated at points where the cosine is 1 (C94_emission_violated, C94_phase_violated, C94_blank_violated); proved for points whose cosine is not within 2^-42 of -1 or 1"
 ],
 "C95": [
  "proved",
  "Assertions of images of cosines are left out: see C94. Maps of photos and planes with DATA_MIN or DATA_MAX are not covered."
 ],
 "C96": [
  "proved",
  "Positions of cells of simple cylindrical maps (planetocentric and planetographic latitudes, longitudes) and longitudes of Mercator maps; latitudes of Mercator maps are not covered by the statement (C15, C32 over the reals)."
 ],
 "C97": [
  "proved",
  "C83 joined with C96: values of latitude and longitude planes of simple cylindrical maps, and of longitude planes of Mercator maps."
 ],
 "C98": [
  "proved",
  "Over the reals; the input part in exact arithmetic."
 ],
 "C99": [
  "partial",
  "Lines proved for all tokens and the end of the file (C99_line, C99_end; for files with a line ending in a colon only if the generated scanner counts newlines of its default rule). Columns are wrong: two less than the column on the first line, one less on later lines (C99_column_violated, C99_indented_violated)."
 ]
}