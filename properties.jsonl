{"id": "C01", "title": "Image inversion mirrors exactly, undoes itself, and rejects wrong sizes", "statement": "Inverting an image's samples puts at (line k, sample i) the pixel that was at (k, samples-1-i); inverting its lines puts at (k,i) the pixel that was at (lines-1-k, i). Each inversion applied twice gives back the original image, the two commute, and an image whose element count is not samples*lines is rejected with invalid_argument and left untouched.", "quantifier": "all images of any element type, all sample and line counts including odd, even, one and zero", "why_tests_cant": "Index arithmetic at the middle row/column and at degenerate sizes has infinitely many shapes; tests sample a few.", "anchors": ["lib/marc/utility.h: invert_samples, invert_lines"]}
{"id": "C02", "title": "Angle validation accepts exactly the documented interval", "statement": "Latitude validation returns the angle in radians exactly when the argument is a number in [-90,90] degrees, and longitude / position angle validation exactly when it is a number in [-360,360]; every other double, NaN and both infinities included, is rejected with invalid_argument.", "quantifier": "all doubles including NaN and infinities", "why_tests_cant": "The accepted set is an uncountable interval with exceptional values; tests check endpoints.", "anchors": ["lib/marc/Validate.h: validate_latitude, validate_longitude, validate_position_angle"]}
{"id": "C03", "title": "Tracked extrema are the true minimum and maximum of the data seen", "statement": "After feeding any non-empty finite sequence of non-NaN data to a fresh extrema object, its minimum and maximum are values of that sequence and bound every value of it; the order of the sequence does not matter, and the object reports itself valid exactly when at least one datum was seen.", "quantifier": "all finite sequences of data in any order", "why_tests_cant": "A property of every history of update calls.", "anchors": ["lib/marc/extrema.h: extrema::update, extrema::is_valid, extrema::reset"]}
{"id": "C04", "title": "Merging extrema gives the extrema of the union", "statement": "Updating one extrema object with another yields the smaller of the two minima and the larger of the two maxima, an unset value counting as absent. (The code violates this when the destination minimum is unset: the minimum is then never taken while the maximum is.)", "quantifier": "all pairs of extrema objects, each endpoint set or unset", "why_tests_cant": "Needs every combination of set/unset endpoints and every ordering of values.", "anchors": ["lib/marc/extrema.h: extrema::update(extrema const &)", "src/MosaicImageFactory.cpp: make"]}
{"id": "C05", "title": "Extrema construction and range test", "statement": "Constructing extrema from two numbers throws invalid_argument exactly when one is NaN or the (type clipped) minimum exceeds the maximum; otherwise the stored endpoints are the arguments clipped to the data type's range, minimum <= maximum, and in_range accepts exactly the numbers between them (never NaN).", "quantifier": "all pairs of doubles and every map data type", "why_tests_cant": "Continuous two-dimensional input space with NaN/infinite corners.", "anchors": ["lib/marc/extrema.h: extrema::extrema, in_range, validate_extremum", "lib/marc/Map_traits.h: minimum, maximum"]}
{"id": "C06", "title": "Every map cell is either the blank value or the in-range datum read for it", "statement": "A map produced for any projection and source image has exactly samples*lines cells; the cell at an offset plotted by the projection holds the source datum for that latitude/longitude when the read succeeds and the datum lies within the configured [minimum, maximum], and every other cell holds the blank value.", "quantifier": "all projections (any finite plot sequence), images, sizes, extrema, data types", "why_tests_cant": "Quantifies over every source image function and every plotting order.", "anchors": ["lib/marc/MapFactory_t.cpp: make_map, plot, get_extrema"]}
{"id": "C07", "title": "Reported DATAMIN/DATAMAX are the true extrema of the plotted data, over all planes", "statement": "After plotting any number of planes, the recorded extrema are exactly the minimum and maximum of the values stored in plotted cells of all planes, and they are absent exactly when no datum was stored in any plane.", "quantifier": "all sequences of planes and plotted data", "why_tests_cant": "Depends on the full history of plotting over planes.", "anchors": ["lib/marc/MapFactory_t.cpp: plot", "lib/marc/plot_info.h: update_extrema, data_mapped", "src/MapCommand_t.cpp: make_map_planes"]}
{"id": "C08", "title": "User blank value must be representable in an integer map", "statement": "For an integer typed map a user supplied blank value outside the data type's range makes map creation throw invalid_argument before anything is plotted, and otherwise every unplotted cell has exactly that value; without one the cells are 0, and for floating point maps a user blank is ignored and cells are NaN.", "quantifier": "all 64-bit blank values, all data types", "why_tests_cant": "2^64 blank values times data types.", "anchors": ["lib/marc/MapFactory_t.cpp: make_map", "lib/marc/Map_traits.h: empty_value"]}
{"id": "C09", "title": "Progress notifications count every visited cell exactly once", "statement": "While a map is plotted each observer receives plot counts 1,2,...,n in order (n the number of visited cells) followed by one completion notification equal to the map size, after which the counter restarts from zero for the next map.", "quantifier": "all observers, all visit counts not exceeding the map size, any number of maps in sequence", "why_tests_cant": "A property of all notification histories.", "anchors": ["lib/marc/Notifier.cpp: notify_plotted, notify_done", "lib/marc/Observer.h: notify"]}
{"id": "C10", "title": "Notification counts increase strictly between calls", "statement": "The observer documentation guarantees the plot count increases between calls. (The code violates this for every fully plotted map: the completion notification repeats the count of the last plot notification.)", "quantifier": "all plotting histories", "why_tests_cant": "Needs every history; a test with a partially plotted map misses it.", "anchors": ["lib/marc/Observer.h: notify", "lib/marc/Notifier.cpp: notify_done"]}
{"id": "C11", "title": "Console progress never exceeds 100 percent and prints each mark once", "statement": "For any map size, the percentage computed for a plot count not exceeding the map size is between 0 and 100 even under floating point rounding; over a complete map the console prints each even percentage mark from 2 to 100 exactly once, in order, whatever the map size and however many cells were skipped.", "quantifier": "all map sizes below 2^53 (and rounding), all increasing count histories ending in the map size", "why_tests_cant": "Depends on floating point rounding for every ratio and on the history of calls.", "anchors": ["src/ProgressConsole.cpp: notify, reset"]}
{"id": "C12", "title": "Each projection visits map offsets at most once, in row-major order, within the map", "statement": "Simple cylindrical, Mercator, polar stereographic and orthographic plotting visit offsets line by line in increasing order, each offset k*samples+i at most once, all below samples*lines; the first three visit every offset (unless root finding throws) and orthographic visits exactly the pixels whose line of sight meets the body.", "quantifier": "all map sizes, all projection parameters", "why_tests_cant": "Holds for every map size; no finite sample suffices.", "anchors": ["lib/marc/SimpleCylindrical.cpp: plot_map", "lib/marc/Mercator.cpp: plot_map", "lib/marc/PolarStereographic.cpp: plot_map", "lib/marc/Orthographic.cpp: plot_map"]}
{"id": "C13", "title": "Simple cylindrical pixel latitudes lie in the requested range and are evenly spaced", "statement": "The latitudes plotted for successive lines are the centres of `lines` equal subdivisions of [lo_lat,hi_lat], strictly increasing with the line number and strictly inside the range; with planetographic maps this holds of the planetographic latitude, and the plotted planetocentric latitude is its conversion.", "quantifier": "all bodies, latitude ranges, map sizes, lines", "why_tests_cant": "Continuous parameters and arbitrary sizes.", "anchors": ["lib/marc/SimpleCylindrical.cpp: SimpleCylindrical, plot_map, boundary_latitude"]}
{"id": "C14", "title": "Simple cylindrical longitudes tile the requested range in the body's rotation direction", "statement": "The longitude width of the map is positive and at most a full circle: lo_lon is reduced by 360 degrees when greater than hi_lon, and equal bounds mean a full circle; longitudes at pixel centres are the centres of `samples` equal parts of [lo_lon,hi_lon], increase to the right for retrograde bodies and decrease for prograde ones, and the prograde map is the mirror image of the retrograde one.", "quantifier": "all longitude bounds in [-360,360], all map widths", "why_tests_cant": "Continuous parameters with wrap-around cases.", "anchors": ["lib/marc/SimpleCylindrical.cpp: SimpleCylindrical", "lib/marc/SimpleCylindrical.h: get_longitude"]}
{"id": "C15", "title": "Mercator projection equation is odd, increasing and inverted by the plotted latitude", "statement": "The Mercator ordinate as a function of planetographic latitude is odd and strictly increasing on (-90,90) for every oblate body, so a plotted latitude is the unique one for its line; for a sphere the ordinate equals ln(tan(45deg+lat/2)).", "quantifier": "all bodies (eccentricity in [0,1)), all latitudes", "why_tests_cant": "An inequality over reals.", "anchors": ["lib/marc/Mercator.cpp: mercator_x, plot_map"]}
{"id": "C16", "title": "Mercator longitudes cover the full circle once and lines are symmetric about the equator", "statement": "Longitudes at pixel centres lie strictly inside (0,360) degrees, are equally spaced, distinct, reversed for prograde bodies; lines k and lines-1-k have opposite ordinates.", "quantifier": "all map sizes", "why_tests_cant": "All sizes.", "anchors": ["lib/marc/Mercator.cpp: get_longitude, plot_map"]}
{"id": "C17", "title": "Polar stereographic radius is strictly monotone and pole-centred", "statement": "The stereographic radius is zero at the mapped pole and strictly decreasing in planetographic latitude toward it, so each map radius corresponds to one latitude; the plotted longitude is atan2 of pixel offsets, negated according to pole/rotation; maximum latitudes of magnitude >= 90 are rejected.", "quantifier": "all oblate bodies, latitudes, pixels", "why_tests_cant": "Real inequality; all parameters.", "anchors": ["lib/marc/PolarStereographic.cpp: stereo_rho_impl, plot_map, PolarStereographic"]}
{"id": "C18", "title": "Orthographic plotting inverts the orthographic view", "statement": "Every point plotted by the orthographic projection lies on the spheroid, projects back onto the centre of the pixel it is plotted at, and is the nearer of the (at most two) intersections of that pixel's line of sight with the body; pixels whose line of sight misses the body are not plotted.", "quantifier": "all bodies, sub-observer points, position angles, scales, map sizes", "why_tests_cant": "Continuous geometry; tests compare a few pixels.", "anchors": ["lib/marc/Orthographic.cpp: plot_map, map_parameters"]}
{"id": "C19", "title": "Automatic scale and offset for virtual images", "statement": "When a scale and offset are found for an integer type the scale is a power of ten at least 1 and the transformed source range [scale*min+offset, scale*max+offset] fits the type; when the source range is wider than the type none is found. (The code violates parts: scaled ranges can overflow the type, and the scale can be below 1 for 64-bit types.)", "quantifier": "all finite source ranges and all integer types", "why_tests_cant": "Continuous inputs times types.", "anchors": ["lib/marc/details/scale_and_offset.h: scale_and_offset::operator()", "src/LatitudeImageFactory.cpp", "src/LongitudeImageFactory.cpp", "src/MuImageFactory.cpp"]}
{"id": "C20", "title": "Virtual image scaling round-trips through BSCALE/BZERO", "statement": "Applying the FITS BSCALE/BZERO values reported by a virtual image to the stored datum gives back the physical datum, for every nonzero scale and every offset.", "quantifier": "all scales != 0, offsets, data", "why_tests_cant": "Algebraic identity over all reals.", "anchors": ["lib/marc/VirtualImage.cpp: read_data", "lib/marc/VirtualImage.h: scale, offset"]}
{"id": "C21", "title": "First-read compositing returns the first successful image's datum", "statement": "A mosaic composited by first-read returns true exactly when some image read succeeds, and then the datum is the one the earliest such image produces; later images are not consulted.", "quantifier": "all lists of images, all outcomes", "why_tests_cant": "Arbitrary image lists.", "anchors": ["lib/marc/first_read.cpp: composite"]}
{"id": "C22", "title": "Unweighted averaging returns the arithmetic mean of the successful reads", "statement": "When two or more images can be read at a location the composited datum is the sum of the successfully read data divided by their number, it does not depend on the failing images, and it lies between the smallest and largest datum read; the read succeeds exactly when at least one image does. (With exactly one success a later failing read may overwrite the datum.)", "quantifier": "all lists of images and outcomes", "why_tests_cant": "Arbitrary image lists and data.", "anchors": ["lib/marc/unweighted_average.cpp: composite"]}
{"id": "C23", "title": "Weighted averaging returns the weighted mean of the successful reads", "statement": "When two or more images are read and the total weight is positive the datum is sum(w*d)/sum(w) over successful reads; equal weights reduce to the unweighted mean, a zero-weight image has no influence when another has positive weight, and the result lies between the smallest and largest datum read.", "quantifier": "all lists of images, weights and outcomes", "why_tests_cant": "Arbitrary image lists, weights and data.", "anchors": ["lib/marc/weighted_average.cpp: composite"]}
{"id": "C24", "title": "Photo reads never touch memory outside the image", "statement": "Whenever the constructor's consistency checks pass and nibble amounts do not exceed the image dimensions, reading any latitude/longitude accesses only indices below samples*lines. (Nibbling more than the image dimension passes validation through unsigned wrap-around and breaks this.)", "quantifier": "all images, nibbles, geometries, coordinates", "why_tests_cant": "All coordinates and all sizes; out-of-bounds reads are silent.", "anchors": ["lib/marc/PhotoImage.cpp: PhotoImage, read_data", "lib/marc/PhotoImageParameters.cpp: validate_parameters"]}
{"id": "C25", "title": "Nibbled, sky and undefined pixels never contribute", "statement": "A successful photo read implies the pixel lies inside the un-nibbled rectangle, is on the body when sky removal is on, and the datum is not NaN; without interpolation the datum is exactly the pixel containing the projected coordinate.", "quantifier": "all images, nibbles, masks, coordinates", "why_tests_cant": "All pixel positions and masks.", "anchors": ["lib/marc/PhotoImage.cpp: read_data"]}
{"id": "C26", "title": "A photo read depends only on the location, not on the caller's datum variable", "statement": "The outcome of reading a photo should not depend on the prior content of the output variable. (The code violates this: a NaN left in the output by an earlier image of a mosaic makes every later image's read fail.)", "quantifier": "all prior contents", "why_tests_cant": "Depends on call history through a shared variable.", "anchors": ["lib/marc/PhotoImage.cpp: read_data", "lib/marc/first_read.cpp"]}
{"id": "C27", "title": "Scan weight is the distance to the nearest image or sky edge", "statement": "Without sky removal the weight of pixel (i,k) is min(i, samples-i, k, lines-k). With sky removal it should be the distance to the nearest sky pixel in its row/column. (The code violates the latter: the sample scan looks for body pixels, so the weight is 0 for every readable pixel.)", "quantifier": "all masks and pixels", "why_tests_cant": "All masks.", "anchors": ["lib/marc/PhotoImage.cpp: data_weight, scan_samples, scan_lines"]}
{"id": "C28", "title": "Bilinear interpolation preserves constants and is affine in the data", "statement": "Interpolating a neighbourhood whose defined pixels are all equal returns that value; scaling and shifting pixel values scales and shifts the result; results stay within a half-range overshoot of the defined neighbouring pixels, and within a quarter range when all four are defined; the interpolation only reads the four pixels around the coordinate and only inside the nibble rectangle; it fails exactly when the cell leaves the rectangle or none of the lower, upper and left pixel pairs is fully defined, and then leaves the datum alone. (Exact reproduction at pixel corners does not hold, and a defined right-hand pair alone is not used.)", "quantifier": "all images, coordinates, NaN patterns", "why_tests_cant": "Continuous coordinates and arbitrary data.", "anchors": ["lib/marc/BilinearInterpolation.cpp: interpolate"]}
{"id": "C29", "title": "Rotation matrices are rotations and agree with the vector rotations", "statement": "RotX/RotY/RotZ preserve length and dot products, compose additively, are inverted by the opposite angle, and coincide with multiplication by the corresponding matrix, whose transpose is its inverse.", "quantifier": "all angles and vectors", "why_tests_cant": "Trigonometric identities over reals.", "anchors": ["lib/marc/Geometry.cpp", "lib/marc/Matrix.h: transpose, operator*"]}
{"id": "C30", "title": "Matrix and vector operators satisfy linear algebra laws", "statement": "Matrix product is associative, transposition reverses products and is an involution, products distribute over sums, scalar multiplication commutes, dot product is symmetric, and normalised vectors have unit length (nonzero vectors).", "quantifier": "all matrix dimensions and entries", "why_tests_cant": "All dimensions.", "anchors": ["lib/marc/Matrix.h", "lib/marc/Vector.h"]}
{"id": "C31", "title": "Galileo lens correction round-trips", "statement": "Converting image coordinates to object space and back (and vice versa) returns the starting coordinates, in both full-frame and summation mode.", "quantifier": "all coordinates", "why_tests_cant": "Cubic root identity over reals.", "anchors": ["lib/marc/GLLGeometricCorrection.cpp: image_to_object, object_to_image"]}
{"id": "C32", "title": "Bracketed root finding returns a point of the bracket or throws", "statement": "If the ordinates at both bracket ends are strictly on the same side of the target the call throws invalid_argument; otherwise it terminates within 100 steps, returning either a bracket end whose ordinate almost equals the target, or a point inside the bracket, or throws runtime_error.", "quantifier": "all functions, brackets and targets", "why_tests_cant": "All functions.", "anchors": ["lib/marc/root_find.cpp: root_find"]}
{"id": "C33", "title": "Planetographic/planetocentric latitude conversions are mutually inverse and monotone", "statement": "graphic(centric(x)) = x and centric(graphic(x)) = x on (-90,90); both are strictly increasing, odd, fix the equator, keep the open interval, planetographic magnitude is at least the planetocentric one, and they are the identity on spheres.", "quantifier": "all oblate bodies and latitudes", "why_tests_cant": "Real identity/inequality.", "anchors": ["lib/marc/OblateSpheroid.cpp: centric_latitude, graphic_latitude"]}
{"id": "C34", "title": "Centric radius puts the point on the spheroid and lies between the radii", "statement": "The point at a planetocentric latitude at the returned radius satisfies the spheroid equation, the radius lies in [polar, equatorial], equals the equatorial radius at the equator and the polar radius at the poles, is even, and decreases with |latitude|.", "quantifier": "all oblate bodies and latitudes", "why_tests_cant": "Real identity/inequality.", "anchors": ["lib/marc/OblateSpheroid.cpp: centric_radius, OblateSpheroid"]}
{"id": "C35", "title": "Emission, incidence and phase cosines are cosines", "statement": "mu, mu0 and cos_phase are in [-1,1] for every surface point and every observer outside the body, so the assertions in the virtual images hold; mu is the dot product of surface normal and unit direction to the observer; at the sub-observer point on a sphere mu is 1.", "quantifier": "all bodies, observers at range beyond the surface, latitudes, longitudes", "why_tests_cant": "Real inequality in five variables.", "anchors": ["lib/marc/OblateSpheroid.cpp: mu, mu0, cos_phase", "lib/marc/MuImage.cpp", "lib/marc/Mu0Image.cpp", "lib/marc/CosPhaseImage.cpp"]}
{"id": "C36", "title": "Radii of curvature are positive, ordered and reduce to the radius on spheres", "statement": "0 < M <= N for every latitude, M = N = radius on a sphere, and both equal eq_rad^2/pol_rad at the poles.", "quantifier": "all oblate bodies and latitudes", "why_tests_cant": "Real inequality.", "anchors": ["lib/marc/OblateSpheroid.cpp: M, N"]}
{"id": "C37", "title": "Ray/spheroid intersection returns a point of the spheroid on the ray", "statement": "ellipse_intersection returns success exactly when the direction is nonzero and the line meets the spheroid, and the latitude/longitude returned are those of an intersection point; when looking from outside toward the body it is the nearer one.", "quantifier": "all bodies, positions and directions", "why_tests_cant": "Continuous geometry.", "anchors": ["lib/marc/OblateSpheroid.cpp: ellipse_intersection", "lib/marc/Mathematics.h: quadratic_roots"]}
{"id": "C38", "title": "Quadratic roots are the roots", "statement": "quadratic_roots succeeds exactly for non-negative discriminant, and (for a != 0 and not b=c=0) both reported values satisfy the equation and every real solution is one of them. (For b = c = 0 the second root is 0/0.)", "quantifier": "all coefficients", "why_tests_cant": "Real identity, corner cases.", "anchors": ["lib/marc/Mathematics.h: quadratic_roots, sgn"]}
{"id": "C39", "title": "Visibility honours the emission angle limit and terminator", "statement": "is_visible is true exactly when the emission cosine exceeds cos(limit) and, if terminator use is on, the incidence cosine is positive; tightening the limit or enabling the terminator never makes a point visible; emission limits beyond 90 degrees are rejected.", "quantifier": "all geometries and points", "why_tests_cant": "All geometries.", "anchors": ["lib/marc/ViewingGeometry.cpp: is_visible, emi_ang_limit, use_terminator"]}
{"id": "C40", "title": "Latitude/longitude to pixel conversion is perspective projection about the optical axis", "statement": "With no lens correction, latlon2pix succeeds exactly for visible points and the pixel it returns is the intersection with the image plane of the line from the observer through the surface point, so that back-projecting the pixel direction meets the surface point.", "quantifier": "all geometries and points", "why_tests_cant": "Continuous geometry.", "anchors": ["lib/marc/ViewingGeometry.cpp: latlon2pix"]}
{"id": "C41", "title": "Computed camera rotation matrices are orthogonal and mutually inverse", "statement": "Whichever candidate is selected, observ2body and body2observ are orthogonal with determinant one and inverses of each other, for both ways of specifying the geometry.", "quantifier": "all geometry parameters", "why_tests_cant": "All angles.", "anchors": ["lib/marc/ViewingGeometry.cpp: rot_matrices"]}
{"id": "C42", "title": "Viewing geometry setters reject invalid values and leave state unchanged", "statement": "Each setter either throws and leaves the geometry unchanged or stores the converted value; negative longitudes are stored as the equivalent in [0,360). (Several setters accept NaN.)", "quantifier": "all doubles", "why_tests_cant": "All doubles including NaN.", "anchors": ["lib/marc/ViewingGeometry.cpp: setters"]}
{"id": "C43", "title": "Grid drawing writes only inside the grid and only 'white' on 'black'", "statement": "make_grid returns samples*lines cells each 0 or 255; drawing a latitude line in simple cylindrical grids sets a whole row and nothing else; no write is out of bounds.", "quantifier": "all sizes, intervals > 0, bodies", "why_tests_cant": "All sizes and intervals.", "anchors": ["lib/marc/MapFactory.cpp: make_grid", "lib/marc/SimpleCylindrical.cpp: plot_grid", "lib/marc/Mercator.cpp: plot_grid", "lib/marc/PolarStereographic.cpp: plot_grid", "lib/marc/Orthographic.cpp: plot_lat_lines, plot_lon_lines"]}
{"id": "C44", "title": "User supplied map parameters always win over automatically derived ones", "statement": "A map parameter explicitly set by the user is never changed by merging automatically populated parameters, for any sequence of merges.", "quantifier": "all parameter sets, all merge sequences", "why_tests_cant": "All histories of merges.", "anchors": ["src/map_parameters.cpp: merge, merge_optional, lock_parameter, is_mergeable"]}
{"id": "C45", "title": "Unset parameters are filled from the first source that supplies them", "statement": "Merging a sequence of parameter sets into one leaves each optional keyword at the first supplied (for doubles: non-NaN) value, whether or not later sources disagree; conflicts among auto-populated numeric values are recorded in HISTORY. (The message claims neither value is used.)", "quantifier": "all parameter sets, all merge sequences", "why_tests_cant": "All histories of merges.", "anchors": ["src/map_parameters.cpp: merge_optional"]}
{"id": "C46", "title": "Automatically chosen BITPIX can hold every plane", "statement": "The automatically chosen map data type should be at least as large as the type of every plane's source. (The code violates this: the first plane's BITPIX wins.)", "quantifier": "all lists of plane data types", "why_tests_cant": "All plane lists and orders.", "anchors": ["src/MapCommand.cpp: populate_map_parameters", "src/map_parameters.cpp: merge"]}
{"id": "C47", "title": "Only valid FITS BITPIX values are ever stored or returned", "statement": "A map parameter object never reports a BITPIX other than 8,16,32,64,-32,-64: setting another throws and leaves the value, and reading an unset one throws.", "quantifier": "all ints, all call sequences", "why_tests_cant": "All call histories.", "anchors": ["src/map_parameters.cpp: bitpix, valid_bitpix"]}
{"id": "C48", "title": "Map planes are written consecutively and never beyond the cube; photos are read whole", "statement": "Writing plane after plane puts plane j's data at elements j*samples*lines.. of the file, in order, without overlap; a plane whose size is not samples*lines is refused without effect, and once all planes are written further writes are refused. (For 1x1 maps the very last plane is refused.) Reading a photo file gives all its elements in order, with its width and height; a file with fewer than two axes, or with axes shorter than two, is refused.", "quantifier": "all cube sizes and all sequences of writes; all photo files", "why_tests_cant": "All write histories.", "anchors": ["src/FITS_image_t.cpp: write", "src/FITS_image.cpp", "src/FITS_file.cpp: input_file::read"]}
{"id": "C49", "title": "Planes whose image cannot be made leave no gap and do not abort the others", "statement": "The planes written are, in order, the maps of the images that could be made; every image factory is tried exactly once.", "quantifier": "all lists of image factories", "why_tests_cant": "All plane lists.", "anchors": ["src/MapCommand_t.cpp: make_map_planes"]}
{"id": "C50", "title": "Fallback command line parsing keeps operand order and stops at the first bad option", "statement": "Without argp the parsed file list is exactly the non-option arguments in order (plus everything after --), help/version options exit successfully, and any other option or an empty file list exits with a usage error.", "quantifier": "all argument vectors", "why_tests_cant": "All argument lists.", "anchors": ["src/command_line.cpp: parse"]}
{"id": "C51", "title": "Body radii input is completed consistently or rejected", "statement": "Radii validation accepts exactly when enough valid data is given; a missing radius is computed so that flattening = (eq-pol)/eq; accepted radii satisfy pol <= eq. (Corner cases with zero or NaN violate this.)", "quantifier": "all triples of doubles", "why_tests_cant": "Continuous triple with unset markers.", "anchors": ["src/parse_scan.cpp: Radii::validate"]}
{"id": "C52", "title": "Entered longitudes and position angles are normalised to the body's convention", "statement": "circle_angle maps any angle to the equivalent one in [0,360); East/West suffixes negate the angle modulo 360 exactly when they oppose the body's convention; latitudes are accepted exactly in [-90,90]; S suffix negates.", "quantifier": "all angles", "why_tests_cant": "All reals.", "anchors": ["src/parse.yy: circle_angle, longitude, latitude, position_angle"]}
{"id": "C53", "title": "Input expressions evaluate with usual precedence and associativity", "statement": "The calculator in the input grammar gives +,- and *,/ left associativity, ^ right associativity, unary minus binding tighter than * and looser than ^, and rejects division by zero.", "quantifier": "all token sequences / expression trees", "why_tests_cant": "All expressions.", "anchors": ["src/parse.yy: expr", "src/lexer.ll"]}
{"id": "C54", "title": "Built-in symbols cannot be replaced and lookups return what was registered", "statement": "Putting a symbol keeps an existing one of the same name; lookup returns the value first registered.", "quantifier": "all insertion sequences", "why_tests_cant": "All histories.", "anchors": ["src/calc.cpp: symrec, putsym, getsym"]}
{"id": "C55", "title": "Mosaic extrema come from the photos", "statement": "The mosaic image's reported minimum (maximum) is the least (greatest) among its photos when every photo has one. (The code dereferences an empty optional when every photo has a minimum.)", "quantifier": "all photo lists", "why_tests_cant": "All lists.", "anchors": ["src/MosaicImageFactory.cpp: make"]}
{"id": "C56", "title": "Latitude and longitude images report degrees within configured range", "statement": "Latitude images return the latitude in degrees within [-90,90] for each valid latitude and refuse others; longitude images return a value in [0,360] congruent to the longitude modulo 360 for every finite longitude.", "quantifier": "all latitudes and longitudes", "why_tests_cant": "All reals.", "anchors": ["lib/marc/LatitudeImage.cpp", "lib/marc/LongitudeImage.cpp"]}
{"id": "C57", "title": "Photo image preparation is flat-field subtraction followed by inversions, once", "statement": "The photo pixels used are raw minus flat field, then horizontally/vertically inverted as requested; mismatched flat field dimensions are rejected; the factory can make its image once only.", "quantifier": "all images and flags", "why_tests_cant": "All images.", "anchors": ["src/PhotoImageFactory.cpp: make, flat_field_correct"]}
{"id": "C58", "title": "Commands run in order; failures do not stop later maps but are reported", "statement": "After parsing all inputs every map command is executed in order; the program's exit status is success exactly when every command succeeded and nothing threw.", "quantifier": "all command lists", "why_tests_cant": "All lists.", "anchors": ["src/marc.cpp: main"]}
{"id": "C59", "title": "Approximate comparisons are symmetric and consistent", "statement": "almost_equal is symmetric, holds for equal finite nonzero-size values, is monotone in ulps, and implies closeness relative to magnitude; NaN is never almost equal; almost_zero is symmetric in sign.", "quantifier": "all doubles", "why_tests_cant": "All doubles.", "anchors": ["lib/marc/Mathematics.h: almost_equal, almost_zero, signum, sgn"]}
{"id": "C60", "title": "Plane data range from input files must be strictly ordered", "statement": "A plane's data range in an input file is accepted exactly when min < max; and integer map maps never store a datum outside the user's range. (Truncation of the bounds to the integer type breaks the latter for fractional bounds.)", "quantifier": "all ranges and data", "why_tests_cant": "Continuous.", "anchors": ["src/parse.yy: plane_data_range", "lib/marc/extrema.h", "lib/marc/MapFactory_t.cpp: plot"]}
{"id": "C61", "title": "User default data ranges apply to planes without their own", "statement": "DATA_MIN and DATA_MAX given in the user's defaults section hold for every later plane that does not give its own range.", "quantifier": "all default sections and plane lists", "why_tests_cant": "All configurations.", "anchors": ["src/parse.yy: defaults, plane_data_range, plane_size", "src/parse_scan.cpp: ParseParameter"]}
{"id": "C62", "title": "Planes without data are reported", "statement": "A 'no data mapped' warning names exactly the planes to which no datum was mapped. (The code tests whether any plane so far received data.)", "quantifier": "all plane lists", "why_tests_cant": "All plane histories.", "anchors": ["src/MapCommand_t.cpp: make_map_planes", "lib/marc/plot_info.h: data_mapped"]}
{"id": "C63", "title": "Integers in input files are used as written", "statement": "SAMPLES, LINES, PLANES, NIBBLE and DATA_BLANK take the value of the number written in the input file, or the number is rejected when it is not a whole number that fits. (Fractions and exponents are silently dropped: 1E3 becomes 1.)", "quantifier": "all numeric texts", "why_tests_cant": "Unbounded texts.", "anchors": ["src/parse.yy: integer, from_string, size", "src/lexer.ll"]}
{"id": "C64", "title": "Options of one map do not leak into later maps", "statement": "The command built from a map of an input file depends only on that map's own text and the user defaults, not on earlier maps or planes. (The latitude type of a LATITUDE plane leaks into later planes and SIMPLE_C maps.)", "quantifier": "all sequences of input files, maps and planes", "why_tests_cant": "All histories.", "anchors": ["src/parse.yy: map_setup, plane_setup, lat_type, projection_type"]}
{"id": "C65", "title": "User default grid intervals apply where not overridden", "statement": "Grid intervals given in a user defaults file apply to later maps with GRID: YES; an interval that is not given stays as it was; intervals given in a map apply to that map only. (Giving only one default interval sets the other one to zero.)", "quantifier": "all sequences of default files and maps", "why_tests_cant": "All histories.", "anchors": ["src/parse.yy: user_file_parse, grid, grid_intervals", "src/parse_scan.cpp: ParseParameter"]}
{"id": "C66", "title": "Numbered planes are accepted exactly in order", "statement": "Plane numbers in an accepted map are 1, 2, 3, ... in order, none exceeds PLANES, PLANES equals the number of planes, and such maps are accepted.", "quantifier": "all plane lists and counts", "why_tests_cant": "Unbounded lists and 64-bit wrapping.", "anchors": ["src/parse.yy: plane_size, planes, map_setup"]}
{"id": "C67", "title": "DATA_BLANK is accepted exactly when the data type can hold it", "statement": "A blank value in an input file is accepted exactly when the map data type is an integer type whose range contains it, and map creation then never rejects it.", "quantifier": "all data types and texts", "why_tests_cant": "All integers.", "anchors": ["src/parse.yy: blank_verifier, data_blank", "lib/marc/MapFactory_t.cpp: make_map"]}
{"id": "C68", "title": "Camera set-up reproduces what the user gave", "statement": "After set-up from the pixel coordinates of the body centre, the body centre is imaged on those coordinates, the sub-observer point faces the observer and the north pole points along the position angle. After set-up from a latitude and longitude at the optical axis, that point is imaged on the optical axis. (The latter fails off the central meridian.)", "quantifier": "all centres, ranges, scales, sub-observer points and position angles", "why_tests_cant": "All real inputs; two candidate rotations each time.", "anchors": ["lib/marc/ViewingGeometry.cpp: finalize_setup, rot_matrices, set_km_per_pixel"]}
{"id": "C69", "title": "Lens correction is about the optical axis", "statement": "With the Galileo lens correction, the point of the surface seen along the optical axis is reported on the optical axis by latlon2pix. (It is displaced, because the correction is given coordinates relative to the axis instead of image coordinates.)", "quantifier": "all cameras with the Galileo correction, both modes, all visible points on the axis", "why_tests_cant": "Continuous geometry.", "anchors": ["lib/marc/ViewingGeometry.cpp: latlon2pix, pix2latlon", "lib/marc/GLLGeometricCorrection.cpp: object_to_image"]}
{"id": "C70", "title": "A latitude and longitude asked for at the middle of an orthographic map appear there", "statement": "When the user asks for a latitude and longitude at the centre of an orthographic map, the point of the body with those coordinates appears exactly at the middle of the map whatever its size and scale, and the request is accepted exactly if that point is visible to the observer.", "quantifier": "all bodies, sub-observer points, position angles, scales, map sizes, latitudes and longitudes", "why_tests_cant": "Continuous geometry with wrap-around cases.", "anchors": ["lib/marc/Orthographic.cpp: Orthographic, map_parameters"]}
{"id": "C71", "title": "Grid lines run where the map has their latitudes and longitudes", "statement": "On simple cylindrical and Mercator maps the grid agrees with the map it belongs to: a grid pixel is white only if the map's pixel at that place is within one pixel of a grid latitude or longitude, and every grid latitude and longitude inside the map, the 0/360 degree meridian included, is drawn as a whole row or column.", "quantifier": "all bodies, rotation directions, latitude types, map sizes, boundaries and grid intervals", "why_tests_cant": "Continuous coordinates, rounding to pixels and every map size.", "anchors": ["lib/marc/SimpleCylindrical.cpp: plot_grid, plot_map", "lib/marc/Mercator.cpp: plot_grid, plot_map"]}
{"id": "C72", "title": "Grid lines of an orthographic map run along the visible half of the body", "statement": "On an orthographic map a pixel of the grid is white exactly if it is the pixel nearest to where the observer sees one of the points that make up the grid's circles of latitude and meridians; points on the far side of the body are not drawn.", "quantifier": "all bodies, rotation directions, observers, scales, map sizes and grid intervals", "why_tests_cant": "Continuous geometry, visibility at the limb and rounding to pixels for every view.", "anchors": ["lib/marc/Orthographic.cpp: plot_grid, plot_lat_lines, plot_lon_lines"]}
{"id": "C73", "title": "Grid lines of a polar stereographic map agree with the map", "statement": "On a polar stereographic map a grid pixel is white only if the map shows at that pixel a grid latitude, or a grid longitude, to within about a pixel, for either pole and either direction of rotation.", "quantifier": "all bodies, poles, rotation directions, maximum latitudes, map sizes and grid intervals", "why_tests_cant": "Continuous coordinates, rounding to pixels and every map size.", "anchors": ["lib/marc/PolarStereographic.cpp: plot_grid, plot_map"]}
{"id": "C74", "title": "A successful map command leaves exactly the requested file", "statement": "When a map command reports success, its file holds one image with the map's data type, samples, lines and (for several planes) planes, whose data are the maps of the planes in order and whose header has the author, origin, object and comments; a second 8 bit image named GRID with the grid and its comments follows exactly if a grid was asked for.", "quantifier": "all map commands, parameters, source images, projections, previous files and CFITSIO failures", "why_tests_cant": "Every combination of parameters, planes and failures of the FITS library.", "anchors": ["src/MapCommand.cpp: execute, write_grid", "src/MapCommand_t.cpp: make_map_planes", "src/FITS_image.cpp: image"]}
{"id": "C75", "title": "A map command that cannot be carried out leaves existing files alone", "statement": "A command never touches a file other than the one it was asked to create, and if it fails an existing file of that name keeps its contents.", "quantifier": "all map commands, ways of failing and existing files", "why_tests_cant": "Every way of failing at every point of the command.", "anchors": ["src/MapCommand.cpp: execute, populate_map_parameters"]}
{"id": "C76", "title": "Values in a map file read as FITS prescribes are physical values", "statement": "In maps of computed quantities with integer data, the header (BSCALE, BZERO, BLANK, DATAMIN, DATAMAX; for several planes the HISTORY) says how the array elements are converted to the physical values, to less than one unit of BSCALE, and which elements are undefined.", "quantifier": "all integer data types, scalings, images, maps and pixels", "why_tests_cant": "Every pixel value, scaling and data type.", "anchors": ["src/MapCommand.cpp: write_virtual_image_facts", "src/MapCommand_t.cpp: make_map_planes", "lib/marc/VirtualImage.h: scale, offset"]}
{"id": "C77", "title": "Keywords given by the user or by photos appear in the map file", "statement": "Author, origin, object, comments, blank value, data scale and offset given by the user, and the unit, telescope, instrument, observer, reference and equinox found in photos, appear in the header of the map file.", "quantifier": "all histories of parameter settings, source images and map commands", "why_tests_cant": "Every order of settings and every combination of sources.", "anchors": ["src/MapCommand_t.cpp: make_map_planes", "src/map_parameters.cpp: merge"]}
{"id": "C78", "title": "The options of a map are used as written", "statement": "Each map of an accepted input file gets the projection, limits and options its own clauses give, with fixed defaults for options left out, and averages photos as it says; a map is accepted exactly if its grid intervals, projection options, plane count, plane numbers and data ranges are in order.", "quantifier": "all input files and all maps read before", "why_tests_cant": "Every combination of clauses after every history of maps.", "anchors": ["src/parse.yy: map_entry, averaging, ortho, polar_s, simple_c, planes"]}
{"id": "C79", "title": "Images of incidence cosines can be read at every point", "statement": "An image of the cosine of the incidence angle gives a number from -1 to 1 at every point of the body, so that every pixel of a map of it gets a value, whatever the sun's place.", "quantifier": "all bodies, places of the sun, points and mathematical libraries", "why_tests_cant": "Rounding of the cosine for every pair of points.", "anchors": ["lib/marc/Mu0Image.cpp: read_data_i", "lib/marc/OblateSpheroid.cpp: mu0", "src/Mu0ImageFactory.cpp: make"]}
{"id": "C80", "title": "Photo clauses are used as written", "statement": "Each photo of a plane in an input file is set up with exactly the values of its own clauses: file and flat field names, inversion, interpolation, sky removal, lens correction, nibble values, viewing geometry, scale and center. Clauses that are left out have their documented default, nibble values the user's default. Nothing carries over from earlier photos or orthographic maps. Photos with values outside the documented ranges are rejected, all others accepted.", "quantifier": "every history of photos and orthographic maps, every list of photos with any operands", "why_tests_cant": "The parser keeps operands in file-scope variables that must be reset after each use; whether one leaks depends on the whole history of clauses, and the values range over all doubles.", "anchors": ["src/parse.yy image_setup", "src/parse.yy centers", "src/parse.yy image_geometry", "src/parse.yy nibbling", "src/parse_scan.h ParseParameter", "lib/marc/ViewingGeometry.cpp"]}
{"id": "C81", "title": "Reported distortion is the scale of the map", "statement": "The distortion a Mercator or Polar Stereographic projection reports for a planetographic latitude is the factor by which small lengths on the body's surface are enlarged on the map, relative to the place of true scale (the equator, or the pole in the centre). The factor is the same toward the pole and along the parallel.", "quantifier": "every oblate spheroid, every planetographic latitude between the poles, either pole in the centre", "why_tests_cant": "Tests compare two latitudes with 1; the claim is about derivatives of the projection on the surface at every latitude of every body.", "anchors": ["lib/marc/Mercator.cpp distortion", "lib/marc/PolarStereographic.cpp distortion", "lib/marc/PolarStereographic.cpp rho_coefficient", "lib/marc/PolarStereographic.cpp distortion_coefficient"]}
{"id": "C82", "title": "Map cells show the photo pixels of their surface points", "statement": "In a map of a photo every cell is either blank or shows the value of a photo pixel that is used (inside the nibbled frame, on the body if the sky is removed), and that pixel contains, up to the rounding of coordinates, the position at which the camera sees the surface point the projection assigns to the cell. Conversely, when the camera sees the surface point of a cell within a used pixel whose value lies within the limits of the map, the cell shows that value. Making the map neither fails nor has undefined behaviour.", "quantifier": "every projection that visits each cell at most once, every photo, camera position in front of the body, nibble values, value limits, map type (64-bit integers without limits excluded), and rounding of coordinates", "why_tests_cant": "It joins projection, camera, photo and map creation; tests exercise each of them alone with a few values.", "anchors": ["lib/marc/MapFactory.h make_map", "lib/marc/MapFactory.h plot", "lib/marc/PhotoImage.cpp read_data", "lib/marc/ViewingGeometry.cpp latlon2pix", "lib/marc/ViewingGeometry.cpp is_visible"]}
{"id": "C83", "title": "Latitude and longitude planes tell where each cell is", "statement": "In a map plane of latitudes or longitudes, the physical value a FITS reader obtains for a cell (element times BSCALE plus BZERO) is the latitude (planetocentric or, if asked for, planetographic) or the longitude (up to whole turns), in degrees, of the point shown in the cell, within one step of the map's data type and a rounding error below 2^-39 degrees. Cells that show no point can be told apart from those that do.", "quantifier": "every projection that visits each cell at most once, image size, map data type, latitude in [-pi/2, pi/2], longitude of magnitude up to 100 radians, spheroid with radii in ratio up to 2^20, in IEEE double arithmetic with correctly rounded elementary functions", "why_tests_cant": "The value passes through conversion, scaling, offset, range check and truncation in floating point; a test checks a few cells, not every latitude for every type.", "anchors": ["src/LatitudeImageFactory.cpp make", "src/LongitudeImageFactory.cpp make", "lib/marc/LatitudeImage.cpp read_data_i", "lib/marc/LongitudeImage.cpp read_data_i", "lib/marc/VirtualImage.cpp read_data", "lib/marc/OblateSpheroid.cpp graphic_latitude", "lib/marc/MapFactory_t.cpp plot"]}
{"id": "C84", "title": "What photo files say about themselves reaches the map", "statement": "If the user does not give the author, origin, object, instrument, observer, reference, telescope, unit, equinox, blank value or data type of a map, it is taken from the headers of the photos: from the first photo, plane after plane, whose file has it. If a keyword of a photo file exists but cannot be read, or its data type is unknown, the command fails and no file is changed.", "quantifier": "every map command, number of planes, photos and mosaics, and contents of their headers", "why_tests_cant": "What a keyword becomes depends on every photo's header and on the order of the planes.", "anchors": ["src/PhotoImageFactory.cpp populate_parameters", "src/MosaicImageFactory.cpp populate_parameters", "src/LatitudeImageFactory.cpp populate_parameters", "src/MapCommand.cpp populate_map_parameters", "src/FITS_file.cpp read_fits_key"]}
{"id": "C85", "title": "A map of one photo shows the photo's own data", "statement": "A map of one photo for which the user gives neither data type nor blank value has the data type and BLANK of the photo's file, and the FITS value of each cell is that of the photo's pixel in which the camera sees the point shown in the cell, or marks the cell as empty; it marks it as empty only if the point is not seen, the pixel is excluded or empty itself, or its datum is outside the limits given by the user.", "quantifier": "every photo file, camera geometry, projection that visits each cell at most once, inversion, nibbling and sky removal setting, and limits", "why_tests_cant": "The claim joins file reading, inversions, camera, map creation and header writing for every cell and photo.", "anchors": ["src/PhotoImageFactory.cpp make, populate_parameters", "src/FITS_file.cpp read", "lib/marc/PhotoImage.cpp read_data", "lib/marc/MapFactory_t.cpp plot", "src/MapCommand.cpp execute"]}
{"id": "C86", "title": "The layout of an input file does not change what is read", "statement": "However the entries of an input file are laid out - keywords in any letter case, blanks, tabs, line breaks and # comments between entries and before colons, expressions with or without blanks between operators - the parser is given exactly the tokens of these entries in their order: keyword, colon, and then the name, the text up to the end of the line, the word or the expression with its units.", "quantifier": "every list of entries (names, texts, words, poles, expressions with units, section marks), every spelling and every layout of it, of any length", "why_tests_cant": "There are infinitely many layouts; a scanner with start conditions, longest match and rule priority can mis-read a text only in combinations (a comment before a name, a unit after a number, a function after a sign) that samples miss.", "anchors": ["src/lexer.ll: start conditions comment_init, comment, keyword_token, expression, string, pole and all rules", "doc/MaRC_input.texi: Comments, Keywords", "src/calc.cpp: symrec functions"]}
{"id": "C87", "title": "An input file has one meaning", "statement": "An input file whose entries are those of the manual in the order of the manual, however laid out, is accepted and read in exactly one way: every entry belongs to one clause of one plane of one map. Every file that is accepted has its entries in this order, and no text can be read in two ways.", "quantifier": "every input file and user configuration file: every number of maps, planes and photos, every choice of optional entries, expressions and units, and every layout of the text", "why_tests_cant": "The input language is infinite, and ambiguity or a missing alternative of a grammar shows only in particular combinations of optional entries.", "anchors": ["src/parse.yy: all rules between map and expr", "src/lexer.ll", "doc/MaRC_input.texi: Input File, Projections, User Configuration File", "doc/examples/101.inp"]}
{"id": "C88", "title": "The commands of an input file are the ones its entries ask for", "statement": "Every accepted input file gives exactly one command for each of its maps, in their order. Each command has the values that follow the keywords of its own map, plane or photo, wherever the layout puts them, and the documented default for every entry left out: file name, size, header keywords, body, projection and its options, grid, number of planes, data ranges, and what each plane shows. Nothing of it depends on earlier maps, planes, photos or files except the defaults that a user configuration file sets and, for latitude planes and simple cylindrical maps, the kind of latitudes (C64).", "quantifier": "every text that is an input file or user configuration file, after every sequence of files read before, with every library behaviour of number conversion and arithmetic", "why_tests_cant": "The parser keeps its state in about forty file-scope variables that every action reads, sets or has to put back; a wrong or forgotten one shows only after particular combinations of clauses, maps and files.", "anchors": ["src/parse.yy: 328-385 and all actions", "src/parse_scan.h: ParseParameter", "src/map_parameters.cpp", "lib/marc/OblateSpheroid.cpp", "doc/MaRC_input.texi"]}
{"id": "C89", "title": "A map whose type the user gives holds the physical values of its photo", "statement": "If the user gives the data type of a map of a photo, the map has that type, and each cell either is empty or holds the physical value (BZERO + BSCALE times the stored element) of the photo's pixel in which the camera sees the point plotted there, converted to the type. It holds that value exactly if the value is within the limits of the map. Pixels marked as blank or NaN in the photo are empty cells. A map of doubles has the physical value up to the rounding of one product and one sum, and its header assigns the same physical value to the cell.", "quantifier": "every photo file of every data type, scaling and blank value, every data type given by the user, every camera geometry with or without lens distortion, inversion and nibbling, photos used without flat field and interpolation (C91 has those), every map of at least two cells each plotted at most once; the bound on rounding is for values up to 2^100", "why_tests_cant": "Data pass through the scaling of the file, the blank value, the limits and the conversion to the map's type; errors show only for combinations of file type, scaling, blank value and map type.", "anchors": ["src/PhotoImageFactory.cpp: PhotoImageFactory::make", "src/FITS_file.cpp: input_file::read", "src/MapCommand.cpp: MapCommand::execute", "lib/marc/MapFactory_t.cpp: MapFactory::plot"]}
{"id": "C90", "title": "The program makes the maps its input files ask for", "statement": "When the program ends with status 0, then for each map that the input files (the user's configuration file if there is one, and those of the command line) ask for, the file named after MAP holds that map, unless a later map has the same name: its size is SAMPLES by LINES (by the number of planes), its data type is the DATA_TYPE given, its header has the AUTHOR, ORIGIN, BODY, DATA_BLANK and all COMMENT entries given and names the projection of MAP_TYPE first in its history, and a second image of the same size named GRID with all XCOMMENT entries follows exactly if GRID: YES is given. However the program ends, no file is touched that no MAP entry names. If an input file cannot be read, is not in the input language or has a refused value, or the command line is refused, or a photo that is asked for cannot be opened, the program fails and no file is touched at all.", "quantifier": "every user configuration file, every list of input files with every text, every library behaviour of number conversion, arithmetic, geometry and CFITSIO, and every set of existing files", "why_tests_cant": "It joins scanner, grammar, parser state, parameter merging and map commands; each works on the output of the one before, for unboundedly many texts and files.", "anchors": ["src/marc.cpp: main, parse_file", "src/parse_scan.cpp: ParseParameter::push_command", "src/parse.yy", "src/MapCommand.cpp: MapCommand::execute"]}
{"id": "C91", "title": "The cells of the maps the program makes are the ones its input files ask for", "statement": "When the program ends with status 0, every cell of every plane of every map that the input files ask for shows what the entries of that plane ask for: if the projection plots a point of the body in the cell at which the plane's source (the photo with its inversion, flat field, nibbles, sky removal and interpolation, the first, mean or weighted mean of the data of several photos, or the latitude, longitude or cosine with the scale and offset of the map's data type) has a datum within the limits of the plane (DATA_MIN, DATA_MAX, or else the source's own), the cell has that datum converted to the data type, and otherwise it is empty. Planes are in the order of their entries, and defaults and the kind of latitudes are those that earlier files and maps left in force.", "quantifier": "every user configuration file, every list of input files with every text, all photos and flat fields, every geometry and projection, every behaviour of CFITSIO, and every cell", "why_tests_cant": "Whether a cell shows the right pixel depends on every setting of the input file, the photo's header, size and pixel values, the order of planes and the plotting order; unit tests look at single images with fixed data.", "anchors": ["src/marc.cpp: main", "src/parse.yy: plane_setup, image_setup", "src/PhotoImageFactory.cpp: PhotoImageFactory::make", "src/FITS_file.cpp: input_file::read", "lib/marc/PhotoImage.cpp: PhotoImage::read_data", "lib/marc/MapFactory_t.cpp: MapFactory::make_map", "src/MapCommand_t.cpp: MapCommand::make_map_planes", "lib/marc/BilinearInterpolation.cpp: BilinearInterpolation::interpolate", "src/MosaicImageFactory.cpp: MosaicImageFactory::make", "lib/marc/first_read.cpp, unweighted_average.cpp, weighted_average.cpp: composite"]}
{"id": "C92", "title": "An input file is accepted exactly if its values are in their documented ranges", "statement": "A text that has the form of an input file or a user configuration file is accepted by the parser, after any files before it, exactly if the values of its entries are in their ranges: radii positive with the polar one at most the equatorial one, flattening from 0 below 1, grid intervals positive, blank values in the range of the data type, latitudes from -90 to 90 and longitudes and position angles from -360 to 360 degrees where they describe a photo, nibbles not negative, scales and lenses positive, the range beyond the body, lower limits below upper ones, planes numbered 1, 2, 3 up to the number of planes given, and samples and lines positive. The commands of an accepted file are then the ones of C88.", "quantifier": "every text with the form of an input file, every sequence of files accepted before it, every C library and every projection constructor", "why_tests_cant": "Acceptance is decided by dozens of checks spread over the grammar's actions, on variables that survive from clause to clause and file to file; a missing or doubled check shows only for particular combinations of clauses and histories.", "anchors": ["src/parse.yy: map_entry, image_setup, plane, data_range, data_blank, nibbling, lat_grid, lon_grid, user_file", "lib/marc/OblateSpheroid.cpp: OblateSpheroid::OblateSpheroid", "lib/marc/Validate.h: validate_latitude, validate_longitude", "src/PhotoImageFactory.cpp"]}
{"id": "C93", "title": "Cosine images hold the cosines of the real angles, up to rounding", "statement": "The datum of an emission, incidence or phase image at a point, taken back through the image's scale and offset, is within 2^-42 of the cosine of the angle in space: between the outward normal of the spheroid and the vector to the observer, between the normal and the direction of the sun, and between the direction of the sun and the vector to the observer. This holds in maps of every data type, for every place of observer and sun in degrees and every point, if the observer is at least two equatorial radii from the centre.", "quantifier": "all bodies with radii from 2^-20 and a ratio up to 2^20, all ranges from two equatorial radii to 2^60, all places of observer and sun, all points, data types and correctly rounded mathematical libraries", "why_tests_cant": "Rounding errors of some thirty operations for every combination of body, observer, sun and point; cancellation in the distance of the observer.", "anchors": ["lib/marc/OblateSpheroid.cpp: centric_radius, graphic_latitude, mu, mu0, cos_phase", "lib/marc/MuImage.cpp", "lib/marc/Mu0Image.cpp", "lib/marc/CosPhaseImage.cpp", "src/MuImageFactory.cpp: make", "src/CosPhaseImageFactory.cpp: make"]}
{"id": "C94", "title": "Images of emission and phase cosines can be read at every point", "statement": "An image of the cosine of the emission or phase angle gives a number from -1 to 1 at every point of the body, so that every pixel of a map of it gets a value, wherever the observer and the sun are.", "quantifier": "all bodies, places of the observer and the sun, ranges, points and mathematical libraries", "why_tests_cant": "Rounding of a quotient near 1 for every combination of points.", "anchors": ["lib/marc/MuImage.cpp: read_data_i", "lib/marc/CosPhaseImage.cpp: read_data_i", "lib/marc/OblateSpheroid.cpp: mu, cos_phase"]}
{"id": "C95", "title": "Runs that make maps of computed images succeed", "statement": "If every input file can be read, has the form of an input file and has its values in their ranges, if every map has a DATA_TYPE, shows only latitudes, longitudes or cosines without DATA_MIN and DATA_MAX, and has a size that can be counted, if no map of bytes shows longitudes, and if all calls of CFITSIO succeed, then the program ends with status 0 and all maps are there. The conditions on data types are needed: with a map without photos that has no DATA_TYPE, or a map of bytes that shows longitudes, the program does not end with status 0.", "quantifier": "every list of input files with every text of every form, every history of earlier maps and files, every set of existing files, every number conversion, and every projection that plots points in its map", "why_tests_cant": "Success has to hold for every combination of entries, and depends on state that earlier maps leave behind.", "anchors": ["src/marc.cpp: main, parse_file", "src/parse.yy", "src/MapCommand.cpp: MapCommand::execute", "src/LatitudeImageFactory.cpp: make", "src/LongitudeImageFactory.cpp: make", "lib/marc/scale_and_offset.h", "lib/marc/MapFactory_t.cpp: make_map"]}
{"id": "C96", "title": "Computed positions of the cells of cylindrical maps are where they should be, up to rounding", "statement": "The latitude and longitude at which a cell of a simple cylindrical map is plotted are, as computed in double precision, within 2^-46 radians of the center of the cell: of the k-th of `lines` equal parts of the range of latitudes, and of the i-th of `samples` equal parts of the range of longitudes, counted from the right for prograde bodies, where a range with equal bounds is a whole turn and a range whose lower bound is above the upper one goes over the prime meridian. In maps of planetographic latitudes the parts are equal in planetographic latitude and the bound is 2^-43 radians. No latitude lies outside of the bounds (or past the poles), and cells that are at least 10^-11 degrees apart (10^-9 degrees high in maps of planetographic latitudes) have different positions in the right order. Longitudes of Mercator maps are within 2^-47 radians of the center of their part of the circle and within the circle.", "quantifier": "all latitude ranges of at least 10^-6 degrees, all longitude bounds that are equal or at least 10^-6 degrees apart, both senses of rotation, all sizes up to 2^31, all cells, and for planetographic maps all oblate bodies with a polar radius of at least half the equatorial one and all correctly rounded mathematical libraries", "why_tests_cant": "Rounding errors for every combination of bounds, size and cell; the wrap over the prime meridian depends on comparisons of rounded values.", "anchors": ["lib/marc/SimpleCylindrical.cpp: SimpleCylindrical, plot_map", "lib/marc/Mercator.cpp: plot_map", "lib/marc/Mathematics.h: almost_equal", "lib/marc/OblateSpheroid.cpp: centric_latitude, graphic_latitude", "lib/marc/Validate.h: validate_latitude, validate_longitude"]}
{"id": "C97", "title": "Latitude and longitude planes of simple cylindrical maps hold the positions of the cells", "statement": "In a plane of latitudes of a simple cylindrical map every cell on line k reads, by BSCALE and BZERO, as the latitude in degrees (planetographic if asked for) of the center of the k-th of `lines` equal parts of the range of latitudes, and in a plane of longitudes every cell at sample i reads, up to whole turns, as the longitude of the center of the i-th of `samples` equal parts of the range of longitudes, counted from the right for prograde bodies; within one step of the data type and 2^-34 or 2^-38 degrees. Planetographic latitudes in maps of planetographic latitudes are evenly spaced. Planes of longitudes of Mercator maps hold the longitudes of the centers of equal parts of the whole circle in the same way.", "quantifier": "all bounds as in C96, oblate bodies with a polar radius of at least half the equatorial one, both senses of rotation, both kinds of latitude in the map and in the image, all sizes up to 2^31, all cells, data types and correctly rounded mathematical libraries", "why_tests_cant": "It joins the rounding errors of the projection, of the conversion of latitudes and of the scaling, for every map.", "anchors": ["lib/marc/SimpleCylindrical.cpp: SimpleCylindrical, plot_map", "lib/marc/LatitudeImage.cpp: read_data_i", "lib/marc/LongitudeImage.cpp: read_data_i", "src/LatitudeImageFactory.cpp: make", "src/LongitudeImageFactory.cpp: make", "lib/marc/MapFactory_t.cpp: make_map"]}
{"id": "C98", "title": "Flattening and eccentricity describe the body's shape", "statement": "The flattening a body reports is from 0 below 1, 0 for spheres only, gives the polar radius as equatorial radius times (1 - flattening), and is the one in the input file if the file gives one. The eccentricity is from 0 below 1, 0 for spheres only, agrees with the flattening as documented (e^2 = 1 - (1 - f)^2), and is that of the meridians: the distances of every point of the surface to the two foci add up to twice the equatorial radius.", "quantifier": "all oblate bodies, all points of the surface, all pairs of a radius and a flattening (exact arithmetic)", "why_tests_cant": "Real identities for every body.", "anchors": ["lib/marc/OblateSpheroid.h: flattening, first_eccentricity", "lib/marc/OblateSpheroid.cpp: OblateSpheroid", "src/parse_scan.cpp: Radii::validate"]}
{"id": "C99", "title": "Messages about an input file name the place they are about", "statement": "A syntax error is reported with the line and column of the token that cannot be accepted, and one at the end of the file with the last line; lines and columns are counted from 1.", "quantifier": "all texts of input files and all their tokens", "why_tests_cant": "Every layout of comments, blanks, empty lines and tokens before the error.", "anchors": ["src/lexer.ll: YY_USER_ACTION, %option yylineno", "src/parse.yy: yyerror", "src/marc.cpp: parse_file"]}
{"id": "C100", "title": "Sky removal leaves out exactly the pixels off the body", "statement": "With sky removal, the pixels of a photo that are left out are exactly those whose line of sight misses the body, whether the camera was set up with the pixel coordinates of the body center or with the latitude and longitude at the optical axis.", "quantifier": "all bodies, viewing geometries, lens corrections, photo sizes and pixels", "why_tests_cant": "Every direction of every ray against every spheroid, and every way to set up a camera.", "anchors": ["lib/marc/ViewingGeometry.cpp: pix2latlon, body_mask", "lib/marc/OblateSpheroid.cpp: ellipse_intersection", "lib/marc/Mathematics.h: quadratic_roots", "src/parse.yy: remove_sky, lat_lon_given"]}
