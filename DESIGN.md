# Formal model of MaRC: design

`properties.jsonl` lists the properties, `MANIFEST.json` says which theorems state them and how far they are proved.
The Lean project is in `lean/`.

## Layout

* `lean/Verif/Model/*.lean` – the model. Each definition cites the `/repo` file and lines it models and says where it simplifies.
* `lean/Verif/Spec/*.lean` – small specifications independent of the model.
* `lean/Verif/Lemmas/*.lean` – helper lemmas.
* `lean/Verif/Props/*.lean` – the property theorems (`Cnn_...`), each with an `example` showing that a concrete case meets its hypotheses. Specifications used by one file only stand at its top under "Specification".
* `lean/Verif.lean` imports everything (`tools/mkimports.sh` writes it).
* `tools/manifest.py` writes `MANIFEST.json` from the theorem names and `tools/status.json`.
* `tools/axioms.sh` writes `AXIOMS.txt`.
* `seeded/LOG.jsonl` – wrong programs tried against the theorems. "failed" lists the declarations that no longer compile after the edit; an edit that only broke a proof script, while the claim it breaks stayed provable, was followed by tightening, which "tightened" records.

Naming: `_partial` marks a theorem that covers part of its property (its comment says what is missing); `_violated` marks a theorem that the code breaks the property, with a witness.

## Trusted base

* Lean 4.33.0's kernel, and Mathlib's definitions (ℝ, trigonometric functions, `Finset`, `Matrix`, …).
* Axioms: at most `propext`, `Classical.choice` and `Quot.sound`. `AXIOMS.txt` lists them for each theorem. No axiom is added; there is no `sorry`, `native_decide` or `bv_decide`. `decide +kernel` is used for concrete witnesses and for finite domains as a whole.
* The correspondence between C++ text and Lean definitions, which was made by reading. It is documented definition by definition.

### Numbers

* `Dbl` (`Model/Num.lean`): NaN, ±∞ and rational finite values, with IEEE comparison semantics. Arithmetic is parametric in a rounding (`Fp`). `Fp.exact` never rounds; `Fp.ieee` is binary64 round-to-nearest-even with subnormals and overflow to infinity. Not modelled: the sign of zero, NaN payloads, signalling, the floating point environment, fused or extended-precision evaluation. Used for decisions: validation, extrema, map factory, compositing, photo images, parser values, setters.
* ℝ: geometry and projection formulas. Rounding of the C++ doubles is not modelled there; the theorems say that the *formulas* are right. Constants such as the degree are the exact values of the doubles the code uses where it matters.
* `Libm` (`Model/CosineImage.lean`): the mathematical library as functions; `Libm.Correct` (`Spec/Libm.lean`) says each is correctly rounded; `LibmRoot` (`Model/MuImage.lean`, `Spec/LibmRoot.lean`) adds square roots and `hypot`. C56, C79, C83, C93 and C94 use them.
* `std::size_t` is `Nat`, wrapping modulo 2^64 where the code can reach it; other conversions between integer types are modelled where they are not the identity.
* Undefined behaviour, including a failed `assert`, and exceptions are outcomes of their own (`Outcome.ub`, `Outcome.throw …`), never silently totalised.

### What is modelled

| source | model | not modelled |
|---|---|---|
| `lib/marc/utility.h` | `Utility` | |
| `lib/marc/Validate.h`, `Constants.h` (constants used) | `Validate` | other constants |
| `lib/marc/extrema.h` | `Extrema` | |
| `lib/marc/MapFactory.{h,cpp}`, `MapFactory_t.cpp`, `plot_info.h`, `Map_traits.h` | `MapFactory` | allocation failure |
| `lib/marc/Notifier`, `Observer`, `src/ProgressConsole` | `Progress` | terminal output itself |
| `lib/marc/Orthographic`, `Mercator`, `PolarStereographic`, `SimpleCylindrical` | `Projection`, `Grid` over the reals; `CylindricalF` (simple cylindrical maps and longitudes of Mercator maps) in floating point, operation by operation | orthographic and polar stereographic maps and latitudes of Mercator maps in floating point |
| `lib/marc/root_find.cpp` | `RootFind` | the unbracketed overload's convergence |
| `lib/marc/Mathematics.h` | `Mathematics` | `hypot` (taken as exact) |
| `lib/marc/Matrix.h`, `Vector.h`, `Geometry` | `LinearAlgebra` | formatting |
| `lib/marc/OblateSpheroid` | `OblateSpheroid` | rounding, except in `CosineImage` |
| `lib/marc/ViewingGeometry` | `ViewingGeometry` (geometry), `ViewSettings` (setters), `Sky` (`pix2latlon` with NaN) | debug output |
| `lib/marc/GLLGeometricCorrection` | `ViewingGeometry` | |
| `lib/marc/PhotoImage`, `PhotoImageParameters`, `NullInterpolation`, `NullPhotometricCorrection` | `PhotoImage`, `Pipeline` (its use of `ViewingGeometry`) | rounding inside `ViewingGeometry`: its results are real numbers rounded by any function |
| `lib/marc/BilinearInterpolation` | `Bilinear` | |
| `lib/marc/first_read`, `unweighted_average`, `weighted_average`, `MosaicImage`, `SourceImage` | `Compositing` | |
| `lib/marc/VirtualImage`, `scale_and_offset.h`, `LatitudeImage`, `LongitudeImage`, `Mu0Image`, `MuImage`, `CosPhaseImage` | `VirtualImage`, `CosineImage`, `MuImage`, `Pipeline` (planes of latitudes and longitudes) | contraction of products and sums into fused operations |
| `src/map_parameters` | `MapParameters` | |
| `src/FITS_image`, `FITS_file` (reading, output), `FITS_traits.h` | `Fits` | CFITSIO: its calls succeed or fail as an input says; `DATE`, checksums, keywords it writes itself |
| `src/MapCommand`, `MapCommand_t.cpp` | `MapCommand`, `Execute` | log texts other than warnings named in a property |
| `src/SourceImageFactory`, `PhotoImageFactory`, `MosaicImageFactory`, factories of virtual images | `Factories`, `VirtualImage`, `Sources` | |
| `src/calc`, expression part of `src/lexer.ll` and `src/parse.yy` | `Calc` | the built-in functions' values |
| `src/lexer.ll` | `Scanner`, `Locations` (lines and columns) | NUL bytes, what the default rule echoes; whether the generated scanner counts newlines of Flex's default rule is a parameter |
| `src/parse.yy`, `src/parse_scan` | `Grammar` (parse trees), `Actions` (the actions of a whole file), `Parser`, `PhotoClauses` (actions of clauses, given by their operands in order) | the generated parser: that Bison's tables accept the grammar's language and run the actions of the tree is trusted (an LALR(1) automaton built from the grammar outside Lean has 451 states and no conflicts besides those of `expr`, which precedences resolve; `Calc` models `expr` with its precedences) |
| `src/command_line`, `src/marc.cpp` | `CommandLine` | the `argp` variant, reading of the environment, file system |

Not modelled at all: `Log`, `strerror.h`, formatters, `BodyData.h` (an interface), memory exhaustion, threads (the program has none).

## Properties

Each line says what is modelled and how it is proved. Where the code breaks the property the negation is proved beside what holds.

| id | model | proof |
|----|-------|-------|
| C01 | `invert_samples`, `invert_lines` as the loops of `std::reverse` and `std::swap_ranges` on lists | loop invariants, index characterisation |
| C02 | `validate_*` on `Dbl` | case analysis, exact acceptance set |
| C03–C05 | `extrema` with optional endpoints, all setters, both `update`s | induction over the update history |
| C06–C08 | `make_map` and `plot` over an arbitrary plot sequence and every data type | fold invariant |
| C09–C11 | notifier and console as state machines | induction over histories; rounding lemma for percent |
| C12 | visit sequences of the four `plot_map` loops | equality with the row-major list or its filter |
| C13, C14 | simple cylindrical formulas over ℝ with the code's degree | real arithmetic |
| C15, C16 | Mercator equation, latitude table and longitudes over ℝ; root finder a parameter | monotonicity and oddness by derivatives |
| C17 | polar stereographic radius over ℝ | derivative, pole by itself |
| C18 | orthographic pixel to surface point over ℝ | algebra of the solved quadratic, rotation lemmas |
| C19, C20 | `scale_and_offset` and `VirtualImage` over integers, reals and `Dbl` | arithmetic of powers of ten |
| C21–C23 | compositors as loops with the shared `data` variable | induction on the image list |
| C24–C27 | `PhotoImage` constructor, `read_data`, `data_weight`, scans, with undefined behaviour as outcome | case analysis, induction on scans |
| C28 | `BilinearInterpolation::interpolate` | field algebra, inequalities |
| C29, C30 | `Matrix`, `Vector`, `Geometry` as loops over indices | trigonometric identities, equality with Mathlib's matrices |
| C31 | Galileo correction over ℝ | Cardano's identity |
| C32 | bracketed `root_find` loop in any rounding | invariant of the bracket, step bound |
| C33, C34, C36 | latitudes, radii, curvature over ℝ | real analysis, limits at the poles |
| C35 | emission, incidence and phase cosines over ℝ | equality with cosines of angles between vectors |
| C37, C38 | `ellipse_intersection`, `quadratic_roots` over ℝ | exact characterisation of each outcome |
| C39–C41 | visibility, projection, camera matrices over ℝ | geometry, exact meaning of each test |
| C42 | every setter on `Dbl` | case analysis over calls |
| C43 | grid drawing of the four projections | invariant of the written set |
| C44–C47 | `map_parameters` | invariants over merge histories |
| C48, C49 | FITS writer and `make_map_planes` | refinement to an append-only cube |
| C50 | fallback command line parser | induction over the arguments |
| C51, C52 | radii, angles as entered, exact and IEEE | case analysis, congruence modulo a turn |
| C53, C54 | scanner, shift/reduce parser of expressions, symbol table | induction over token lists and expressions |
| C55, C57 | factories of mosaics and photos | decision logic |
| C56 | latitude and longitude images in IEEE arithmetic | monotone rounding |
| C58 | `main`'s loop over commands | induction |
| C59 | approximate comparison in IEEE arithmetic | arithmetic |
| C60, C61, C65 | plane data ranges, user defaults, grid intervals | induction over histories of files |
| C62 | `make_map` warnings | case analysis |
| C63, C66, C67 | integers, plane numbers, blank values of input files | digit lists, induction |
| C64, C78 | parser state across maps; options reaching the projection | invariant of the file-scope variables over all histories |
| C68, C69 | camera set-up followed by conversions over ℝ | composition of C40, C41 |
| C70, C72 | orthographic centers and grid lines | visible half as a half space |
| C71, C73 | grid lines against the map's own latitudes and longitudes | nearest line and sample bounds |
| C74, C75 | a map command on a file system | case analysis of every exit, exceptions included |
| C76, C77 | keywords and array written, read back as FITS prescribes | composition of C06, C20, C44 |
| C79 | incidence image in IEEE arithmetic with any correctly rounded library | rational enclosures of sine and cosine; error propagation |
| C80 | photo clauses of the parser on the setters of C42 | invariant of the file-scope variables over all histories |
| C81 | `distortion` of the two conformal projections | derivative of the meridian ellipse and of the projection equation in closed form |
| C82 | photo, camera and map creation joined | composition of C06, C24, C25, C39 and C40; bound on the camera coordinates |
| C83 | latitude and longitude images, their scaling and map creation joined, in IEEE arithmetic | error analysis through conversion, scaling and truncation; composition of C06, C19 and C56 |
| C84 | `populate_parameters` of the source image factories, keywords of photo files as inputs | induction over planes and photos, composition with C45, C46 and C74 |
| C85 | photo file, its factory, photo image, map creation and header joined | composition of C06, C25, C48, C57, C74 and C84 |
| C86 | all rules of the scanner with Flex's choice among them | a grammar of layouts (`Spec/InputFile`); each piece is shown to win as longest or first match, then induction over entries |
| C87 | Parse trees of the grammar in `src/parse.yy` with the tokens they stand for; the entries of input files and their order are specified apart from it as sequences, options, alternatives and repetitions (`Spec/InputDoc`) | by translating each form into trees and back, and by showing for each nonterminal that its tree is determined by the tokens (what may follow it does not begin as it does). Where the manual promises more: `C87_user_violated`, `C87_ortho_violated`, `C87_polar_violated`, `C87_integer_violated`. |
| C88 | `Model/Actions.lean`: the actions of the whole grammar run over a parse tree with the parser's variables, composed from the actions of single clauses (C62-C64, C80) and giving map commands. `Spec/InputMeaning.lean` says independently, by looking up keywords among the entries of a map, plane or photo, which commands a file asks for. | The entries of a text are recovered from the tokens of its tree (C86, C87); lookups are computed for each clause; an invariant over maps and files says that every variable is put back. Acceptance is C92. Partial: photos with a lens or center that is not a number are left open, and the kind of latitudes is passed from map to map (C64). |
| C89 | `PhotoFile.physical` (Model/Sources.lean) with the photo factory and `execute` of C85, for any data type that the user gives | composition of C25, C57, C48, C06, C74 and C77 through `execute`, and error bounds of the two roundings. Flat fields, interpolation and several planes are in C91. |
| C90 | `main` (Model/Program.lean): the scanner, grammar and actions of C86 to C88, the factories of source images, the map commands of C74, the loop over commands; geometry, C library and CFITSIO are inputs. The file of a map is specified from the entries of the text (Spec/Program.lean) | composition of C88, C74, C75 and the merging rules (C44), induction over files and commands. Photos that cannot be opened: every photo of an accepted file is in a command (C88), and commands are made before the first one is run. The data are C91, success is C95. |
| C91 | the model of C90; the datum of a plane at a point is specified from the entries, the pixels of the photo and the position the camera sees the point at (Spec/ProgramData.lean), the content of a cell from the datum and the plotted points (Spec/Planes.lean) | composition of C88 (commands), C74 (cells of the file), C06 (cells of a plane), C25 (photos), C28 (interpolation), C21, C22, C23 (mosaics) and C19 (scale and offset). Partial: a cell of a mosaic is not covered if one of the photos is seen there without having a datum; `C91_mosaic_violated` is a run in which such a cell stays empty although the next photo has a datum. |
| C92 | the model of C88; the ranges of values are specified keyword by keyword (Spec/InputValid.lean) | both directions clause by clause, then by induction over photos, planes, maps (Lemmas/InputAccepted, InputClauses, InputComplete for acceptance, InputSound, InputRefused, InputRefusedMaps for refusal). Partial: intervals, distances, emission angle limits and centers that are not a number, and lenses that are not positive, are accepted (`C92_interval_violated`, C80). |
| C93 | `centric_radius`, `graphic_latitude`, `mu`, `mu0`, `cos_phase` in floating point operation by operation (Model/CosineImage, Model/MuImage), with a correctly rounded library (Spec/LibmRoot); the angles are those of vectors in space (Spec/Spheroid) | an error calculus for chains of operations (Lemmas/FpError), relative errors of the radius (Lemmas/RadiusAccuracy), the chains themselves (Lemmas/MuAccuracy), then C35 |
| C94 | the same images with their assertions | violated: on a sphere the size of Venus seen from 100000 km above latitude 12 degrees both cosines are 1 + 2^-52 at the sub-observer point, the assertion fails, and without assertions the pixel is left blank. Partial: from C93, points whose cosine is not within 2^-42 of -1 or 1 are read |
| C95 | the model of C90 and the ranges of C92; which maps are computed and which machines work is in Spec/Computed.lean. Images of cosines give a value or none: their assertions are C94 | C92 for the parser, then totality of every step of a command (Lemmas/ProgramTotal.lean): parameters merge, scales and offsets of all data types exist, planes are plotted within the map, HDUs are written; C90 for what the files hold. The conditions on data types are shown to be needed |
| C96 | constructor and `plot_map` of simple cylindrical maps and the longitudes of Mercator maps, in floating point operation by operation (Model/CylindricalF); cells, ranges and planetographic parts are in Spec/Cylindrical.lean, in degrees | relative errors of the width and the steps, cancellation bounded by the size of the edges (Lemmas/CylindricalF); monotone rounding for the bounds; a Lipschitz bound and C35's accuracy for planetographic latitudes |
| C97 | the planes of C83 with the cells of C96 as the points plotted; Mercator maps with any latitudes of lines | C83 and C96, with a Lipschitz bound for planetographic latitudes |
| C98 | flattening and eccentricity over the reals | algebra; C51 for the input |
| C99 | counters of the generated scanner and `YY_USER_ACTION` along the matches of `Scanner` | induction over the matches; no rule that returns a token matches a newline |
| C100 | real `pix2latlon` for given centers; `Sky`: the same in floating point with coordinates that may be NaN | the roots of the quadratic along the ray; propagation of NaN |

## Where code and documentation or intent disagree

Each item is proved by the theorem named.

Undefined behaviour or failed assertions
* 64-bit integer maps: the default upper limit converts 2^63 to an integer (`C05_maximum_i64_violated`, `C06_i64_violated`).
* Nibbling more than the photo's size passes validation, and pixels outside the photo are read (`C24_nibble_violated`); a null configuration is dereferenced (`C24_null_config_violated`).
* Tangent lines and chords behind the observer fail an assertion (`C37_violated`).
* A mosaic whose photos all have a minimum dereferences an empty optional (`C55_violated`).
* Equal bounds in `scale_and_offset` (`C19_point_violated`).
* The image of incidence cosines exceeds 1 by a rounding error at a sub-solar point, which fails an assertion or leaves the pixel blank (`C79_violated`, `C79_blank_violated`). So do those of emission and phase cosines at sub-observer points (`C94_emission_violated`, `C94_phase_violated`, `C94_blank_violated`).

Wrong results
* Orthographic maps of oblate bodies: the middle coefficient of the quadratic has the wrong sign, so points are plotted at wrong pixels except for spheres, polar and equatorial views (`C18_violated`).
* Merging extrema drops the minimum when none is set (`C04_violated`).
* One successful read in an average can be overwritten by a later failing one (`C22_single_violated`); a photo read depends on what the caller's variable held (`C26_violated`, `C26_mosaic_violated`).
* With sky removal all weights are zero (`C27_sky_violated`).
* Interpolation at edges (`C28_hull_violated`, `C28_corner_violated`, `C28_right_pair_violated`).
* Retrograde bodies: the way back from pixels (`C40_retrograde_violated`), the 0/360 meridian of grids (`C71_meridian_violated`), orthographic and polar grids (`C72_violated`, `C73_mirrored_violated`).
* Seen from above a pole, grids leave out points of meridians on the equator more than 90 degrees from the prime meridian (`C72_equator_violated`).
* Camera set-up reports success without a solution (`C41_violated`); centers given by latitude and longitude off the central meridian (`C68_axis_violated`); the lens correction is not about the optical axis (`C69_axis_violated`).
* `DATAMIN` and `DATAMAX` are not physical values (`C76_extrema_violated`), undefined elements of integer maps without `BLANK` (`C76_no_blank_violated`), 64-bit scaling after the first plane (`C76_longlong_violated`), keywords not written (`C77_scale_violated`, `C77_observation_violated`).
* Simple cylindrical maps with a negative width (`C14_violated`); the last plane of a 1×1 cube is refused (`C48_one_by_one_violated`).
* Photo files with more than two axes are read with coordinates beyond the array passed to CFITSIO (`C48_cube_violated`).
* The header of the last photo of a mosaic alone is used, even where it lacks a keyword that the others have (`C84_mosaic_violated`).
* A map of a photo is given the file's BITPIX and BLANK but not its BSCALE and BZERO: unsigned 16 bit data above 32767 are lost (`C85_scaled_violated`), data may become the blank value (`C85_blank_violated`), flat fields make data negative in unsigned types (`C85_flat_field_violated`), and a smaller type given by the user makes the command fail (`C85_type_violated`).
* Scanner: a name right after its colon takes the colon in (`C86_tight_violated`), a comment of one word before a name is taken as the name (`C86_note_violated`), an empty text takes the next line (`C86_empty_text_violated`), function names in upper case (`C86_function_case_violated`) and carriage returns (`C86_crlf_violated`) are not read.
* Grammar: a user configuration file without a grid interval is refused although the manual calls all entries optional (`C87_user_violated`); an orthographic projection with a sub-observer point, position angle and center but no resolution is refused although the manual gives the resolution a default (`C87_ortho_violated`); options of a polar stereographic projection without the pole are refused (`C87_polar_violated`); the numbers of samples, lines, planes and nibbled pixels and the blank value cannot be expressions although the manual says expressions are valid wherever a number is expected (`C87_integer_violated`, for the samples). The manual also documents projections the grammar does not have (Albers, Lambert, sinusoidal, perspective, identity).
* Progress: the last notification repeats a count (`C10_violated`).
* Automatic `BITPIX` is that of the first plane (`C46_violated`, `C46_merge_violated`); scales of 64-bit maps (`C19_scale_violated`, `C19_fits_violated`).
* `almost_equal` on huge values (`C59_close_violated`); a bracketed root of x³ is not found (`C32_flat_root_throws`), and a point outside the bracket may be returned (`C32_bracket_violated`); one-element unit vectors (`C30_unit_one_violated`).

Input files
* User default data ranges never apply (`C61_violated`); setting one default grid interval resets the other (`C65_violated`).
* The latitude type of a simple cylindrical map leaks from earlier planes (`C64_projection_violated`).
* Fractions and exponents of integers are ignored (`C63_violated`); unspaced operators before digits (`C53_*_violated`); angle normalisation at the edges (`C52_*_violated`).
* Columns in messages are one or two too small, and may be 0 (`C99_column_violated`, `C99_indented_violated`). Lines are right, unless the generated scanner does not count the newline of an empty header comment (`C99_line_violated`). Messages of semantic errors carry the place of the token read last, as a comment in `parse.yy` says.
* Photos with `LAT_AT_CENTER`, `LON_AT_CENTER` have no body center in pixels, but sky removal uses it: an assertion fails, or without assertions no pixel is left out (`C100_axis_violated`).
* The manual says sky removal is enabled unless `REMOVE_SKY: NO`; it is disabled unless `REMOVE_SKY: YES` (`C80_sky_default_violated`).
* `DATA_BLANK` without a data type throws (`C67_no_type_violated`).
* Lens values that are not positive and NaN centers are accepted and ignored, `MINNAERT` is ignored, user nibble defaults wrap modulo 2^32 (`C80_*_violated`).
* `rho_coefficient` has the signs of `e` in its exponents exchanged. The radius of a polar stereographic map of a flattened body is too large by `((1+e)/(1-e))^e`. Maps do not change, since the factor cancels, but the distortion reported in the centre is not the scale there, and the one reported on the equator is too small even relative to the centre (`C81_stereographic_violated`).
* Longitudes below zero are rejected as orthographic center though equivalent ones are accepted (`C70_violated`).

Failures
* A failed write is reported but the command succeeds (`C74_unwritten_violated`); an exception destroys the file that was there (`C75_violated`, `C75_source_violated`) and stops later commands (`C58_exception_stops`).
* Integer maps without a blank value mark empty cells with 0, which is also a datum: the
  equator in a plane of latitudes (`C83_empty_violated`).
* NaN passes several setters and validations (`C39_nan_violated`, `C42_*_violated`, `C56_nan_violated`).
* Direct API: inconsistent radii are accepted (`C51_api_violated`); the size check of inversions wraps (`C01_size_check_wraps`).
