{
 "claims": [
  {
   "property": "C01",
   "status": "proved",
   "theorems": [
    "RT.C01_ray",
    "RT.C01_matrix",
    "RT.C01_assoc"
   ],
   "note": ""
  },
  {
   "property": "C02",
   "status": "proved",
   "theorems": [
    "RT.C02_pair",
    "RT.C02_chain"
   ],
   "note": ""
  },
  {
   "property": "C03",
   "status": "proved",
   "theorems": [
    "RT.C03_accepts_iff",
    "RT.C03_errors",
    "RT.C03_stores",
    "RT.C03_lens",
    "RT.C03_space"
   ],
   "note": ""
  },
  {
   "property": "C04",
   "status": "partial",
   "theorems": [
    "RT.C04_pair",
    "RT.C04_chain_partial",
    "RT.C04_identity_index_violated"
   ],
   "note": "Proved for pairs and for chains that are not made of identity matrices only; C04_identity_index_violated shows the code reports index 1 for such a chain."
  },
  {
   "property": "C05",
   "status": "proved",
   "theorems": [
    "RT.C05_blocked_iff",
    "RT.C05_blocked_iff_exact",
    "RT.C05_frozen"
   ],
   "note": ""
  },
  {
   "property": "C06",
   "status": "proved",
   "theorems": [
    "RT.C06_blocked_tail",
    "RT.C06_through"
   ],
   "note": ""
  },
  {
   "property": "C07",
   "status": "proved",
   "theorems": [
    "RT.C07_trace_matrix"
   ],
   "note": ""
  },
  {
   "property": "C08",
   "status": "proved",
   "theorems": [
    "RT.C08_positions",
    "RT.C08_first"
   ],
   "note": ""
  },
  {
   "property": "C09",
   "status": "partial",
   "theorems": [
    "RT.C09_violated",
    "RT.C09_violated_example"
   ],
   "note": "The code does not have this property: C09_violated shows that every element with a length checks the entrance only. C09_violated_example is a concrete ray."
  },
  {
   "property": "C10",
   "status": "partial",
   "theorems": [
    "RT.C10_values_partial",
    "RT.C10_unchanged_partial",
    "RT.C10_violated",
    "RT.C10_violated_axicon"
   ],
   "note": "Violated for the blocked state (C10_violated) and by axicons (C10_violated_axicon). Proved: without axicon, for every history, height, angle and position of all existing rays are kept (C10_values_partial); the object is unchanged when the first element met does not stop it at its entrance (C10_unchanged_partial)."
  },
  {
   "property": "C11",
   "status": "partial",
   "theorems": [
    "RT.C11_session_partial",
    "RT.C11_violated_nested",
    "RT.C11_violated_position",
    "RT.C11_violated_edit",
    "RT.C11_apart_partial",
    "RT.C11_recalled",
    "RT.C11_edits_partial",
    "RT.C11_settled_partial",
    "RT.C11_append",
    "RT.C11_stale",
    "RT.C11_nested_partial"
   ],
   "note": "Proved for sessions of any length whose rays with equal height and angle are equal: for single elements and groups of single elements without axicon (C11_session_partial); for groups nested in any way, when no two rays that differ arrive at a group inside with the same height and angle, whatever is stopped (C11_apart_partial, no axicon); for groups nested in any way, axicons included, when the rays start at one position and none is stopped (C11_nested_partial). With changes of the elements in between (paths of single elements, no axicon): right for every ray whose height or angle is not that of the last trace computed (C11_edits_partial), and for all when no change is pending (C11_settled_partial); after an append, the last ray traced again always gives the old trace (C11_stale). Violated by nested groups, positions and edits (C11_violated_*)."
  },
  {
   "property": "C12",
   "status": "partial",
   "theorems": [
    "RT.C12_filter_partial",
    "RT.C12_violated",
    "RT.C12_apart_partial",
    "RT.C12_nested_partial"
   ],
   "note": "Proved for single elements and groups of single elements without axicon (C12_filter_partial), and for nested groups in the sessions of C11 (C12_apart_partial, C12_nested_partial). Violated by nested groups (C12_violated)."
  },
  {
   "property": "C13",
   "status": "partial",
   "theorems": [
    "RT.C13_parallel_partial",
    "RT.C13_violated",
    "RT.C13_apart_partial",
    "RT.C13_nested_partial"
   ],
   "note": "Proved for single elements and groups of single elements without axicon, every number of processes, and success or failure of the pool (C13_parallel_partial), and for nested groups in the sessions of C11 (C13_apart_partial, C13_nested_partial). Violated by nested groups (C13_violated). Pickling is modelled as copying values."
  },
  {
   "property": "C14",
   "status": "partial",
   "theorems": [
    "RT.C14_product_partial",
    "RT.C14_vertices_partial",
    "RT.C14_pop_violated",
    "RT.C14_reverse_violated"
   ],
   "note": "Proved for every sequence of append/insert/pop/setitem/slice edits that does not pass through popping the last element. C14_pop_violated: after popping the only element the group still reports the old matrix. C14_reverse_violated: appendElementsInReverse leaves the group matrix different from the product."
  },
  {
   "property": "C15",
   "status": "partial",
   "theorems": [
    "RT.C15_caught_partial",
    "RT.C15_run",
    "RT.C15_append",
    "RT.C15_slice_violated",
    "RT.C15_reverse_violated"
   ],
   "note": "Proved for every sequence of edits, also when edits that raise are caught, except a refused slice assignment (C15_slice_violated) and appendElementsInReverse (C15_reverse_violated)."
  },
  {
   "property": "C16",
   "status": "partial",
   "theorems": [
    "RT.C16_append",
    "RT.C16_insert",
    "RT.C16_pop",
    "RT.C16_getItem",
    "RT.C16_getSlice",
    "RT.C16_setItem_partial",
    "RT.C16_setItem_negative_violated",
    "RT.C16_setSlice_partial",
    "RT.C16_setSlice_violated"
   ],
   "note": "Proved for append, insert, pop, getitem, slices, setitem at index >= 0 and setslice with 0 <= start <= stop. C16_setItem_negative_violated: negative indices insert at the wrong place, for all inputs. C16_setSlice_violated: a witness for start > stop."
  },
  {
   "property": "C17",
   "status": "partial",
   "theorems": [
    "RT.C17_append_partial",
    "RT.C17_early_partial",
    "RT.C17_edit_violated",
    "RT.C17_append_violated"
   ],
   "note": "Proved for append of a mismatched element and for edits refused before the element list is touched. C17_edit_violated and C17_append_violated: witnesses of refused edits that leave the group changed."
  },
  {
   "property": "C18",
   "status": "proved",
   "theorems": [
    "RT.C18_cut",
    "RT.C18_full"
   ],
   "note": ""
  },
  {
   "property": "C19",
   "status": "partial",
   "theorems": [
    "RT.C19_value_partial",
    "RT.C19_air_partial",
    "RT.C19_violated",
    "RT.C19_aperture_violated"
   ],
   "note": "Proved for user-built systems whose elements are all in air at the planes compared (C19_air_partial, C19_value_partial). Violated when an element is the identity matrix in a medium other than air, and for a single element that blocks the rays (C19_violated, C19_aperture_violated)."
  },
  {
   "property": "C20",
   "status": "proved",
   "theorems": [
    "RT.C20_forwardConjugate",
    "RT.C20_no_image"
   ],
   "note": ""
  },
  {
   "property": "C21",
   "status": "partial",
   "theorems": [
    "RT.C21_backwardConjugate_partial",
    "RT.C21_frontIndex_violated",
    "RT.C21_at_infinity"
   ],
   "note": "Proved for systems whose front index is 1 (also A = 0). C21_frontIndex_violated: the code raises ValueError for every other front index although the plane exists."
  },
  {
   "property": "C22",
   "status": "proved",
   "theorems": [
    "RT.C22_magnification"
   ],
   "note": ""
  },
  {
   "property": "C23",
   "status": "partial",
   "theorems": [
    "RT.C23_foci_partial",
    "RT.C23_weak_power_violated",
    "RT.C23_lens"
   ],
   "note": "Proved when |C| > 1e-5, the threshold of hasPower. C23_weak_power_violated: weaker systems report no focus."
  },
  {
   "property": "C24",
   "status": "proved",
   "theorems": [
    "RT.C24_principal_planes"
   ],
   "note": ""
  },
  {
   "property": "C25",
   "status": "proved",
   "theorems": [
    "RT.C25_focal_lengths",
    "RT.C25_none_iff"
   ],
   "note": ""
  },
  {
   "property": "C26",
   "status": "partial",
   "theorems": [
    "RT.C26_flip_twice_partial",
    "RT.C26_single",
    "RT.C26_generic_violated",
    "RT.C26_restored",
    "RT.C26_media_violated"
   ],
   "note": "C26_restored, for all programs (any nesting, media, mirrors, generic matrices): when neither flip raises an error the system is restored exactly. The flips raise no error for every single element, for all nested groups of reversible parts and for all nested groups in air (C26_flip_twice_partial). The code violates the rest: flipping a generic matrix between two media in a group raises ValueError (C26_generic_violated); a group of generic matrices in glass whose product is the identity makes the second flip fail (C26_media_violated)."
  },
  {
   "property": "C27",
   "status": "proved",
   "theorems": [
    "RT.C27_reversibility",
    "RT.C27_matrix"
   ],
   "note": "For all nested groups of lenses, spaces, interfaces, slabs, thick lenses, apertures and symmetric generic matrices, for tracing (C27_reversibility) and for the matrices (C27_matrix)."
  },
  {
   "property": "C28",
   "status": "partial",
   "theorems": [
    "RT.C28_exchange_partial",
    "RT.C28_exact",
    "RT.C28_iff",
    "RT.C28_thickLens_violated"
   ],
   "note": "Exact for every reversible system, at any nesting: after a flip the back focal length is the old front one plus the shift of the front vertex, and the front one is the old back one minus the shift of the back vertex (C28_exact), so they are exchanged exactly when the outer vertices are in the middle of their elements (C28_iff). The code violates the rest: every thick lens with power and thickness (C28_thickLens_violated)."
  },
  {
   "property": "C29",
   "status": "proved",
   "theorems": [
    "RT.C29_thickLens",
    "RT.C29_slab",
    "RT.C29_cut",
    "RT.C29_flip"
   ],
   "note": ""
  },
  {
   "property": "C30",
   "status": "partial",
   "theorems": [
    "RT.C30_has",
    "RT.C30_sessions",
    "RT.C30_apertureStop_partial",
    "RT.C30_apertureStop_open_partial",
    "RT.C30_no_stop",
    "RT.C30_violated",
    "RT.C30_thick_violated",
    "RT.C30_exits",
    "RT.C30_entrance_violated"
   ],
   "note": "C30_exits says what is reported for every path: the place where the probe ray leaves an opening with the largest ratio of height to diameter. This is the stop for thin openings without NA limits when some element really limits the axial ray (C30_apertureStop_partial). C30_violated / C30_thick_violated / C30_entrance_violated: otherwise the code reports a stop at 0 of infinite diameter, or the wrong surface of a thick element; the entrances of thick elements are never compared."
  },
  {
   "property": "C31",
   "status": "partial",
   "theorems": [
    "RT.C31_rays_partial",
    "RT.C31_no_stop",
    "RT.C31_tolerance_violated"
   ],
   "note": "Proved for stops of finite diameter not inside a black box, with None exactly when |B| < 1e-5. C31_tolerance_violated: None although the stop is not conjugate to the object."
  },
  {
   "property": "C32",
   "status": "partial",
   "theorems": [
    "RT.C32_entrancePupil_partial",
    "RT.C32_no_stop",
    "RT.C32_frontIndex_violated"
   ],
   "note": "Proved when the matrix up to the stop has front index 1. C32_frontIndex_violated: ValueError otherwise."
  },
  {
   "property": "C33",
   "status": "partial",
   "theorems": [
    "RT.C33_python_violated",
    "RT.C33_python_first_violated",
    "RT.C33_python_never_violated",
    "RT.C33_python_infinite_violated",
    "RT.C33_default",
    "RT.C33_terminates_partial",
    "RT.C33_diverges_violated",
    "RT.C33_example_violated",
    "RT.C33_iff"
   ],
   "note": "C33_iff, for paths whose chief rays exist: the search returns exactly when the field is at least 37.5 times the precision. C33_diverges_violated: smaller fields make the search loop for ever; C33_example_violated is such a path. In Python floats the height of such a search overflows after about 1800 turns (C33_python_violated): then either it still never ends (C33_python_first_violated, witness C33_python_never_violated), or it reports no field stop and an infinite field (witness C33_python_infinite_violated)."
  },
  {
   "property": "C34",
   "status": "partial",
   "theorems": [
    "RT.C34_has",
    "RT.C34_fieldStop_partial",
    "RT.C34_halfFieldOfView_partial",
    "RT.C34_open",
    "RT.C34_fieldStop_all",
    "RT.C34_thick_violated"
   ],
   "note": "Proved for paths whose chief rays exist and whose field is at least 37.5 times the precision. C34_fieldStop_all says for all openings which field stop is reported; it is right for thin openings (C34_fieldStop_partial), and violated by a thick element that blocks at its entrance: the diameter is that of the element before (C34_thick_violated). Fields above about 2/3 of maxHeight may be reported infinite."
  },
  {
   "property": "C35",
   "status": "partial",
   "theorems": [
    "RT.C35_axialRay",
    "RT.C35_NA",
    "RT.C35_NA_violated",
    "RT.C35_fieldOfView",
    "RT.C35_principalRay",
    "RT.C35_imageSize",
    "RT.C35_fNumber",
    "RT.C35_fNumber_violated",
    "RT.C35_lagrangeInvariant_partial",
    "RT.C35_lagrangeInvariant",
    "RT.C35_lagrangeInvariant_violated",
    "RT.C35_objectHeight",
    "RT.C35_noHeight"
   ],
   "note": "Axial ray, field of view, principal ray, image size, f-number, object height: proved for every path built by a program (C35_axialRay ... C35_objectHeight). NA is proved for an abstract sine; it raises AttributeError without stop (C35_NA_violated). The Lagrange invariant is given for every path in any medium (C35_lagrangeInvariant): it is n*theta*y, but the index is lost when the transfer matrix up to the object is the identity, which the code violates in water (C35_lagrangeInvariant_violated). C35_fNumber_violated: the f-number of a path made of a lens by itself is 0, because a lens in the plane of the object is not found to be the stop."
  },
  {
   "property": "C36",
   "status": "proved",
   "theorems": [
    "RT.C36_intermediateConjugates"
   ],
   "note": "Sound, complete up to the tolerance 1e-3 of the code, and without two planes within the tolerance."
  },
  {
   "property": "C37",
   "status": "partial",
   "theorems": [
    "RT.C37_hasFinite",
    "RT.C37_largestDiameter_partial",
    "RT.C37_lens_violated",
    "RT.C37_halfHeight",
    "RT.C37_nested_violated",
    "RT.C37_largestDiameter",
    "RT.C37_range"
   ],
   "note": "hasFiniteApertureDiameter is proved in general (C37_hasFinite). largestDiameter of every system just built, of any depth, is given exactly (C37_largestDiameter): it is at least every finite diameter of the elements other than Lens and is attained (C37_range), but a new Lens counts for 4 whatever its diameter (C37_lens_violated) and a group without finite diameter for 8 (C37_nested_violated), so the property as stated holds only without them (C37_largestDiameter_partial)."
  },
  {
   "property": "C38",
   "status": "proved",
   "theorems": [
    "RT.C38_product",
    "RT.C38_trace"
   ],
   "note": "C38_product: any complex radius, any two elements with matching media. C38_trace: every system built by a program (any nesting), positive indices, confined beams; trace and matrix product agree with the law ABCD applied element by element. Real numbers without rounding."
  },
  {
   "property": "C39",
   "status": "proved",
   "theorems": [
    "RT.C39_traced",
    "RT.C39_confined",
    "RT.C39_thin"
   ],
   "note": "C39_confined: along every trace the beam stays confined with a finite positive size (positive indices); C39_thin: elements that do not change heights keep the size of the beam (with its index)."
  },
  {
   "property": "C40",
   "status": "proved",
   "theorems": [
    "RT.C40_roundTrip",
    "RT.C40_missing",
    "RT.C40_curvature",
    "RT.C40_both"
   ],
   "note": "All positive w, n, wavelength; R non-zero or infinite. Real numbers without rounding. C40_curvature gives R for every complex radius, 0 included."
  },
  {
   "property": "C41",
   "status": "partial",
   "theorems": [
    "RT.C41_waist_partial",
    "RT.C41_air",
    "RT.C41_violated"
   ],
   "note": "C41_air proves it for index 1. C41_violated: for every confined beam in every medium of index over 1 the beam gets smaller than .wo, because wo does not divide by n. C41_waist_partial: for all indices the smallest size is wo/sqrt(n), reached exactly at waistPosition."
  },
  {
   "property": "C42",
   "status": "proved",
   "theorems": [
    "RT.C42_medium",
    "RT.C42_axicon",
    "RT.C42_clipping",
    "RT.C42_trace"
   ],
   "note": "Generic over the numbers: medium check, back medium, clipping over chains of any length. Tracing is running through the flattened list of elements."
  },
  {
   "property": "C43",
   "status": "partial",
   "theorems": [
    "RT.C43_solutions",
    "RT.C43_fixed_partial",
    "RT.C43_violated",
    "RT.C43_laserModes",
    "RT.C43_confined",
    "RT.C43_roundTrip"
   ],
   "note": "C43_solutions, C43_laserModes hold for all cavities with |C| > 1e-5. C43_fixed_partial needs air in front: C43_violated shows that otherwise every mode is refused by the cavity with RuntimeError, because modes are created in air. C43_roundTrip: modes traced through built cavities of any nesting come back."
  },
  {
   "property": "C44",
   "status": "partial",
   "theorems": [
    "RT.C44_stable_partial",
    "RT.C44_noPower",
    "RT.C44_violated"
   ],
   "note": "C44_stable_partial: all unit-determinant matrices with |C| > 1e-5. C44_violated: below that threshold (C44_noPower) every cavity is reported unstable, with a cavity with |A+D| < 2."
  },
  {
   "property": "C45",
   "status": "proved",
   "theorems": [
    "RT.C45_fan",
    "RT.C45_fanGroup",
    "RT.C45_refused",
    "RT.C45_spaced"
   ],
   "note": "fan and fanGroup: exact content, refused exactly when N < 1 or M < 1."
  },
  {
   "property": "C46",
   "status": "partial",
   "theorems": [
    "RT.C46_uniform_partial",
    "RT.C46_single",
    "RT.C46_violated",
    "RT.C46_refused",
    "RT.C46_sources",
    "RT.C46_lamp_heights"
   ],
   "note": "Exact grid and bounds for M != 1; with a single height (M = 1) the code uses height 0 whatever the bounds are: C46_single describes it, C46_violated is the counterexample."
  },
  {
   "property": "C47",
   "status": "partial",
   "theorems": [
    "RT.C47_reach_partial",
    "RT.C47_stopped",
    "RT.C47_at",
    "RT.C47_along_partial",
    "RT.C47_empty",
    "RT.C47_violated_end",
    "RT.C47_violated_inside"
   ],
   "note": "at proved; along proved for every built system, every ray not stopped at the position asked or before and every position not strictly inside a thick element (C47_reach_partial; C47_along_partial for rays that get through); rays stopped before are returned blocked (C47_stopped); an empty trace raises (C47_empty). Violated past the end of the trace (last ray returned) and inside thick elements (straight line with the outside angle)."
  },
  {
   "property": "C48",
   "status": "partial",
   "theorems": [
    "RT.Rays.C48_empty",
    "RT.C48_empty_example",
    "RT.Rays.C48_histories_partial",
    "RT.Rays.C48_length",
    "RT.Rays.C48_violated_load",
    "RT.Rays.C48_violated_refused"
   ],
   "note": "Refinement to the list of rays for all histories where load never follows a query (unless an append came in between) and numpy refuses no histogram; both exclusions are violations: load keeps cached values (C48_violated_load), a refused histogram leaves its parameters behind (C48_violated_refused). C48_length is about len() during an iteration. C48_empty: a collection without rays raises ValueError unless both bounds are given."
  },
  {
   "property": "C49",
   "status": "partial",
   "theorems": [
    "RT.C49_contains",
    "RT.C49_contains_loop_partial",
    "RT.C49_violated_contains",
    "RT.C49_violated_zip",
    "RT.C49_loop_partial",
    "RT.C49_violated_nested",
    "RT.C49_violated_query",
    "RT.C49_group_partial",
    "RT.C49_violated_group"
   ],
   "note": "Loops whose body does not iterate over the collection; nested loops and first-time queries inside a loop end the outer loop after its first element (general theorems). `x in group` is right (C49_contains) and can be asked in a loop over groups without equal elements (C49_contains_loop_partial), but with two equal elements the loop never ends (C49_violated_contains), and zip(group, group) pairs different elements (C49_violated_zip)."
  },
  {
   "property": "C50",
   "status": "proved",
   "theorems": [
    "RT.RandomRays.C50_stable",
    "RT.RandomRays.C50_iterate",
    "RT.RandomRays.C50_next",
    "RT.C50_bounds_uniform",
    "RT.C50_bounds_lambertian",
    "RT.C50_bounds_gaussian"
   ],
   "note": "Quantifies over every stream of random numbers and every sequence of accesses; drawing is a parameter that always succeeds. Bounds for the three random sources; for the two rejection samplers, drawing ends exactly when a value is accepted (no termination for all streams). Users appending their own rays to a random source are not modelled."
  },
  {
   "property": "C51",
   "status": "partial",
   "theorems": [
    "RT.C51_exact_partial",
    "RT.C51_fresh",
    "RT.C51_violated"
   ],
   "note": "Exact for iterables that can be iterated twice; a one-shot iterator always gives an empty collection (C51_violated)."
  },
  {
   "property": "C52",
   "status": "partial",
   "theorems": [
    "RT.RandomRays.C52_violated_random",
    "RT.C52_rays",
    "RT.C52_violated_empty",
    "RT.C52_group_partial"
   ],
   "note": "Rays: exact. Groups: exact for non-empty groups made by programs; an empty file keeps the old matrix (C52_violated_empty); random sources save only rays made so far. pickle itself is trusted."
  },
  {
   "property": "C53",
   "status": "partial",
   "theorems": [
    "RT.Prefs.C53_sequential_partial",
    "RT.Prefs.C53_read_preserves_partial",
    "RT.Prefs.C53_read_crash_violated",
    "RT.Prefs.C53_crash_loses_all",
    "RT.Prefs.C53_set_crash_partial",
    "RT.Prefs.C53_set_crash_violated",
    "RT.Prefs.C53_lost_update_violated",
    "RT.Prefs.C53_read_then_set_partial",
    "RT.Prefs.C53_read_other",
    "RT.Prefs.C53_reset_violated",
    "RT.Prefs.C53_mixture_violated",
    "RT.Prefs.C53_unserializable_violated",
    "RT.Prefs.C53_init_violated",
    "RT.Prefs.C53_foreign_violated",
    "RT.Prefs.C53_pairs",
    "RT.Prefs.C53_del_violated"
   ],
   "note": "Holds for any number of successive programs and any sequence of operations without crash or concurrent writer. Violated by general theorems: crash while reading or writing, lost updates between programs, mixtures, resets seen by other programs, values JSON refuses, Preferences(key=value), del. A file with JSON that is not a dictionary makes Preferences() raise in every program (C53_foreign_violated); a list of pairs is read as a dictionary (C53_pairs). JSON round trip is trusted."
  },
  {
   "property": "C54",
   "status": "partial",
   "theorems": [
    "RT.Zmx.C54_surfaces",
    "RT.Zmx.C54_no_glass",
    "RT.Zmx.C54_lens",
    "RT.Zmx.C54_diameter_violated",
    "RT.Zmx.C54_unclosed_violated"
   ],
   "note": "Any number of surfaces, any indices, any curvatures. Violated by files that end in a glass (the lens ends in the glass) and by surfaces of diameter 0 (ValueError)."
  },
  {
   "property": "C55",
   "status": "partial",
   "theorems": [
    "RT.C55_not_a_number",
    "RT.C55_elements",
    "RT.Zmx.C55_line",
    "RT.Zmx.C55_blank",
    "RT.Zmx.C55_unit_partial",
    "RT.Zmx.C55_unit_violated",
    "RT.Zmx.C55_wavelengths_partial",
    "RT.Zmx.C55_wavelengths_violated",
    "RT.Zmx.C55_one_wavelength",
    "RT.Zmx.C55_design_wavelength",
    "RT.Zmx.C55_surfaces",
    "RT.Zmx.C55_block",
    "RT.Zmx.C55_file",
    "RT.Zmx.C55_cap_violated"
   ],
   "note": "The texts of lines, the values, the blocks of surfaces and a whole file of up to 1000 surfaces are proved for all contents; float and int of a string are parameters. Violated: no UNIT or several UNIT lines (AttributeError), all wavelengths 0.55 or none (IndexError), more than 1000 surfaces (the others ignored)."
  },
  {
   "property": "C56",
   "status": "partial",
   "theorems": [
    "RT.C56_refused",
    "RT.C56_accepted",
    "RT.C56_glass_partial",
    "RT.C56_air",
    "RT.C56_uv_violated",
    "RT.C56_ir_violated",
    "RT.C56_resonance_violated"
   ],
   "note": "All 37 materials, all wavelengths from 0.28 to 7 micrometres: a real index larger than 1; refusal below 0.01 and above 10. Violated in the ultraviolet, in the infrared (21 of 37 complex at 10 micrometres) and at resonances (ZeroDivisionError)."
  },
  {
   "property": "C57",
   "status": "proved",
   "theorems": [
    "RT.C57_4f",
    "RT.C57_4f_refused",
    "RT.C57_2f",
    "RT.C57_2f_refused"
   ],
   "note": "4f and 2f systems with non-zero focal lengths of any sign as the code accepts; refusals for non-positive spacings."
  },
  {
   "property": "C58",
   "status": "proved",
   "theorems": [
    "RT.C58_objective",
    "RT.C58_refused",
    "RT.C58_invariant",
    "RT.C58_flip"
   ],
   "note": "All accepted parameters with |f| < 100000 for the reported effective focal length (hasPower's absolute tolerance makes weaker ones infinite)."
  },
  {
   "property": "C59",
   "status": "partial",
   "theorems": [
    "RT.C59_toFocus_iff",
    "RT.C59_toFocus_partial",
    "RT.C59_toFocus_refused",
    "RT.C59_toFocus_violated",
    "RT.C59_toConjugate",
    "RT.C59_fromFocusToFocus_iff",
    "RT.C59_lens",
    "RT.C59_fromFocusToFocus_violated"
   ],
   "note": "ToConjugate exact. ToFocus and fromFocusToFocus lead to the announced plane iff the vertices are at the edges (iff theorems); violated otherwise by witnesses (C59_toFocus_violated, C59_fromFocusToFocus_violated)."
  },
  {
   "property": "C60",
   "status": "partial",
   "theorems": [
    "RT.C60_made",
    "RT.C60_ray",
    "RT.C60_focal_line",
    "RT.C60_default_height",
    "RT.C60_beam",
    "RT.C60_blocked_violated"
   ],
   "note": "Height, deviation, axial rays, focal line and refusal of beams hold for every axicon and ray; a blocked ray's angle is changed (C60_blocked_violated)."
  },
  {
   "property": "C61",
   "status": "partial",
   "theorems": [
    "RT.C61_violated",
    "RT.C61_single_partial",
    "RT.C61_unused_partial",
    "RT.C61_violated_traced",
    "RT.C61_equal",
    "RT.C61_attributes",
    "RT.C61_self",
    "RT.C61_violated_iteration"
   ],
   "note": "Violated by every group after one trace (C61_violated) or one iteration (C61_violated_iteration); single elements and unused groups are unaffected: they are equal exactly when all their attributes are (C61_attributes). NaN identity is not modelled."
  },
  {
   "property": "C62",
   "status": "partial",
   "theorems": [
    "RT.C62_reset",
    "RT.C62_reset_overlaps",
    "RT.C62_inside",
    "RT.C62_inside_violated",
    "RT.C62_still",
    "RT.C62_apart",
    "RT.C62_apart_violated",
    "RT.C62_three_violated"
   ],
   "note": "Reset is exact for all sequences of translations and for fixLabelOverlaps with any rendering (exact arithmetic); labels that do not overlap stay (C62_still); two overlapping labels with room around them end side by side, for any number of iterations (C62_apart), but not next to the edge of the display: they still overlap after any number of iterations (C62_apart_violated); a single translateLabel keeps a fitting label inside; fixLabelOverlaps does not (C62_inside_violated); three labels in a row never end apart, with room around them and for any number of iterations (C62_three_violated)."
  },
  {
   "property": "C63",
   "status": "proved",
   "theorems": [
    "RT.C63_plotted",
    "RT.C63_removed",
    "RT.C63_any_list"
   ],
   "note": "For traces of all rays through all trees of elements without cached traces; for arbitrary lists of rays see C63_any_list."
  },
  {
   "property": "C64",
   "status": "partial",
   "theorems": [
    "RT.C64_forward_partial",
    "RT.C64_backwards_partial",
    "RT.C64_edge_violated",
    "RT.C64_outside",
    "RT.C64_thick_violated",
    "RT.C64_index_violated"
   ],
   "note": "Exact strictly inside a Space in air (length, elements and action on rays); violated at element edges (ValueError), inside thick elements (AssertionError) and in media other than air (ValueError), by general theorems. Backwards keeps the elements unflipped."
  },
  {
   "property": "C65",
   "status": "partial",
   "theorems": [
    "RT.C65_exclusive",
    "RT.C65_opposite_iff",
    "RT.C65_opposite_violated",
    "RT.C65_absolute_symm",
    "RT.C65_absolute_iff",
    "RT.C65_absolute_refl_iff",
    "RT.C65_relative_iff",
    "RT.C65_relative_symm",
    "RT.C65_relative_refl",
    "RT.C65_relative_violated"
   ],
   "note": "Opposite iff not exactly at the tolerance; absolute comparison symmetric, reflexive iff finite; relative comparison symmetric, reflexive except at zero where it raises (general theorems)."
  },
  {
   "property": "C66",
   "status": "proved",
   "theorems": [
    "RT.C66_counts",
    "RT.C66_every_ray"
   ],
   "note": "numpy.histogram is modelled by its documentation (half-open bins, last one closed, equal bounds widened); the angle histogram has the same code on thetaValues."
  },
  {
   "property": "C67",
   "status": "partial",
   "theorems": [
    "RT.C67_none",
    "RT.C67_found",
    "RT.C67_sound",
    "RT.C67_underscore",
    "RT.C67_class_name",
    "RT.C67_user_same",
    "RT.C67_violated_user"
   ],
   "note": "Proved for all strings and all 37 materials of the file, which a class of the user does not disturb (C67_user_same). The code violates the rest: a material implemented by the user in a module of their own is listed but raises KeyError when it is looked for (C67_violated_user)."
  },
  {
   "property": "C68",
   "status": "partial",
   "theorems": [
    "RT.C68_singlet",
    "RT.C68_doublet",
    "RT.C68_violated_int",
    "RT.C68_violated_int_doublet",
    "RT.C68_weak_violated",
    "RT.C68_too_wide",
    "RT.C68_flat_edge_violated",
    "RT.C68_unlimited_violated",
    "RT.C68_unlimited_small",
    "RT.C68_one_material_violated"
   ],
   "note": "Proved for every finite diameter not larger than the spheres, every index, thickness and power above 1e-5, with the exact list of warnings. Violated: lenses weaker than 1e-5 are refused (TypeError), the edge of a lens with a flat surface is never checked, and a doublet with one material and one index is refused. A focal length announced as a Python integer raises ValueError instead of warning, because the text formats it as a float (C68_violated_int, C68_violated_int_doublet). A singlet without a diameter (infinite) is checked as if its diameter were 8 (C68_unlimited_violated): a sphere of radius below 4 is refused (C68_unlimited_small)."
  },
  {
   "property": "C69",
   "status": "partial",
   "theorems": [
    "RT.C69_mirror",
    "RT.C69_lens",
    "RT.C69_slab_axicon",
    "RT.C69_thick_violated",
    "RT.C69_interface_violated",
    "RT.C69_curved_mirror_violated",
    "RT.C69_flat_mirror_violated",
    "RT.C69_compound",
    "RT.C69_compound_violated",
    "RT.C69_contact_violated",
    "RT.C69_plano_violated",
    "RT.C69_arc"
   ],
   "note": "Proved: mirror image for any list of separated surfaces of finite radius, flat or conical, hence for singlets, doublets, slabs and axicons; the outline ends on the sphere, tangent to it; a CompoundLens of any number of glasses is drawn with its surfaces. Violated: flipped thick lenses, interfaces, curved mirrors and CompoundLens objects are drawn as before; a flipped lens with a flat surface and a flat mirror cannot be drawn; surfaces in contact in a CompoundLens are drawn apart. Colours and matplotlib are not modelled."
  },
  {
   "property": "C70",
   "status": "partial",
   "theorems": [
    "RT.C70_lines",
    "RT.C70_trace_drawn",
    "RT.C70_size",
    "RT.C70_waists_partial"
   ],
   "note": "Proved for every group built by a program, every beam that can be traced and any number of divisions: the drawing never fails and consists of the beams of the trace, with those at k d/N in each free space, and every beam of the trace is drawn (marks of clipping aside). The waist arrows are proved for confined beams; in media other than air they point at the size in vacuum (C41_violated). Elements other than spaces are not divided, even if they have a length."
  },
  {
   "property": "C71",
   "status": "partial",
   "theorems": [
    "RT.C71_report",
    "RT.C71_efficiency",
    "RT.C71_no_field",
    "RT.C71_violated_dark",
    "RT.C71_violated_field",
    "RT.C71_violated_single",
    "RT.C71_violated_thick"
   ],
   "note": "C71_report says for all sources which rays are counted where (beyond the field or outside the stop / stopped elsewhere / through) and that the plotted coefficients are those of the decomposition; C71_efficiency gives the percentages for sources inside the field (the default), thin openings and no acceptance angles. Refuted otherwise: rays from beyond the field that get through are counted as blocked (C71_violated_field), and so are rays that leave an opening with a length outside of its diameter (C71_violated_thick); a report without any light raises (C71_violated_dark), one vignetted ray is reported as no loss (C71_violated_single). The random generator, the text and the plot are not modelled."
  },
  {
   "property": "C72",
   "status": "partial",
   "theorems": [
    "RT.C72_design",
    "RT.C72_style",
    "RT.C72_unknown_style",
    "RT.C72_violated_design",
    "RT.C72_violated_lost",
    "RT.C72_height",
    "RT.C72_violated_height",
    "RT.C72_violated_style",
    "RT.C72_removeBlocked",
    "RT.C72_list",
    "RT.C72_violated_list",
    "RT.C72_violated_list_again",
    "RT.C72_new",
    "RT.C72_object",
    "RT.C72_first",
    "RT.C72_with_object",
    "RT.C72_violated_negative",
    "RT.C72_repeat_partial"
   ],
   "note": "Proved: what a new path shows (C72_new, C72_object, C72_first); design sets exactly what is given before the first display; a height set is shown by the first display; repeated displays of an untouched path show the same; displayWithObject shows the object asked for. Violated for all paths: design raises TypeError after a display, the design and the object height are forgotten by the next display, a style resets the limit, the caller's list is extended, displayWithObject accepts negative heights. The fan angle computed from the range of the display is a parameter; see C110 for it."
  },
  {
   "property": "C73",
   "status": "partial",
   "theorems": [
    "RT.C73_lines",
    "RT.C73_colors",
    "RT.C73_violated",
    "RT.C73_axial"
   ],
   "note": "Proved for all lists of traces and colours when a ray starts off the axis, and for rays from the axis with at least two colours; violated with one colour and rays from the axis (IndexError). The traces themselves are covered by C63."
  },
  {
   "property": "C74",
   "status": "partial",
   "theorems": [
    "RT.C74_images_partial",
    "RT.C74_entrance",
    "RT.C74_violated_asymmetric",
    "RT.C74_violated_group",
    "RT.C74_violated_edge",
    "RT.C74_violated_inside",
    "RT.C74_violated_media",
    "RT.C74_objects",
    "RT.C74_violated_same",
    "RT.C74_images_only",
    "RT.C74_violated_hidden"
   ],
   "note": "Proved for every object strictly inside a space of a path whose elements are in air at their edges, with before it single elements that are the same from behind; for objects in the entrance plane of any path (C74_entrance); and for any list of objects with distinct titles (C74_objects). The code violates the rest: asymmetric elements or groups before the object are not turned (C74_violated_asymmetric, C74_violated_group), objects at a limit between elements or inside an element raise (C74_violated_edge, C74_violated_inside), two objects with the same title replace each other (C74_violated_same), and images without objects raise KeyError (C74_violated_hidden). An object inside a space that is not in air, before an element that is not a space, raises (C74_violated_media)."
  },
  {
   "property": "C75",
   "status": "proved",
   "theorems": [
    "RT.C75_range",
    "RT.C75_infinite",
    "RT.C75_laser"
   ],
   "note": "The half heights of the graphics are given (finite: Graphic.halfHeight raises otherwise)."
  },
  {
   "property": "C76",
   "status": "partial",
   "theorems": [
    "RT.C76_marks",
    "RT.C76_foci_partial",
    "RT.C76_violated_group",
    "RT.C76_violated_afocal",
    "RT.C76_element",
    "RT.C76_group",
    "RT.C76_violated_moved"
   ],
   "note": "Proved for the single elements of every path, with their rank, for any formatting to 3 decimals; and for any points of interest of the elements (C76_marks). Elements inside of groups have no marks (C76_violated_group) and a compound lens without power raises TypeError (C76_violated_afocal); weak elements have no foci for the code (C23). C76_element and C76_group are about the figures of an element or a group by itself; in that of a plain group which is not at 0 the marks of the elements stay where they are at 0 (C76_violated_moved)."
  },
  {
   "property": "C77",
   "status": "partial",
   "theorems": [
    "RT.C77_box",
    "RT.C77_drawn_partial",
    "RT.C77_violated_box",
    "RT.C77_violated_aperture",
    "RT.C77_height",
    "RT.C77_violated_below",
    "RT.C77_box_partial",
    "RT.C77_bars"
   ],
   "note": "Proved for every path built by programs, when the figure can be drawn. The code violates the rest: generic matrices and groups in groups at z are drawn from 2z (C77_violated_box), an aperture without diameter cannot be drawn (C77_violated_aperture), rays below the axis do not count for the height of a lens (C77_violated_below). The graphics of CompoundLens and Objective are in C69 and C84."
  },
  {
   "property": "C78",
   "status": "partial",
   "theorems": [
    "RT.C78_computed",
    "RT.C78_measures",
    "RT.C78_violated_group",
    "RT.C78_violated_moved",
    "RT.C78_violated_vertices",
    "RT.C78_violated_space"
   ],
   "note": "Proved for all single elements with power and vertices whose graphic can be drawn (C78_measures); the same lengths are computed for every group (C78_computed) and shown for CompoundLens and Objective. The code violates the rest: the figure of a plain MatrixGroup replaces the graphic that holds them by the graphics of the elements, so none of them is shown (C78_violated_group); elements with power but no vertices raise TypeError (C78_violated_vertices) and spaces AttributeError (C78_violated_space). For a graphic that is not at 0 the arrows of the front and back focal lengths start from the vertices of the element at 0 and do not have the lengths written (C78_violated_moved)."
  },
  {
   "property": "C79",
   "status": "partial",
   "theorems": [
    "RT.C79_singlet",
    "RT.C79_doublet",
    "RT.C79_violated_int",
    "RT.C79_default",
    "RT.C79_violated_list",
    "RT.C79_violated_class"
   ],
   "note": "Proved for arrays, for all singlets and doublets whose class takes a wavelength. The code violates the rest: a Python list is repeated 1000 times instead of converted (C79_violated_list); lenses whose class takes no wavelength (eo.py) or without design focal length raise TypeError (C79_violated_class); one wavelength where a focal length announced as an integer is off by more than 1 % makes the whole call raise ValueError (C79_violated_int)."
  },
  {
   "property": "C80",
   "status": "partial",
   "theorems": [
    "RT.C80_found",
    "RT.C80_real",
    "RT.C80_refused",
    "RT.C80_violated_resonance",
    "RT.C80_violated_user",
    "RT.C80_violated_twice"
   ],
   "note": "Proved for every accepted wavelength without a resonance, all indices (complex ones included), tolerances and lists, and outside of the accepted range. The code violates the rest: at the resonance of one material nothing can be found (C80_violated_resonance), E_BAF11 is found twice when both of its classes are alive (C80_violated_twice), and as soon as the user has implemented a material in a module of their own nothing can be found (C80_violated_user)."
  },
  {
   "property": "C81",
   "status": "partial",
   "theorems": [
    "RT.C81_all",
    "RT.C81_violated_same"
   ],
   "note": "Proved for all lists of rays whose own titles differ. The code violates the rest: of two objects or lamps with the same title only the last is drawn (C81_violated_same)."
  },
  {
   "property": "C82",
   "status": "partial",
   "theorems": [
    "RT.C82_display",
    "RT.C82_boxes",
    "RT.C82_clicks",
    "RT.C82_violated_labels",
    "RT.C82_violated_elsewhere"
   ],
   "note": "Proved for all figures and all sequences of clicks. The code violates two parts: labels of hidden graphics stay (C82_violated_labels), objects that are not at 0 are seen even when objects are not to be shown (C82_violated_elsewhere)."
  },
  {
   "property": "C83",
   "status": "proved",
   "theorems": [
    "RT.C83_pen",
    "RT.C83_polygon",
    "RT.C83_outline",
    "RT.C83_box",
    "RT.C83_halfHeight",
    "RT.C83_label",
    "RT.C83_object",
    "RT.C83_tips",
    "RT.C83_lens_label",
    "RT.C83_box_label",
    "RT.C83_lamp",
    "RT.C83_surfaces"
   ],
   "note": "Closed outlines for any surfaces, boxes and polygons; arrows of objects and images; labels of symmetric graphics; the labels of boxes follow the box (which itself may be drawn at 2z, see C77). matplotlib's rendering of the curves is trusted."
  },
  {
   "property": "C84",
   "status": "partial",
   "theorems": [
    "RT.C84_points",
    "RT.C84_outline",
    "RT.C84_violated_bars"
   ],
   "note": "Foci and outline proved for all parameters and both orientations. The code violates the last part for all parameters: the front aperture is drawn at the height of the back aperture (C84_violated_bars)."
  },
  {
   "property": "C85",
   "status": "partial",
   "theorems": [
    "RT.C85_aperture",
    "RT.C85_field",
    "RT.C85_no_stop",
    "RT.C85_pupil",
    "RT.C85_violated_pupil",
    "RT.C85_principal"
   ],
   "note": "Proved under the hypotheses of C30, C32 and C34 (thin openings, probe ray not blocked, front index 1, stops not inside black boxes). The code violates the rest: the figure of a system with its pupil at infinity raises ValueError with showEntrancePupil (C85_violated_pupil)."
  },
  {
   "property": "C86",
   "status": "partial",
   "theorems": [
    "RT.C86_last",
    "RT.C86_user_filter",
    "RT.C86_module",
    "RT.C86_intent",
    "RT.C86_silent",
    "RT.C86_expert",
    "RT.C86_beginner",
    "RT.C86_violated_expert",
    "RT.C86_violated_beginner"
   ],
   "note": "Proved for all states and all sequences of warnings; what each mode prints is characterised exactly. The code violates the intent: the filter for all UserWarnings, set last, shadows the one for hints, so expert mode prints hints once each (C86_violated_expert) and beginner mode prints them only once (C86_violated_beginner). Python's warnings module is modelled from its documentation."
  },
  {
   "property": "C87",
   "status": "partial",
   "theorems": [
    "RT.C87_import",
    "RT.C87_violated_foreign",
    "RT.C87_check",
    "RT.C87_checks",
    "RT.C87_mode",
    "RT.C87_saved",
    "RT.C87_new",
    "RT.C87_violated_second",
    "RT.C87_violated_first",
    "RT.C87_violated_day",
    "RT.C87_violated_env"
   ],
   "note": "Proved for any number of imports not at a whole second. The code violates the rest: after a check at a whole second every import raises ValueError (C87_violated_second, C87_violated_first), a day means two (C87_violated_day), RAYTRACING_EXPERT changes the mode for good (C87_violated_env). C87_import relates the import to the file of the preferences, with the reads and writes of C53; a file with JSON that is not a dictionary makes every import raise TypeError (C87_violated_foreign)."
  },
  {
   "property": "C88",
   "status": "partial",
   "theorems": [
    "RT.C88_leaves",
    "RT.C88_violated"
   ],
   "note": "Exactly the classes without subclasses are listed (C88_leaves); a class with subclasses is not (C88_violated)."
  },
  {
   "property": "C89",
   "status": "partial",
   "theorems": [
    "RT.C89_violated_arrows",
    "RT.C89_violated_all",
    "RT.C89_lines",
    "RT.C89_violated_none",
    "RT.C89_cavity",
    "RT.C89_shown"
   ],
   "note": "Lines, success and cavities are proved for all paths, beams and sequences of displays (half heights of the graphics given). The code violates the rest: the waists of all earlier displays are shown again (C89_violated_arrows, C89_violated_all) and display() without input beam raises TypeError (C89_violated_none)."
  },
  {
   "property": "C90",
   "status": "partial",
   "theorems": [
    "RT.C90_programs",
    "RT.C90_matrix",
    "RT.C90_trace",
    "RT.C90_flip_times",
    "RT.C90_violated_flip",
    "RT.C90_violated_space",
    "RT.C90_slice",
    "RT.C90_violated_flip_twice",
    "RT.C90_violated_slice",
    "RT.C90_violated_group"
   ],
   "note": "Proved for all programs that put each object at one place (C90_programs), and, with any sharing of single elements, for matrices (C90_matrix) and traces (C90_trace). The code violates the rest: an object is flipped as many times as it is in the path (C90_flip_times), so an even number of places leaves it unflipped (C90_violated_flip, C90_violated_flip_twice); flipping a slice turns the elements of the path and leaves the entries of the path stale (C90_violated_slice); appending a Space elsewhere changes its index everywhere (C90_violated_space); a group at two places of a path replays its recorded trace (C90_violated_group)."
  },
  {
   "property": "C91",
   "status": "partial",
   "theorems": [
    "RT.C91_lines_partial",
    "RT.C91_entrance_partial",
    "RT.C91_sides",
    "RT.C91_start",
    "RT.C91_through",
    "RT.C91_removed",
    "RT.C91_thick_violated",
    "RT.C91_edge_violated",
    "RT.C91_outside_violated",
    "RT.C91_media_violated",
    "RT.C91_violated_thick",
    "RT.C91_violated_asymmetric"
   ],
   "note": "C91_lines_partial: for every path of single parts in air, every position strictly inside a space and every list of rays, the lines drawn both ways are those of the specification (Drawn), the ray objects being shared by the two sub-paths; C91_entrance_partial for the entrance plane; C91_sides, C91_start, C91_through, C91_removed say where the lines are. Violated: by a ray stopped by an element with a thickness, which is not drawn up to it (C91_thick_violated, C91_violated_thick); for a source at the limit between two elements or out of the path (C91_edge_violated, C91_outside_violated); behind elements that are not the same from behind (C91_violated_asymmetric). A source in a space that is not in air raises before another element (C91_media_violated). Missing: nested groups (their traces are cached, see C11-C13)."
  },
  {
   "property": "C92",
   "status": "partial",
   "theorems": [
    "RT.C92_created",
    "RT.C92_refused",
    "RT.C92_warnings",
    "RT.C92_visible",
    "RT.C92_focalShifts",
    "RT.C92_default",
    "RT.C92_violated",
    "RT.C92_violated_half",
    "RT.C92_violated_int",
    "RT.C92_violated_twice",
    "RT.C92_objectives",
    "RT.C92_invariants",
    "RT.C92_once"
   ],
   "note": "All 342 lens classes of thorlabs.py and eo.py and all objectives of olympus.py and nikon.py, with the data of the files. C92_created: each lens can be made at every wavelength from 0.29 to 6.4 micrometres (when its class takes one) and is the stack of its data with the indices at that wavelength; C92_warnings gives the exact warnings of each; C92_visible, C92_focalShifts, C92_default the focal length over wavelengths; C92_objectives, C92_invariants the objectives. Violated: 96 lenses are off by more than 1 % from the focal length announced, 52 by more than 10 % (C92_violated), one by a factor of more than two (C92_violated_half); 14 names are used twice, 7 of them with other data (C92_violated_twice), and no other is (C92_once); AC254_150_A and AC254_250_A raise ValueError at every wavelength from 0.29 to 0.35 and from 1.3 to 6.4, because their focal length is written as an integer that the text of the warning cannot format (C92_violated_int). Missing: wavelengths out of 0.29-6.4, and for these two lenses those from 0.35 to 0.38 and from 1.1 to 1.3."
  },
  {
   "property": "C93",
   "status": "partial",
   "theorems": [
    "RT.C93_decreasing",
    "RT.C93_abbe",
    "RT.C93_violated",
    "RT.C93_order",
    "RT.C93_singlets"
   ],
   "note": "C93_decreasing for all glasses and all pairs of wavelengths from 0.28 to 7 micrometres; C93_abbe (within 0.02) for every class that a name denotes, C93_order, C93_singlets. Violated by the first of the two classes called E_BAF11 (C93_violated), which is hidden by the second."
  },
  {
   "property": "C94",
   "status": "partial",
   "theorems": [
    "RT.C94_through",
    "RT.C94_flipped",
    "RT.C94_focus",
    "RT.C94_collects",
    "RT.C94_catalogue",
    "RT.C94_sizes",
    "RT.C94_field",
    "RT.C94_violated"
   ],
   "note": "C94_through and C94_flipped say for all parameters and all rays exactly which are blocked and where the others leave; C94_focus and C94_collects that the light at the focus is a cone of half angle min(NA, backAperture/(2|f|)); C94_field that the whole announced field is seen. The cone is within 3% of the announced NA for every objective of the catalogues (C94_catalogue) except nikon.LWD16X, which announces 1.56 and accepts 0.8: the property is violated there (C94_violated). Objectives whose two apertures disagree can also be made by users."
  },
  {
   "property": "C95",
   "status": "proved",
   "theorems": [
    "RT.C95_python_through",
    "RT.C95_python_blocked",
    "RT.C95_python_positions",
    "RT.C95_limits",
    "RT.C95_python_example",
    "RT.C95_python_overflow",
    "RT.C95_reference",
    "RT.C95_through",
    "RT.C95_blocked",
    "RT.C95_agree",
    "RT.C95_positions",
    "RT.C95_bound",
    "RT.C95_double",
    "RT.C95_example"
   ],
   "note": "C95_through, C95_blocked: every program built in rounded arithmetic, any nesting, any rounding of relative error u <= 1/8; the error is relErr u k times the majorant, k the number of roundings, at most k u/(1 - k u) (C95_bound); C95_double: binary64 rounds with u = 2^-53. C95_agree compares with the same program run exactly; C95_positions: positions never decrease in binary64. C95_python_through, C95_python_blocked, C95_python_positions: the same with the bounded exponents of Python floats, underflow included, when no majorant comes near the largest float and the parameters are floats of ordinary magnitude; C95_python_overflow: a lens of focal length 2^-1030 is accepted and sends the axis to nan. A ray within the error of an edge may go either way, as the statement allows."
  },
  {
   "property": "C96",
   "status": "partial",
   "theorems": [
    "RT.C96_python_matrix",
    "RT.C96_python_accepted",
    "RT.C96_python_moderate",
    "RT.C96_python_violated",
    "RT.C96_python_overflow",
    "RT.C96_python_example",
    "RT.C96_matrix",
    "RT.C96_accepted",
    "RT.C96_double",
    "RT.C96_example",
    "RT.C96_violated",
    "RT.C96_media",
    "RT.C96_indices",
    "RT.C96_room",
    "RT.C96_media_example"
   ],
   "note": "The error bound on the coefficients holds for all systems. Acceptance is proved for systems in air with room for the errors on the determinant (C96_accepted, C96_double: up to 1000 roundings with moderate coefficients) and, with interfaces and media, for parts that follow each other from index to index, any nesting, with the same room and changes of index larger than the errors (C96_media, C96_room); C96_indices: such a system reports the indices of its media. C96_python_matrix, C96_python_accepted, C96_python_moderate: with the bounded exponents of Python floats, in air, for parameters that are zero or between 2^-48 and 2^48 when nothing overflows. Violated in general: the Sun through an ordinary lens is refused with ValueError (C96_violated, C96_python_violated), and a legal system that overflows is accepted with infinite coefficients, since a nan determinant is not found different (C96_python_overflow). Not covered: a group that does nothing inside glass (it reports index 1 and is refused: C04)."
  },
  {
   "property": "C97",
   "status": "partial",
   "theorems": [
    "RT.C97_where",
    "RT.C97_heights",
    "RT.C97_violated_angles",
    "RT.C97_example_heights",
    "RT.C97_cut",
    "RT.C97_violated",
    "RT.C97_example"
   ],
   "note": "No TypeError is proved when generic matrices have no length, for any rounding and any position. Violated next to a stop when an element is given by its matrix and a length: two witnesses in binary64, one with the stop just after and one just before. The matrix found is proved to be that of the exact system cut at a position that differs by a bounded rounding error (C97_where), so the coefficients of heights, A and B, are right up to errors (C97_heights). Those of angles, C and D, may jump: a lens that is the stop is left out (C97_violated_angles)."
  },
  {
   "property": "C98",
   "status": "partial",
   "theorems": [
    "RT.C98_afocal",
    "RT.C98_focal",
    "RT.C98_imaging",
    "RT.C98_conjugate",
    "RT.C98_defocus",
    "RT.C98_double",
    "RT.C98_example",
    "RT.C98_violated"
   ],
   "note": "Proved with explicit bounds on the errors (C98_afocal, C98_focal, C98_imaging, C98_conjugate, C98_defocus); in binary64 the matrix of forwardConjugate is imaging for |B| up to 10^10 (C98_double). C98_focal is about the back focal length f2. Violated: D is compared with 0 without tolerance, so an object in the front focal plane of a lens of focal length 49 gets an image at -4.4e17 (C98_violated)."
  },
  {
   "property": "C99",
   "status": "partial",
   "theorems": [
    "RT.C99_profile_partial",
    "RT.C99_end",
    "RT.C99_empty",
    "RT.C99_example",
    "RT.C99_violated"
   ],
   "note": "C99_profile_partial: at every position in the system not strictly inside a thick element and where no ray is stopped. C99_end: the default position, for all systems and rays. C99_empty. Violated at the position of a thin stop, where the rays it stops are still counted, and past the end, where the rays are those at the end (C99_violated)."
  },
  {
   "property": "C100",
   "status": "proved",
   "theorems": [
    "RT.C100_progress",
    "RT.C100_when",
    "RT.C100_quiet"
   ],
   "note": "All numbers of rays; the iteration counter is that of a collection not iterated elsewhere at the same time (C49)."
  },
  {
   "property": "C101",
   "status": "partial",
   "theorems": [
    "RT.C101_number",
    "RT.C101_matrix",
    "RT.C101_float",
    "RT.C101_ties",
    "RT.C101_same",
    "RT.C101_focal",
    "RT.C101_violated_weak",
    "RT.C101_ray",
    "RT.C101_beam",
    "RT.C101_beams",
    "RT.C101_violated_beam"
   ],
   "note": "C101_number for every number and number of decimals; C101_matrix, C101_same, C101_focal; C101_ray; C101_beams for every complex radius. Violated: a focal length is printed for every system with 0 < |C| <= 1e-5, which effectiveFocalLengths() calls afocal (C101_violated_weak); the default wavelength, 632.8e-6 mm, is printed as 632800.0 nm (C101_violated_beam). The format of complex numbers is a parameter; the sign of zero is not modelled. C101_float is the text of a matrix of floats; C101_ties says how halves are written."
  },
  {
   "property": "C102",
   "status": "partial",
   "theorems": [
    "RT.C102_order",
    "RT.C102_files",
    "RT.C102_once",
    "RT.C102_run",
    "RT.C102_all",
    "RT.C102_listed",
    "RT.C102_number",
    "RT.C102_violated_zero",
    "RT.C102_violated_negative",
    "RT.C102_written",
    "RT.C102_first",
    "RT.C102_violated_unknown",
    "RT.C102_raises"
   ],
   "note": "The code does not refuse unknown numbers: 0 runs the last example (C102_violated_zero), and a number too large raises IndexError after the examples before it have run (C102_violated_unknown). The rest is proved. The parser of the options is not modelled. C102_violated_negative, C102_written and C102_first are about signs, blanks, underscores and the order of the options."
  },
  {
   "property": "C103",
   "status": "partial",
   "theorems": [
    "RT.C103_edges",
    "RT.C103_count",
    "RT.C103_text",
    "RT.C103_violated"
   ],
   "note": "The edges are proved (C103_edges, C103_count, C103_text). Classes of the same name are one vertex, so that the tree cannot always be read back (C103_violated)."
  },
  {
   "property": "C104",
   "status": "partial",
   "theorems": [
    "RT.C104_menu",
    "RT.C104_order",
    "RT.C104_select",
    "RT.C104_violated_same"
   ],
   "note": "Proved for all classes, modules and sequences of selections, when different lenses have different texts (in the catalogues the label is the part number); otherwise the item of a text shows the last lens of this text (C104_violated_same). The windows are not modelled."
  },
  {
   "property": "C105",
   "status": "partial",
   "theorems": [
    "RT.C105_true",
    "RT.C105_sorted",
    "RT.C105_violated",
    "RT.C105_violated_name"
   ],
   "note": "Never raises (the model is total: all errors are caught); what is announced is true (C105_true); the answer is right when the releases are listed in order (C105_sorted). The code takes the last release listed for the latest, so it misses later versions listed before (C105_violated), and one release name refused by packaging prevents any announcement (C105_violated_name). The network and the order of versions are parameters."
  },
  {
   "property": "C106",
   "status": "partial",
   "theorems": [
    "RT.C106_elements",
    "RT.C106_short",
    "RT.C106_symmetric",
    "RT.C106_append",
    "RT.C106_violated_modes",
    "RT.C106_violated"
   ],
   "note": "The elements are proved for all cavities (C106_elements, C106_short), and that the matrix of the elements has A = D (C106_symmetric). Violated by every cavity: what is reported is not updated, so the modes and the stability stay those of the way forth (C106_violated_modes); a cavity is reported stable whose round trip is not (C106_violated). The next element appended updates the matrix (C106_append)."
  },
  {
   "property": "C107",
   "status": "partial",
   "theorems": [
    "RT.C107_reference",
    "RT.C107_stop",
    "RT.C107_agree",
    "RT.C107_example",
    "RT.C107_violated"
   ],
   "note": "C107_stop: for all systems and all roundings, the opening reported has the largest exact ratio of height to diameter up to the errors, with its exact diameter and its position up to the errors. C107_agree: the same stop as the exact program when it is separated from the others by more than the errors. C107_reference: the exits compared with are those of C30. C107_violated: two apertures that limit equally, where floats report the second and exact numbers the first. Missing: probe rays within rounding errors of the edge of an opening, for which whether the openings behind are seen depends on the last digit; overflow and underflow."
  },
  {
   "property": "C108",
   "status": "proved",
   "theorems": [
    "RT.C108_chief",
    "RT.C108_marginal",
    "RT.C108_pupil",
    "RT.C108_example"
   ],
   "note": "For every rounding of bounded relative error, with exponents that are not bounded, and for systems where the fate of the probe ray of apertureStop is decided by more than the rounding errors. The bound uses a largest slope S of the two rays (1,0) and (0,1) along the system."
  },
  {
   "property": "C109",
   "status": "partial",
   "theorems": [
    "RT.C109_session",
    "RT.C109_another",
    "RT.C109_kept",
    "RT.C109_append",
    "RT.C109_violated",
    "RT.C109_stale",
    "RT.C109_path"
   ],
   "note": "C109_session, C109_another: right for every session in which no change is pending, and after a change for every object but the last one traced. C109_violated, C109_stale: after a change the last object traced gives the old trace, which is always wrong after an append. Elements added have traced no beam before, and rays traced through the same path in between are not described; tracing one replaces what is remembered."
  },
  {
   "property": "C110",
   "status": "partial",
   "theorems": [
    "RT.C110_display",
    "RT.C110_with_object",
    "RT.C110_violated_raises",
    "RT.C110_violated_zero",
    "RT.C110_violated_large",
    "RT.C110_angle_partial",
    "RT.C110_violated_any",
    "RT.C110_violated_nan"
   ],
   "note": "Proved when the range displayed is less than 5 pi times the length of the path (positive, at least a tenth) and at most ten times it (at most a fifth), with C110_display for what is shown. Violated otherwise: the code takes a tangent instead of an arc tangent, so that for every path with a length each angle, negative ones included, is that of some object height (C110_violated_any); a path without a length raises ZeroDivisionError (C110_violated_zero, C110_violated_raises) or gets an angle that is not a number (C110_violated_nan). The half heights of the graphics are a parameter. C110_with_object: displayWithObject shows one object of the diameter asked for, whose rays open by the angle asked for or computed. C110_violated_large: for a path without length, ZeroDivisionError is raised when the range is that of the object or of an image."
  },
  {
   "property": "C111",
   "status": "partial",
   "theorems": [
    "RT.C111_rays",
    "RT.C111_count",
    "RT.C111_cosine",
    "RT.C111_negative",
    "RT.C111_emits",
    "RT.C111_violated_few",
    "RT.C111_violated_even",
    "RT.C111_violated_height",
    "RT.C111_refused"
   ],
   "note": "Proved for all sizes and intensities, with the real cosine: the rays in order (C111_rays), their number and bounds (C111_count), the cosine law to less than one ray (C111_cosine), what is refused, and when there are rays (C111_emits). Violated: one or two angles (the angles are then ±π/2 only) or an even number of angles with an intensity of 1 give an empty source; a single height is the lower bound. A negative intensity is not refused: it gives an empty source (C111_negative). Rounding is covered by C134."
  },
  {
   "property": "C112",
   "status": "partial",
   "theorems": [
    "RT.C112_rays",
    "RT.RandomRays.C112_visits",
    "RT.RandomRays.C112_append_partial",
    "RT.RandomRays.C112_violated_append",
    "RT.C112_violated_lamp",
    "RT.C112_violated_load",
    "RT.C112_violated_short"
   ],
   "note": "Holds for collections (C112_rays). For random sources and lamps, iterations visit the first maxCount rays among those held then made (C112_visits): a ray appended before maxCount rays were made is visited (C112_append_partial). Violated: appended rays are never counted, nor visited once maxCount rays are held, so never for a lamp that is not random (C112_violated_lamp, any sequence of accesses, iterations and additions); a lamp loaded from a shorter file raises AttributeError when iterated (C112_violated_short), from a longer one visits only the first rays."
  },
  {
   "property": "C113",
   "status": "partial",
   "theorems": [
    "RT.C113_stable",
    "RT.C113_noPower",
    "RT.C113_example",
    "RT.C113_violated"
   ],
   "note": "C113_stable for every cavity built in floats and in exact numbers, unit determinant, power above the tolerance by more than its error, discriminant away from 0 by more than its error (2 ops + 4 roundings against the majorant); C113_noPower below the tolerance. Complex division by the method of CPython. Violated at the limit (C113_violated): a ring of length 196 with a lens of focal length 49, for which A + D = -2, is reported stable with a laser mode in Python floats. Overflow and underflow are not considered."
  },
  {
   "property": "C114",
   "status": "proved",
   "theorems": [
    "RT.C114_trace",
    "RT.C114_matrix",
    "RT.C114_confined",
    "RT.C114_air",
    "RT.C114_example"
   ],
   "note": "C114_trace, C114_matrix for every system that can be built, conditional on the call not raising; C114_air: in air it does not raise; C114_confined. Complex division by the method of CPython, whose error is bounded by 2 relErr u 10 (smith_num). doubleR is binary64 rounding on real numbers, equal to double on rationals (doubleR_cast); C114_example is a beam in Python floats through a lens and a space, with an error below 1e-10. Exponents are not bounded: overflow and underflow are not considered. The error on the size w is not bounded; that of media other than air is, when the call does not raise."
  },
  {
   "property": "C115",
   "status": "partial",
   "theorems": [
    "RT.C115_field",
    "RT.C115_exact",
    "RT.C115_whole",
    "RT.C115_precision_violated",
    "RT.C115_example"
   ],
   "note": "C115_field and C115_exact are for all paths, precisions and largest heights, under hypotheses on the edge of the field: the exact chief rays clear all openings below Y1 and hit one above Y2 by more than the rounding errors, and Y2 - Y1 is at most a twentieth of the precision. C115_whole is for fieldOfView(). Without the hypothesis on the precision, C115_precision_violated gives a path for which the search does not return in floats. C115_example shows that the hypotheses hold for a path with two irises, and the answer in floats. Missing: fields whose edge is less than 70 times the precision, and the exceptions of the matrix up to the field stop, which are described but not excluded."
  },
  {
   "property": "C116",
   "status": "partial",
   "theorems": [
    "RT.C116_value",
    "RT.C116_conserved",
    "RT.C116_double",
    "RT.C116_violated",
    "RT.C116_violated_relative",
    "RT.C116_example",
    "RT.C116_media",
    "RT.C116_violated_glass",
    "RT.C116_media_example"
   ],
   "note": "C116_value: the computed invariant is within 2*relErr(2k+7)*|n|*M of the exact value at the entrance, k roundings and majorants being those of the beginning of the path up to z; C116_conserved: two positions; C116_double: in Python floats, 10^-12 of the majorant up to 1000 roundings. C116_media: paths with interfaces through media of any indices, when they begin in air or when the matrix up to z is not the identity; otherwise violated: the invariant at the entrance of a path that begins in glass is computed with index 1 (C116_violated_glass). Violated when exact conservation (C116_violated) or a relative error (C116_violated_relative) is expected. Missing: overflow and underflow (numbers of the model of C95)."
  },
  {
   "property": "C117",
   "status": "partial",
   "theorems": [
    "RT.C117_planes",
    "RT.C117_foci",
    "RT.C117_rays",
    "RT.C117_vertices",
    "RT.C117_double",
    "RT.C117_violated",
    "RT.C117_example"
   ],
   "note": "C117_planes, C117_foci and C117_vertices: errors of a few roundings on the numbers computed from the matrix; C117_rays: what rays do at the foci found, with the errors on the matrix of C96; C117_double: size of the errors in Python floats. Violated when exact numbers or relative errors are expected (C117_violated). Missing: overflow and underflow (numbers of the model of C95)."
  },
  {
   "property": "C118",
   "status": "partial",
   "theorems": [
    "RT.C118_returns",
    "RT.C118_returns_example",
    "RT.C118_forward",
    "RT.C118_backward",
    "RT.C118_system",
    "RT.C118_double",
    "RT.C118_object",
    "RT.C118_field",
    "RT.C118_violated",
    "RT.C118_example"
   ],
   "note": "C118_forward, C118_backward: any matrix of floats; C118_system: for the exact system, the error is relErr(2k+3) times the majorant of its determinant, k roundings; C118_double: in air, in Python floats, 10^-12 of the majorant up to 1000 roundings; C118_object, C118_field: sizes of images. Violated when exact values are expected (C118_violated: an object at twice the focal length is not imaged with magnification -1). Not covered: overflow and underflow (numbers of the model of C95). C118_returns: in air the forward conjugate raises no error when the matrix leaves room for the errors on its determinant, whatever D is."
  },
  {
   "property": "C119",
   "status": "partial",
   "theorems": [
    "RT.C119_fNumber",
    "RT.C119_NA",
    "RT.C119_lagrange",
    "RT.C119_sine",
    "RT.C119_violated",
    "RT.C119_example"
   ],
   "note": "C119_fNumber: for the exact focal length and the exact stop, under the hypotheses of C108 (the fate of the probe ray is decided by more than the rounding errors); C119_NA: over the reals, for any sine with an error es (C119_sine: the exact one rounded), the half angle being D/(2|B|) with B the height at the stop of a ray of angle 1; C119_lagrange: with the errors of C116, for the field found (C115 says where it is). Violated to the last digit (C119_violated: the f-number of a lens of focal length and diameter 49 is not 1). Not covered: overflow and underflow; the f-number of systems weaker than the tolerance of hasPower."
  },
  {
   "property": "C120",
   "status": "proved",
   "theorems": [
    "RT.C120_size",
    "RT.C120_waist",
    "RT.C120_curvature",
    "RT.C120_roundTrip",
    "RT.C120_after",
    "RT.C120_python",
    "RT.C120_roundTrip_example",
    "RT.C120_after_example"
   ],
   "note": "Numbers round with a relative error u, without overflow or underflow (model Fl). math.sqrt and math.pi are supposed to be the exact ones, rounded (FloatMath), which doubleRMath satisfies. The exact quantities are beamSize, beamCurve and waistSize. Systems in media: C120_after is stated in air."
  },
  {
   "property": "C121",
   "status": "proved",
   "theorems": [
    "RT.C121_restored",
    "RT.C121_rounded",
    "RT.C121_single",
    "RT.C121_again",
    "RT.C121_example",
    "RT.C121_example_media",
    "RT.C121_violated"
   ],
   "note": "C121_restored holds in binary64 with overflow and underflow (a single zero), for all programs of the Part language; C121_rounded for any rounding; C121_single: a single element that was flipped without error can always be flipped back. C121_again: in air the second flip cannot fail. The proof uses only that changing a sign twice changes nothing and that == tells numbers apart. C121_violated: Space(100), Lens(3), Space(1000), Lens(1/64), Space(1000) is accepted, but its flip raises ValueError and the group is left with four elements, because the determinant of a product is off by more than 1e-5 after rounding."
  },
  {
   "property": "C122",
   "status": "proved",
   "theorems": [
    "RT.C122_mirrored",
    "RT.C122_rounded",
    "RT.C122_accepted",
    "RT.C122_matrix",
    "RT.C122_double",
    "RT.C122_example",
    "RT.C122_violated"
   ],
   "note": "Proved for all nested systems in air and any odd rounding with a relative error, Double in particular: C122_mirrored/C122_rounded (same numbers as the program written the other way round), C122_accepted/C122_double (flips raise no error when the determinants have room), C122_matrix (A and D exchanged up to the rounding errors of the system itself; no curved mirrors, whose unfolded matrix is not that of the reversed path, and generic matrices with A = D). C122_violated: the vertices of a flipped thick lens are not those of the lens written the other way round."
  },
  {
   "property": "C123",
   "status": "partial",
   "theorems": [
    "RT.Saving.C123_returns_iff",
    "RT.Saving.C123_never_violated",
    "RT.Saving.C123_never_example",
    "RT.Saving.C123_interrupt_violated",
    "RT.Saving.C123_prefix",
    "RT.Saving.C123_saved",
    "RT.Saving.C123_rays_complete",
    "RT.Saving.C123_group_violated",
    "RT.Saving.C123_killed_violated",
    "RT.Saving.C123_rays_killed_violated",
    "RT.Saving.C123_unpicklable_violated",
    "RT.Saving.C123_example"
   ],
   "note": "Proved: an undisturbed save returns after two looks at the size and the file then holds the data (C123_saved); at every moment the file holds the old content (only before it is opened) or a beginning of the new one (C123_prefix); Rays.save has the whole file on disk before it waits (C123_rays_complete); the exact condition for the waiting loop to end (C123_returns_iff). The code violates the rest: MatrixGroup.save waits inside the with block, before the last piece is written, so the file is incomplete during the whole wait (C123_group_violated) and a program killed then leaves neither system (C123_killed_violated; C123_rays_killed_violated for rays while writing); the loop never ends if the file is removed or keeps changing (C123_never_violated); Ctrl-C during the sleep of one second is ignored by the bare except (C123_interrupt_violated); an object that cannot be pickled destroys the old file (C123_unpicklable_violated). Trusted: BufferedWriter keeps pieces that fit in memory; pickle refuses texts cut short is a hypothesis of the theorems."
  },
  {
   "property": "C124",
   "status": "proved",
   "theorems": [
    "RT.C124_fan",
    "RT.C124_order",
    "RT.C124_first",
    "RT.C124_inside",
    "RT.C124_spaced",
    "RT.C124_uniform",
    "RT.C124_double",
    "RT.C124_last_violated",
    "RT.C124_middle_violated",
    "RT.C124_example"
   ],
   "note": "C124_fan gives the angles of a fan exactly as computed; C124_order, C124_first, C124_inside, C124_spaced the order, the bounds and the spacing; C124_uniform the grid of UniformRays; C124_double the hypotheses for Python floats up to 10^15 rays. Limits shown by witnesses: the last ray of Ray.fan(0, -0.1, 0.2, 2) is beyond 0.2 (C124_last_violated), and the ray in the middle of Ray.fan(0, -1, 1, 99) is not on the axis (C124_middle_violated)."
  },
  {
   "property": "C125",
   "status": "proved",
   "theorems": [
    "RT.C125_mode",
    "RT.C125_trip",
    "RT.C125_example"
   ],
   "note": "C125_mode: existence, uniqueness and componentwise error of the mode in floats, for any cavity and any rounding. C125_trip: the mode is reproduced by the exact round trip up to 5 times the errors, and by the round trip in floats with the error of C114 added (when multiplying the beam succeeds and its denominator is clear of 0). C125_example: ring of length 40 with a lens of 50, in Python floats, -20 + 40 i to 1e-10. Overflow and underflow are not modelled at Fl; what happens at the limit of stability is C113_violated."
  },
  {
   "property": "C126",
   "status": "proved",
   "theorems": [
    "RT.C126_index",
    "RT.C126_refused",
    "RT.C126_air",
    "RT.C126_python",
    "RT.C126_example",
    "RT.C126_resonance_violated",
    "RT.C126_exact"
   ],
   "note": "For any rounding with u ≤ 1e-6 and powers (x**k, **.5) within two roundings of the exact ones; the bounds per glass are rational numbers computed in the kernel over all the materials (glasses_floatOk, glasses_margin), the wavelength ranges over the reals of [0.28, 7]. C126_python instantiates it for 53-bit rounding, C126_resonance_violated shows that the range cannot be extended to all accepted wavelengths, C126_exact ties the float model to the exact formulas of C56."
  },
  {
   "property": "C127",
   "status": "proved",
   "theorems": [
    "RT.C127_created",
    "RT.C127_default",
    "RT.C127_visible",
    "RT.C127_refused",
    "RT.C127_exact",
    "RT.C127_example"
   ],
   "note": "C127_created: all 342 classes, no argument or any wavelength from 0.3 to 2.5 micrometres, real floats (doubleR: 53 bits, no overflow or underflow), pow and sqrt correctly rounded as in C126. The two classes whose focal length is written as an integer are covered while it is within 0.99999 % of the data (the exact lens is refused beyond 1 %: C92_violated_int); C127_default (without argument) and C127_visible (0.38 to 1.1 micrometres) need no such hypothesis. C127_refused: classes without wavelength raise TypeError. C127_exact: with exact numbers the model is that of C92. Beyond 2.5 micrometres the indices of some glued glasses get equal, below 0.3 one index is above the bound used."
  },
  {
   "property": "C128",
   "status": "proved",
   "theorems": [
    "RT.C128_shifts",
    "RT.C128_visible",
    "RT.C128_default",
    "RT.C128_order",
    "RT.C128_refused"
   ],
   "note": "C128_shifts for arrays of any length, on C127 (same floats: 53 bits, no overflow or underflow); the two classes with an integer focal length while it is within 0.99999 % of the data, without hypothesis from 0.38 to 1.1 micrometres (C128_visible) and for the default wavelengths (C128_default, on C124 for linspace). C128_order, C128_refused (a class without wavelength: TypeError, as in C79). Python lists instead of arrays: C79_violated_list."
  },
  {
   "property": "C129",
   "status": "proved",
   "theorems": [
    "RT.C129_found",
    "RT.C129_itself",
    "RT.C129_exact"
   ],
   "note": "C129_found: same names, order and Abbe numbers as the exact search of C80, indices within 4e-13 (floats of 53 bits without overflow, powers correctly rounded as in C126_python). C129_itself: found by its own index, no hypothesis on the other materials. C129_exact: with exact numbers the model is that of C80. Below 0.28 and above 7 micrometres see C80 (complex indices, resonances)."
  },
  {
   "property": "C130",
   "status": "proved",
   "theorems": [
    "RT.C130_upTo",
    "RT.C130_conjugates",
    "RT.C130_rays",
    "RT.C130_violated",
    "RT.C130_example",
    "RT.C130_returns",
    "RT.C130_returns_example"
   ],
   "note": "The errors are explicit in the unit roundoff, the number of roundings and the majorant of the matrix of the first elements. C130_returns: in air the list is always returned, whatever D is, when each product of the first elements leaves room for the rounding errors on the determinant; C130_conjugates itself is for all media and conditional on the method returning. C130_violated: a 4f relay of two lenses of focal length 49 lists two spurious planes near -4.4e17 in Python floats; the exact program lists only the image at 196."
  },
  {
   "property": "C131",
   "status": "proved",
   "theorems": [
    "RT.C131_counts",
    "RT.C131_every_ray",
    "RT.C131_numpy",
    "RT.C131_double",
    "RT.C131_example"
   ],
   "note": "For collections just made; queries after other queries are in C48. The heights and angles are floats (values that rounding keeps), without overflow. numpy is not part of the code: its method is written down in numpyBin and proved to find the bin that the model counts in (C131_numpy), when bins are wider than four times the errors on the edges; recent versions of numpy refuse bins that are too narrow to have distinct edges, which is not modelled. C131_double: Python floats, up to 10^14 bins."
  },
  {
   "property": "C132",
   "status": "proved",
   "theorems": [
    "RT.C132_made",
    "RT.C132_ray",
    "RT.C132_symmetric",
    "RT.C132_focal_line",
    "RT.C132_double",
    "RT.C132_example"
   ],
   "note": "C132_made, C132_ray, C132_symmetric, C132_focal_line for any rounding (symmetric for odd ones); C132_double for Python floats, where halving is exact. Without overflow or underflow. Rays already blocked are in C60 (their angle is changed)."
  },
  {
   "property": "C133",
   "status": "partial",
   "theorems": [
    "RT.Zmx.C133_program",
    "RT.Zmx.C133_matrix",
    "RT.Zmx.C133_made",
    "RT.Zmx.C133_example"
   ],
   "note": "C133_program: the lens is exactly what the program of its surfaces makes, errors included (made if and only if the program runs). C133_matrix: coefficients within at most 8 roundings per surface of those of light going through the surfaces in exact arithmetic. C133_made: made whenever there is room for the rounding errors in the determinants (Part.Between, from air to air). C133_example: a doublet in Python floats meets all of it. Missing: the numbers of the file are taken as given floats (the parsing of decimal numbers and the conversion of units are not rounded here), the indices are taken as given numbers and not through the dispersion formulas, and overflow and underflow are outside the rounding model."
  },
  {
   "property": "C134",
   "status": "proved",
   "theorems": [
    "RT.C134_rays",
    "RT.C134_bounds",
    "RT.C134_cosine",
    "RT.C134_same",
    "RT.C134_double",
    "RT.C134_emits",
    "RT.C134_example"
   ],
   "note": "C134_rays: the rays in order; C134_bounds: number and bounds; C134_cosine: the cosine law to less than one ray and the errors; C134_same: same number as the exact source of C111 away from whole numbers; C134_double: the errors are at most 3e-15 of the intensity in Python floats; C134_emits: when there are rays; C134_example: the default source. The cosine of the library is a parameter, any function of floats within e of the real cosine (e = 2e-16 in C134_double), and np.pi/2 is any float (halfPi64 in the example). Overflow and underflow are outside the rounding model; one height or one angle is C111 (no arithmetic but a product with 0)."
  },
  {
   "property": "C135",
   "status": "proved",
   "theorems": [
    "RT.C135_inside",
    "RT.C135_point",
    "RT.C135_uniform",
    "RT.C135_lambertian",
    "RT.C135_gaussian",
    "RT.C135_double",
    "RT.C135_reached",
    "RT.C135_example"
   ],
   "note": "C135_inside: heights and angles exactly within bounds; C135_point: three roundings and order; C135_uniform for all sequences of operations (on C50); C135_lambertian and C135_gaussian for all cosines, profiles and numbers of rejections; C135_double: the hypotheses in Python floats; C135_reached: the upper bound can be reached; C135_example: bounds for which a random number of 1 would leave them. Assumes, as numpy documents, that random() gives multiples of 2^-53 below 1; overflow and underflow are outside the rounding model."
  },
  {
   "property": "C136",
   "status": "proved",
   "theorems": [
    "RT.C136_binary64",
    "RT.C136_binary64_example",
    "RT.C136_end",
    "RT.C136_within",
    "RT.C136_nested_violated",
    "RT.C136_example"
   ],
   "note": "C136_end: bit-equality for every group without inner groups, any rounding; C136_binary64: the same in binary64 with overflow and underflow, for ordinary parameters and all rays; C136_within: the bound for all programs (rounding model without overflow and underflow); C136_nested_violated: a Double witness where the two differ with an inner group; C136_example: lengths whose sum is rounded, and the hypotheses of C136_within; C136_binary64_example."
  },
  {
   "property": "C137",
   "status": "proved",
   "theorems": [
    "RT.C137_trace",
    "RT.C137_axicon",
    "RT.C137_exact",
    "RT.C137_rounded",
    "RT.C137_python",
    "RT.C137_example"
   ],
   "note": "C137_trace: for all numbers whose operations do not depend on signs; C137_exact, C137_rounded and C137_python: for all programs in exact numbers, under any odd rounding, and in binary64 with overflow and underflow (ordinary parameters); C137_axicon: one axicon and any ray; C137_example: a lens that stops a ray and its mirror image. New or unused groups (no recorded trace: see C11); the sign of zero is not modelled."
  },
  {
   "property": "C138",
   "status": "partial",
   "theorems": [
    "RT.C138_through",
    "RT.C138_made",
    "RT.C138_trace",
    "RT.C138_focus_violated",
    "RT.C138_example",
    "RT.C138_accepted",
    "RT.C138_matrix",
    "RT.C138_rounded_made",
    "RT.C138_rounded",
    "RT.C138_double",
    "RT.C138_decimal_violated",
    "RT.C138_double_example"
   ],
   "note": "In exact numbers: C138_accepted: a system of any elements, nested in any way, is accepted by the constructors in one unit exactly when it is in the other. C138_matrix: its matrix, length and indices. C138_trace: whole traces, and C138_through: the last ray. C138_made: groups of spaces and lenses in air can be made in every unit. C138_focus_violated: the tolerance 1e-5 of hasPower is an inverse length, so that every lens has no focus in a unit small enough (a lens of 50 mm in nanometres). In floats without overflow and underflow: C138_rounded_made, C138_rounded and C138_double: in units that are powers of two, the same systems or exceptions and the same traces to the last bit. C138_decimal_violated: in binary64, a ray that passes a hole in metres is stopped by it in millimetres. C138_example, C138_double_example: a nested system in other units. Missing: units that are powers of two with overflow and underflow; how far traces in floats can differ in the other units."
  }
 ]
}