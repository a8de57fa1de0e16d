# Formal model of DCC-Lab/RayTracing in Lean 4

This file says what is modelled, how each property of `properties.jsonl` is stated and proved,
and what is trusted. Section 5 lists the places where the code does not satisfy the
property a user would expect; each of those is proved as a negative theorem with a concrete witness,
next to a `_partial` theorem giving the strongest positive statement proved.

## 1. Approach

* The Python code is modelled function by function, branch by branch, as total Lean functions
  (`lean/Verif/Model/*.lean`). Every definition cites the file and lines it models.
* Numbers: the model is generic over a type `F` with a class `PyNum F` that only provides the *operations*
  of Python floats (`+ - * / abs < <= ==`, literals, `inf`). No algebraic law is assumed by the model.
  - Structural theorems (lists, caches, indices, blocking, aliasing ...) are proved for **every** `PyNum F`,
    hence also for IEEE doubles with rounding and NaN.
  - Optical theorems that need algebra are proved for `Ext K`, the exact numbers of an arbitrary linearly
    ordered field `K` (in particular the reals) extended with `+inf`, `-inf` and `nan` following IEEE rules.
    So the infinite apertures, radii and distances that the code uses are real values of the model, and
    `0 * inf = nan` is represented. Rounding is not.
  - Theorems about **rounding errors** (C95 and after) are stated over `Fl K rnd`: the numbers of `Ext K` with the result of every operation
    and every literal rounded by `rnd`, for any `rnd` of bounded relative error, and for `double`, binary64 rounding to nearest even.
  - `Ext Rat` is computable: it is used for the concrete witnesses (counter-examples and non-vacuity examples).
* Exceptions are values: `Except PyErr`. Python's `/` raises `ZeroDivisionError`, so division in the model is
  `pyDiv : F -> F -> Except PyErr F`.
* Mutating operations return the state they leave behind *also when they raise*
  (`Except` result paired with the new state), so failure atomicity can be stated.
* Ray objects are mutable and shared between the caller, the returned trace and the cache of a group. Tracing is
  modelled over an explicit heap of ray objects; a value-level description (`Spec`) is proved equivalent
  where aliasing has no effect.
* Unbounded loops (`while`) are modelled as iterated steps; termination and non-termination are theorems.

## 2. Layout

| file | content |
| --- | --- |
| `Verif/Num.lean` | `PyNum` (the operations of Python floats), `Ext K`, exceptions |
| `Verif/Spec/*.lean` | specifications, independent of the model: paraxial systems, what a user builds (`Part`), paths of rays, stages where rays stop, Python list positions, grids and histograms, Gaussian beams |
| `Verif/Model/Matrix.lean`, `Ray.lean` | `matrix.py`: constructor, products, constructors of elements, focal lengths, conjugates, flips; `ray.py` |
| `Verif/Model/Group.lean` | `matrixgroup.py`: list editing, transfer matrices, flips, cutting, conjugates |
| `Verif/Model/Trace.lean` | tracing over a heap of mutable ray objects, with the cache of groups; tracing many rays, in parallel |
| `Verif/Model/Store.lean` | `matrixgroup.py`, `lasercavity.py` again, with elements as objects in a store that can be at several places |
| `Verif/Model/Imaging.lean` | `imagingpath.py`: stops, pupils, chief and marginal rays, search for the field |
| `Verif/Model/Beam.lean` | `gaussianbeam.py`, `lasercavity.py` |
| `Verif/Model/BeamObjects.lean` | `matrixgroup.py` `trace` on beam objects, with what groups remember |
| `Verif/Model/Fan.lean` | `imagingpath.py` the fan angle that `display` and `displayWithObject` compute |
| `Verif/Model/Lamps.lean` | `rays.py` `LambertianRays`, `LampRays` as a source, rays added to the sources |
| `Verif/Model/Rays.lean` | `rays.py`: collections, caches, iteration, sources, histograms |
| `Verif/Model/Iterating.lean` | `x in group`, `zip(group, group)` and `==` through the one iterator of a group |
| `Verif/Model/Profile.lean` | `matrix.py`: `profileFromRayTraces`; `rays.py`: the messages of progress |
| `Verif/Model/Text.lean` | `str` of matrices, rays and beams; the format of numbers with a number of decimals |
| `Verif/Model/Components.lean` | `components.py`, `Objective`, `ToFocus`, `ToConjugate`, `fromFocusToFocus`, axicons |
| `Verif/Model/Display.lean` | points to plot, labels, comparison of elements, sub-paths |
| `Verif/Model/Preferences.lean` | `preferences.py` with crash points |
| `Verif/Model/SaveFile.lean` | `Rays.save` and `MatrixGroup.save` step by step: opening, buffered writing, closing, the loop that waits for the size to settle, crash points and Ctrl-C. Not modelled: other programs writing into the file during the call (the loop alone is, for all sizes seen), the bytes that `pickle` produces |
| `Verif/Model/Materials.lean` | `materials.py`: all glasses with their coefficients, the class a name denotes |
| `Verif/Model/FloatIndex.lean` | the same formulas with the operations in the order of the source, on any numbers. Powers (`x ** k`, `** .5`) are parameters, assumed in the theorems to be within two roundings of the exact ones |
| `Verif/Model/FloatLens.lean` | the lenses of `thorlabs.py` and `eo.py` on any numbers: the data of the files as literals, the indices of `Model/FloatIndex.lean` |
| `Verif/Model/FloatFind.lean` | `findByIndex` with the operations of the source on any numbers; complex indices left out |
| `Verif/Model/Zemax.lean` | `zemax.py`: from the text of the lines to the lens |
| `Verif/Model/Lenses.lean` | `specialtylenses.py`: singlets, doublets, compound lenses with their warnings; surfaces of elements, flips, the outline drawn (`interface.py`, `graphicComponents.py`) |
| `Verif/Model/Figure.lean` | `figure.py`, `ImagingPath.display`: the lines of rays (traced both ways from their source) and beams with their colours, the waists, the design of a figure, what a display shows and changes |
| `Verif/Model/Efficiency.lean` | `imagingpath.py` `reportEfficiency`: how the source rays are sorted, and the percentages |
| `Verif/Model/Images.lean` | `figure.py`: the images of the objects, the vertical range, the marks of focal points; `pointsOfInterest` of elements |
| `Verif/Model/Graphics.lean` | `graphics.py`, `graphicComponents.py`, `figure.py`: the graphics of elements, their places and heights; the figure of one element (not `Objective`, see `Outline.lean`; the outline of `CompoundLens` is in `Lenses.lean`) |
| `Verif/Model/Outline.lean` | `graphicComponents.py`, `graphics.py`: the curves of components and their drawing codes, half heights, centroids, labels; arrows of objects and lamps; the graphic and points of interest of `Objective` |
| `Verif/Model/Stops.lean` | `figure.py`: the labels of the stops, the entrance pupil, the principal and axial rays with their object and images |
| `Verif/Model/Modes.lean` | `utils.py`, `__init__.py`: the warning filters of the modes, the start of the module (saved mode, version check), the list of subclasses |
| `Verif/Model/Command.lean` | `__main__.py`, `examples/__init__.py`: the examples and the options of the command line; `utils.py`: `printClassHierarchy` |
| `Verif/Model/Viewer.lean` | `lensViewer.py`: the menu of lenses and its selections; `utils.py`: `checkLatestVersion` |
| `Verif/Model/LaserDisplay.lean` | `figure.py`, `laserpath.py`, `lasercavity.py`: what successive displays of laser paths and cavities show |
| `Verif/Model/Canvas.lean` | `figure.py`, `graphics.py`, `graphicComponents.py`: the groups of lines and graphics, their visibility, the check boxes |
| `Verif/Model/Chromatic.lean` | `specialtylenses.py`: `focalShifts`; `materials.py`: `findByIndex` |
| `Verif/Model/CatalogueData.lean` | `thorlabs.py`, `eo.py`: the arguments of all 342 lens classes |
| `Verif/Model/Catalogue.lean` | the creation of those lenses; `olympus.py`, `nikon.py`: the objectives |
| `Verif/Model/Binary64.lean` | Python floats with their limits: rounding with underflow and overflow, programs run on them (a single zero) |
| `Verif/Model/Rounded.lean` | numbers with a rounding after each operation, binary64 rounding (no overflow, no underflow, no signed zero); programs run on them |
| `Verif/Model/Build.lean` | programs that build systems with the public API |
| `Verif/Lemmas/*.lean` | helper lemmas |
| `Verif/Props/*.lean` | the property theorems, names start with the property id (`C01_...`), next to non-vacuity examples |
| `Verif/Audit.lean` | the axioms of every theorem of the manifest; the build fails if they change (written by `tools/audit.py`) |
| `tools/` | `manifest.py` (MANIFEST.json from the theorem names and `notes.json`), `design.py` (sections 4 and 5 of this file), `audit.py`, `seed.py` (seeded wrong programs) |
| `seeded/LOG.jsonl` | record of deliberate bugs put in a copy of the model and of which theorems caught them |

## 3. Trusted base

* Lean 4 kernel; Mathlib's statements of the definitions used (ordered fields, real, complex numbers, lists).
* Axioms: `propext`, `Classical.choice`, `Quot.sound` at most; those of each theorem are in `Verif/Audit.lean`.
  No axiom of our own, no `sorry`, no `native_decide`, no `bv_decide`.
* The fidelity of the model to the Python text: the definitions were written by reading `/repo`; the code was not run.
* Not modelled:
  - signed zeros; overflow and underflow, except in the theorems over any `PyNum F` and over `B64` (C95, C96); rounding, except in these and those over `Fl K rnd` (those over `Ext K` are exact);
  - an element object at two positions or in two groups is modelled in `Store.lean` for lists, flips, matrices and traces of rays (C90); everywhere
    else the tree of elements is a value (the two agree when every object is at one place, `C90_programs`); rays are heap objects;
  - the wavelength and the complex radius cache of beams by identity; the attributes used only for drawing;
  - numpy: `linspace` and `histogram` follow the documentation;
  - matplotlib: the boxes of rendered labels are a parameter; colours, arrows and the canvas; the windows of the tkinter viewer;
  - pickle and JSON texts: loading what was saved gives it back (for values JSON accepts);
  - the operating system: a file is a value, crash points are explicit, writing is not atomic;
  - multiprocessing: each chunk is traced by a copy of the element, the failure of the pool is an input;
  - `float()` and `int()` of a string are parameters of the Zemax reader; `re.split` on white space and `str.strip` are
    modelled on lists of characters, with the white space of ASCII;
  - random numbers are an arbitrary stream; cosine and exponential of the random sources are arbitrary functions;
  - Python's `warnings`: the filters, the registries and "once"/"default" follow the documentation (`Modes.lean`); `datetime` is a
    number of microseconds; the network of the version check and the order of versions are parameters;
  - catalogue files (`thorlabs.py`, `eo.py`, `olympus.py`, `nikon.py`): their data are modelled, as exact decimal numbers, not the url and the drawing;
    `specialtylenses.py` is modelled for what is in section 2.

## 4. Properties

<!-- properties -->
| id | property | status | where | note |
| --- | --- | --- | --- | --- |
| C01 | Multiplying elements then a ray equals sending the ray through the elements one after the other | proved | Props/Compose.lean |  |
| C02 | Every system satisfies det = frontIndex/backIndex, and legal products are never rejected | proved | Props/Compose.lean |  |
| C03 | The Matrix constructor accepts exactly the legal parameters | proved | Props/Compose.lean |  |
| C04 | Length, vertices and indices of a product describe the combined system | partial | Props/Compose.lean | Proved for pairs and for chains that are not made of identity matrices only; C04_identity_index_violated shows the code reports index 1 for such a chain. |
| C05 | An element blocks a ray exactly when it enters outside the aperture or the NA; a blocked ray is frozen | proved | Props/Compose.lean |  |
| C06 | Once blocked, a ray stays blocked until the end of its trace | proved | Props/Trace.lean |  |
| C07 | Tracing through a group agrees with its transfer matrix | proved | Props/Trace.lean |  |
| C08 | Positions along a trace never go backwards and end at the end of the system | proved | Props/Trace.lean |  |
| C09 | A finite-length element also blocks rays leaving outside its aperture | partial | Props/Trace.lean | The code does not have this property: C09_violated shows that every element with a length checks the entrance only. C09_violated_example is a concrete ray. |
| C10 | Tracing does not modify the caller's ray | partial | Props/Trace.lean | Violated for the blocked state (C10_violated) and by axicons (C10_violated_axicon). Proved: without axicon, for every history, height, angle and position of all existing rays are kept (C10_values_partial); the object is unchanged when the first element met does not stop it at its entrance (C10_unchanged_partial). |
| C11 | trace() depends only on the ray and on the current elements, not on earlier calls | partial | Props/Trace.lean, Props/TraceApart.lean, Props/TraceEdits.lean, Props/TraceNested.lean | Proved for sessions of any length whose rays with equal height and angle are equal: for single elements and groups of single elements without axicon (C11_session_partial); for groups nested in any way, when no two rays that differ arrive at a group inside with the same height and angle, whatever is stopped (C11_apart_partial, no axicon); for groups nested in any way, axicons included, when the rays start at one position and none is stopped (C11_nested_partial). With changes of the elements in between (paths of single elements, no axicon): right for every ray whose height or angle is not that of the last trace computed (C11_edits_partial), and for all when no change is pending (C11_settled_partial); after an append, the last ray traced again always gives the old trace (C11_stale). Violated by nested groups, positions and edits (C11_violated_*). |
| C12 | traceManyThrough returns exactly the rays that get through, in order | partial | Props/Trace.lean, Props/TraceApart.lean, Props/TraceNested.lean | Proved for single elements and groups of single elements without axicon (C12_filter_partial), and for nested groups in the sessions of C11 (C12_apart_partial, C12_nested_partial). Violated by nested groups (C12_violated). |
| C13 | Parallel tracing returns the same rays as sequential tracing | partial | Props/Trace.lean, Props/TraceApart.lean, Props/TraceNested.lean | Proved for single elements and groups of single elements without axicon, every number of processes, and success or failure of the pool (C13_parallel_partial), and for nested groups in the sessions of C11 (C13_apart_partial, C13_nested_partial). Violated by nested groups (C13_violated). Pickling is modelled as copying values. |
| C14 | A group always describes the product of its elements | partial | Props/Groups.lean | Proved for every sequence of append/insert/pop/setitem/slice edits that does not pass through popping the last element. C14_pop_violated: after popping the only element the group still reports the old matrix. C14_reverse_violated: appendElementsInReverse leaves the group matrix different from the product. |
| C15 | Adjacent elements of a group always have matching indices | partial | Props/Groups.lean | Proved for every sequence of edits, also when edits that raise are caught, except a refused slice assignment (C15_slice_violated) and appendElementsInReverse (C15_reverse_violated). |
| C16 | Group editing behaves like list editing | partial | Props/Groups.lean | Proved for append, insert, pop, getitem, slices, setitem at index >= 0 and setslice with 0 <= start <= stop. C16_setItem_negative_violated: negative indices insert at the wrong place, for all inputs. C16_setSlice_violated: a witness for start > stop. |
| C17 | A refused edit leaves the group as it was | partial | Props/Groups.lean | Proved for append of a mismatched element and for edits refused before the element list is touched. C17_edit_violated and C17_append_violated: witnesses of refused edits that leave the group changed. |
| C18 | transferMatrix(upTo=z) is the system truncated at z | proved | Props/Cut.lean |  |
| C19 | The optical invariant is the same at every position | partial | Props/Cut.lean | Proved for user-built systems whose elements are all in air at the planes compared (C19_air_partial, C19_value_partial). Violated when an element is the identity matrix in a medium other than air, and for a single element that blocks the rays (C19_violated, C19_aperture_violated). |
| C20 | forwardConjugate gives the image plane | proved | Props/Cardinal.lean |  |
| C21 | backwardConjugate gives the object plane | partial | Props/Cardinal.lean | Proved for systems whose front index is 1 (also A = 0). C21_frontIndex_violated: the code raises ValueError for every other front index although the plane exists. |
| C22 | Transverse and angular magnification | proved | Props/Cardinal.lean |  |
| C23 | The reported focus positions are the foci | partial | Props/Cardinal.lean | Proved when \|C\| > 1e-5, the threshold of hasPower. C23_weak_power_violated: weaker systems report no focus. |
| C24 | The reported principal planes are conjugate with unit magnification | proved | Props/Cardinal.lean |  |
| C25 | Back and front focal lengths are distances from the vertices to the foci | proved | Props/Cardinal.lean |  |
| C26 | Flipping twice restores the element | partial | Props/Flip.lean, Props/FlipTwice.lean | C26_restored, for all programs (any nesting, media, mirrors, generic matrices): when neither flip raises an error the system is restored exactly. The flips raise no error for every single element, for all nested groups of reversible parts and for all nested groups in air (C26_flip_twice_partial). The code violates the rest: flipping a generic matrix between two media in a group raises ValueError (C26_generic_violated); a group of generic matrices in glass whose product is the identity makes the second flip fail (C26_media_violated). |
| C27 | A flipped system runs light backwards | proved | Props/Flip.lean | For all nested groups of lenses, spaces, interfaces, slabs, thick lenses, apertures and symmetric generic matrices, for tracing (C27_reversibility) and for the matrices (C27_matrix). |
| C28 | Flipping exchanges front and back focal lengths | partial | Props/Flip.lean | Exact for every reversible system, at any nesting: after a flip the back focal length is the old front one plus the shift of the front vertex, and the front one is the old back one minus the shift of the back vertex (C28_exact), so they are exchanged exactly when the outer vertices are in the middle of their elements (C28_iff). The code violates the rest: every thick lens with power and thickness (C28_thickLens_violated). |
| C29 | A thick lens is two surfaces and a thickness | proved | Props/Cut.lean |  |
| C30 | The aperture stop is the element that limits the on-axis cone | partial | Props/Defaults.lean, Props/Imaging.lean, Props/StopsThick.lean | C30_exits says what is reported for every path: the place where the probe ray leaves an opening with the largest ratio of height to diameter. This is the stop for thin openings without NA limits when some element really limits the axial ray (C30_apertureStop_partial). C30_violated / C30_thick_violated / C30_entrance_violated: otherwise the code reports a stop at 0 of infinite diameter, or the wrong surface of a thick element; the entrances of thick elements are never compared. |
| C31 | Chief and marginal rays meet the stop at its centre and edges | partial | Props/Imaging.lean | Proved for stops of finite diameter not inside a black box, with None exactly when \|B\| < 1e-5. C31_tolerance_violated: None although the stop is not conjugate to the object. |
| C32 | The entrance pupil is the image of the stop in object space | partial | Props/Imaging.lean | Proved when the matrix up to the stop has front index 1. C32_frontIndex_violated: ValueError otherwise. |
| C33 | The field of view and field stop searches terminate | partial | Props/Binary64Field.lean, Props/Defaults.lean, Props/Imaging.lean, Props/StopsThick.lean | C33_iff, for paths whose chief rays exist: the search returns exactly when the field is at least 37.5 times the precision. C33_diverges_violated: smaller fields make the search loop for ever; C33_example_violated is such a path. In Python floats the height of such a search overflows after about 1800 turns (C33_python_violated): then either it still never ends (C33_python_first_violated, witness C33_python_never_violated), or it reports no field stop and an infinite field (witness C33_python_infinite_violated). |
| C34 | The field of view is accurate to the requested precision | partial | Props/FieldRays.lean, Props/Imaging.lean, Props/StopsThick.lean | Proved for paths whose chief rays exist and whose field is at least 37.5 times the precision. C34_fieldStop_all says for all openings which field stop is reported; it is right for thin openings (C34_fieldStop_partial), and violated by a thick element that blocks at its entrance: the diameter is that of the element before (C34_thick_violated). Fields above about 2/3 of maxHeight may be reported infinite. |
| C35 | Derived imaging quantities are consistent | partial | Props/Derived.lean, Props/FieldRays.lean | Axial ray, field of view, principal ray, image size, f-number, object height: proved for every path built by a program (C35_axialRay ... C35_objectHeight). NA is proved for an abstract sine; it raises AttributeError without stop (C35_NA_violated). The Lagrange invariant is given for every path in any medium (C35_lagrangeInvariant): it is n*theta*y, but the index is lost when the transfer matrix up to the object is the identity, which the code violates in water (C35_lagrangeInvariant_violated). C35_fNumber_violated: the f-number of a path made of a lens by itself is 0, because a lens in the plane of the object is not found to be the stop. |
| C36 | intermediateConjugates lists image planes of the front edge | proved | Props/Derived.lean | Sound, complete up to the tolerance 1e-3 of the code, and without two planes within the tolerance. |
| C37 | Aperture queries reflect the elements | partial | Props/Derived.lean, Props/Diameter.lean | hasFiniteApertureDiameter is proved in general (C37_hasFinite). largestDiameter of every system just built, of any depth, is given exactly (C37_largestDiameter): it is at least every finite diameter of the elements other than Lens and is attained (C37_range), but a new Lens counts for 4 whatever its diameter (C37_lens_violated) and a group without finite diameter for 8 (C37_nested_violated), so the property as stated holds only without them (C37_largestDiameter_partial). |
| C38 | Gaussian beams compose like matrices | proved | Props/Beam.lean | C38_product: any complex radius, any two elements with matching media. C38_trace: every system built by a program (any nesting), positive indices, confined beams; trace and matrix product agree with the law ABCD applied element by element. Real numbers without rounding. |
| C39 | A confined beam stays confined | proved | Props/Beam.lean | C39_confined: along every trace the beam stays confined with a finite positive size (positive indices); C39_thin: elements that do not change heights keep the size of the beam (with its index). |
| C40 | Beam size and curvature round-trip through the complex radius | proved | Props/Beam.lean, Props/FieldRays.lean | All positive w, n, wavelength; R non-zero or infinite. Real numbers without rounding. C40_curvature gives R for every complex radius, 0 included. |
| C41 | The waist is the smallest size of the beam | partial | Props/Beam.lean | C41_air proves it for index 1. C41_violated: for every confined beam in every medium of index over 1 the beam gets smaller than .wo, because wo does not divide by n. C41_waist_partial: for all indices the smallest size is wo/sqrt(n), reached exactly at waistPosition. |
| C42 | Beams track their medium and clipping | proved | Props/Beam.lean | Generic over the numbers: medium check, back medium, clipping over chains of any length. Tracing is running through the flattened list of elements. |
| C43 | Cavity eigenmodes reproduce themselves after a round trip | partial | Props/Beam.lean | C43_solutions, C43_laserModes hold for all cavities with \|C\| > 1e-5. C43_fixed_partial needs air in front: C43_violated shows that otherwise every mode is refused by the cavity with RuntimeError, because modes are created in air. C43_roundTrip: modes traced through built cavities of any nesting come back. |
| C44 | isStable is the usual stability criterion | partial | Props/Beam.lean | C44_stable_partial: all unit-determinant matrices with \|C\| > 1e-5. C44_violated: below that threshold (C44_noPower) every cavity is reported unstable, with a cavity with \|A+D\| < 2. |
| C45 | Ray fans are complete, evenly spaced and bounded | proved | Props/Rays.lean | fan and fanGroup: exact content, refused exactly when N < 1 or M < 1. |
| C46 | Uniform ray sources cover their grid | partial | Props/Rays.lean | Exact grid and bounds for M != 1; with a single height (M = 1) the code uses height 0 whatever the bounds are: C46_single describes it, C46_violated is the counterexample. |
| C47 | Ray.at and Ray.along follow the traced path | partial | Props/Profile.lean, Props/Rays.lean | at proved; along proved for every built system, every ray not stopped at the position asked or before and every position not strictly inside a thick element (C47_reach_partial; C47_along_partial for rays that get through); rays stopped before are returned blocked (C47_stopped); an empty trace raises (C47_empty). Violated past the end of the trace (last ray returned) and inside thick elements (straight line with the outside angle). |
| C48 | Statistics of a ray collection reflect its current rays | partial | Props/EmptySources.lean, Props/Rays.lean | Refinement to the list of rays for all histories where load never follows a query (unless an append came in between) and numpy refuses no histogram; both exclusions are violations: load keeps cached values (C48_violated_load), a refused histogram leaves its parameters behind (C48_violated_refused). C48_length is about len() during an iteration. C48_empty: a collection without rays raises ValueError unless both bounds are given. |
| C49 | Iterating over a collection visits every element once, independently of other iterations | partial | Props/Iterating.lean, Props/Sources.lean | Loops whose body does not iterate over the collection; nested loops and first-time queries inside a loop end the outer loop after its first element (general theorems). `x in group` is right (C49_contains) and can be asked in a loop over groups without equal elements (C49_contains_loop_partial), but with two equal elements the loop never ends (C49_violated_contains), and zip(group, group) pairs different elements (C49_violated_zip). |
| C50 | Random ray sources are lazy but stable | proved | Props/Sources.lean | Quantifies over every stream of random numbers and every sequence of accesses; drawing is a parameter that always succeeds. Bounds for the three random sources; for the two rejection samplers, drawing ends exactly when a value is accepted (no termination for all streams). Users appending their own rays to a random source are not modelled. |
| C51 | A Rays collection keeps all the rays it is given | partial | Props/Sources.lean | Exact for iterables that can be iterated twice; a one-shot iterator always gives an empty collection (C51_violated). |
| C52 | Saving then loading restores the content | partial | Props/Sources.lean | Rays: exact. Groups: exact for non-empty groups made by programs; an empty file keeps the old matrix (C52_violated_empty); random sources save only rays made so far. pickle itself is trusted. |
| C53 | Preferences are persistent and survive crashes and other programs | partial | Props/Preferences.lean | Holds for any number of successive programs and any sequence of operations without crash or concurrent writer. Violated by general theorems: crash while reading or writing, lost updates between programs, mixtures, resets seen by other programs, values JSON refuses, Preferences(key=value), del. A file with JSON that is not a dictionary makes Preferences() raise in every program (C53_foreign_violated); a list of pairs is read as a dictionary (C53_pairs). JSON round trip is trusted. |
| C54 | A Zemax lens is read as a lens in air | partial | Props/Zemax.lean | Any number of surfaces, any indices, any curvatures. Violated by files that end in a glass (the lens ends in the glass) and by surfaces of diameter 0 (ValueError). |
| C55 | Zemax files are parsed totally | partial | Props/Defaults.lean, Props/Zemax.lean | The texts of lines, the values, the blocks of surfaces and a whole file of up to 1000 surfaces are proved for all contents; float and int of a string are parameters. Violated: no UNIT or several UNIT lines (AttributeError), all wavelengths 0.55 or none (IndexError), more than 1000 surfaces (the others ignored). |
| C56 | Glass indices are physical on the accepted range | partial | Props/Materials.lean | All 37 materials, all wavelengths from 0.28 to 7 micrometres: a real index larger than 1; refusal below 0.01 and above 10. Violated in the ultraviolet, in the infrared (21 of 37 complex at 10 micrometres) and at resonances (ZeroDivisionError). |
| C57 | 2f and 4f systems | proved | Props/Components.lean | 4f and 2f systems with non-zero focal lengths of any sign as the code accepts; refusals for non-positive spacings. |
| C58 | An Objective behaves as its datasheet | proved | Props/Components.lean | All accepted parameters with \|f\| < 100000 for the reported effective focal length (hasPower's absolute tolerance makes weaker ones infinite). |
| C59 | Spaces computed from an element lead to the announced plane | partial | Props/Components.lean | ToConjugate exact. ToFocus and fromFocusToFocus lead to the announced plane iff the vertices are at the edges (iff theorems); violated otherwise by witnesses (C59_toFocus_violated, C59_fromFocusToFocus_violated). |
| C60 | An axicon deviates rays towards the axis by a constant angle | partial | Props/Components.lean | Height, deviation, axial rays, focal line and refusal of beams hold for every axicon and ray; a blocked ray's angle is changed (C60_blocked_violated). |
| C61 | Comparing two groups does not depend on what was traced | partial | Props/Display.lean, Props/Iterating.lean | Violated by every group after one trace (C61_violated) or one iteration (C61_violated_iteration); single elements and unused groups are unaffected: they are equal exactly when all their attributes are (C61_attributes). NaN identity is not modelled. |
| C62 | Displaced labels are apart, inside the display, and return to their position | partial | Props/Display.lean | Reset is exact for all sequences of translations and for fixLabelOverlaps with any rendering (exact arithmetic); labels that do not overlap stay (C62_still); two overlapping labels with room around them end side by side, for any number of iterations (C62_apart), but not next to the edge of the display: they still overlap after any number of iterations (C62_apart_violated); a single translateLabel keeps a fitting label inside; fixLabelOverlaps does not (C62_inside_violated); three labels in a row never end apart, with room around them and for any number of iterations (C62_three_violated). |
| C63 | The plotted ray stops where the ray is blocked | proved | Props/Display.lean | For traces of all rays through all trees of elements without cached traces; for arbitrary lists of rays see C63_any_list. |
| C64 | subPath is the part of the path after (or before) a position | partial | Props/SubPath.lean | Exact strictly inside a Space in air (length, elements and action on rays); violated at element edges (ValueError), inside thick elements (AssertionError) and in media other than air (ValueError), by general theorems. Backwards keeps the elements unflipped. |
| C65 | Tolerant comparisons | partial | Props/Display.lean | Opposite iff not exactly at the tolerance; absolute comparison symmetric, reflexive iff finite; relative comparison symmetric, reflexive except at zero where it raises (general theorems). |
| C66 | Histograms count every ray exactly once | proved | Props/Sources.lean | numpy.histogram is modelled by its documentation (half-open bins, last one closed, equal bounds widened); the angle histogram has the same code on thetaValues. |
| C67 | Every material is found by its name | partial | Props/Materials.lean | Proved for all strings and all 37 materials of the file, which a class of the user does not disturb (C67_user_same). The code violates the rest: a material implemented by the user in a module of their own is listed but raises KeyError when it is looked for (C67_violated_user). |
| C68 | A singlet or doublet is the lens its data describe | partial | Props/Lenses.lean | Proved for every finite diameter not larger than the spheres, every index, thickness and power above 1e-5, with the exact list of warnings. Violated: lenses weaker than 1e-5 are refused (TypeError), the edge of a lens with a flat surface is never checked, and a doublet with one material and one index is refused. A focal length announced as a Python integer raises ValueError instead of warning, because the text formats it as a float (C68_violated_int, C68_violated_int_doublet). A singlet without a diameter (infinite) is checked as if its diameter were 8 (C68_unlimited_violated): a sphere of radius below 4 is refused (C68_unlimited_small). |
| C69 | The drawing of a lens is its shape, and that of a flipped element its mirror image | partial | Props/Lenses.lean | Proved: mirror image for any list of separated surfaces of finite radius, flat or conical, hence for singlets, doublets, slabs and axicons; the outline ends on the sphere, tangent to it; a CompoundLens of any number of glasses is drawn with its surfaces. Violated: flipped thick lenses, interfaces, curved mirrors and CompoundLens objects are drawn as before; a flipped lens with a flat surface and a flat mirror cannot be drawn; surfaces in contact in a CompoundLens are drawn apart. Colours and matplotlib are not modelled. |
| C70 | What is drawn for a Gaussian beam is the beam | partial | Props/Figure.lean | Proved for every group built by a program, every beam that can be traced and any number of divisions: the drawing never fails and consists of the beams of the trace, with those at k d/N in each free space, and every beam of the trace is drawn (marks of clipping aside). The waist arrows are proved for confined beams; in media other than air they point at the size in vacuum (C41_violated). Elements other than spaces are not divided, even if they have a length. |
| C71 | The efficiency report counts what happens to the source rays | partial | Props/Efficiency.lean | C71_report says for all sources which rays are counted where (beyond the field or outside the stop / stopped elsewhere / through) and that the plotted coefficients are those of the decomposition; C71_efficiency gives the percentages for sources inside the field (the default), thin openings and no acceptance angles. Refuted otherwise: rays from beyond the field that get through are counted as blocked (C71_violated_field), and so are rays that leave an opening with a length outside of its diameter (C71_violated_thick); a report without any light raises (C71_violated_dark), one vignetted ray is reported as no loss (C71_violated_single). The random generator, the text and the plot are not modelled. |
| C72 | Display settings hold for the following displays, and displaying leaves the caller's data alone | partial | Props/Shows.lean | Proved: what a new path shows (C72_new, C72_object, C72_first); design sets exactly what is given before the first display; a height set is shown by the first display; repeated displays of an untouched path show the same; displayWithObject shows the object asked for. Violated for all paths: design raises TypeError after a display, the design and the object height are forgotten by the next display, a style resets the limit, the caller's list is extended, displayWithObject accepts negative heights. The fan angle computed from the range of the display is a parameter; see C110 for it. |
| C73 | One line per visible ray, coloured by its starting height | partial | Props/Lines.lean | Proved for all lists of traces and colours when a ray starts off the axis, and for rays from the axis with at least two colours; violated with one colour and rays from the axis (IndexError). The traces themselves are covered by C63. |
| C74 | The images of each object of a figure are drawn where its rays meet | partial | Props/Images.lean | Proved for every object strictly inside a space of a path whose elements are in air at their edges, with before it single elements that are the same from behind; for objects in the entrance plane of any path (C74_entrance); and for any list of objects with distinct titles (C74_objects). The code violates the rest: asymmetric elements or groups before the object are not turned (C74_violated_asymmetric, C74_violated_group), objects at a limit between elements or inside an element raise (C74_violated_edge, C74_violated_inside), two objects with the same title replace each other (C74_violated_same), and images without objects raise KeyError (C74_violated_hidden). An object inside a space that is not in air, before an element that is not a space, raises (C74_violated_media). |
| C75 | The vertical range of a figure contains what is drawn | proved | Props/Marks.lean | The half heights of the graphics are given (finite: Graphic.halfHeight raises otherwise). |
| C76 | The focal points of the elements are marked, and nothing else | partial | Props/Marks.lean | Proved for the single elements of every path, with their rank, for any formatting to 3 decimals; and for any points of interest of the elements (C76_marks). Elements inside of groups have no marks (C76_violated_group) and a compound lens without power raises TypeError (C76_violated_afocal); weak elements have no foci for the code (C23). C76_element and C76_group are about the figures of an element or a group by itself; in that of a plain group which is not at 0 the marks of the elements stay where they are at 0 (C76_violated_moved). |
| C77 | Elements are drawn where they are | partial | Props/Diameter.lean, Props/Graphics.lean | Proved for every path built by programs, when the figure can be drawn. The code violates the rest: generic matrices and groups in groups at z are drawn from 2z (C77_violated_box), an aperture without diameter cannot be drawn (C77_violated_aperture), rays below the axis do not count for the height of a lens (C77_violated_below). The graphics of CompoundLens and Objective are in C69 and C84. |
| C78 | The lengths written in the figure of an element are those of its arrows | partial | Props/Graphics.lean | Proved for all single elements with power and vertices whose graphic can be drawn (C78_measures); the same lengths are computed for every group (C78_computed) and shown for CompoundLens and Objective. The code violates the rest: the figure of a plain MatrixGroup replaces the graphic that holds them by the graphics of the elements, so none of them is shown (C78_violated_group); elements with power but no vertices raise TypeError (C78_violated_vertices) and spaces AttributeError (C78_violated_space). For a graphic that is not at 0 the arrows of the front and back focal lengths start from the vertices of the element at 0 and do not have the lengths written (C78_violated_moved). |
| C79 | Focal shifts are those of the lens at each wavelength | partial | Props/Chromatic.lean | Proved for arrays, for all singlets and doublets whose class takes a wavelength. The code violates the rest: a Python list is repeated 1000 times instead of converted (C79_violated_list); lenses whose class takes no wavelength (eo.py) or without design focal length raise TypeError (C79_violated_class); one wavelength where a focal length announced as an integer is off by more than 1 % makes the whole call raise ValueError (C79_violated_int). |
| C80 | The search by index returns exactly the materials of that index | partial | Props/Chromatic.lean | Proved for every accepted wavelength without a resonance, all indices (complex ones included), tolerances and lists, and outside of the accepted range. The code violates the rest: at the resonance of one material nothing can be found (C80_violated_resonance), E_BAF11 is found twice when both of its classes are alive (C80_violated_twice), and as soon as the user has implemented a material in a module of their own nothing can be found (C80_violated_user). |
| C81 | All the rays given to a figure are drawn | partial | Props/Canvas.lean | Proved for all lists of rays whose own titles differ. The code violates the rest: of two objects or lamps with the same title only the last is drawn (C81_violated_same). |
| C82 | A check box shows and hides its group, and nothing else | partial | Props/Canvas.lean | Proved for all figures and all sequences of clicks. The code violates two parts: labels of hidden graphics stay (C82_violated_labels), objects that are not at 0 are seen even when objects are not to be shown (C82_violated_elsewhere). |
| C83 | Outlines are closed lines, arrows end at the heights they stand for, labels are above the middle | proved | Props/Outline.lean | Closed outlines for any surfaces, boxes and polygons; arrows of objects and images; labels of symmetric graphics; the labels of boxes follow the box (which itself may be drawn at 2z, see C77). matplotlib's rendering of the curves is trusted. |
| C84 | An objective is drawn with its foci, its cone of light and its apertures | partial | Props/Objective.lean | Foci and outline proved for all parameters and both orientations. The code violates the last part for all parameters: the front aperture is drawn at the height of the back aperture (C84_violated_bars). |
| C85 | A figure shows the stops, the pupil, and the principal and axial rays where they are | partial | Props/Stops.lean | Proved under the hypotheses of C30, C32 and C34 (thin openings, probe ray not blocked, front index 1, stops not inside black boxes). The code violates the rest: the figure of a system with its pupil at infinity raises ValueError with showEntrancePupil (C85_violated_pupil). |
| C86 | The mode decides which warnings are printed | partial | Props/Modes.lean | Proved for all states and all sequences of warnings; what each mode prints is characterised exactly. The code violates the intent: the filter for all UserWarnings, set last, shadows the one for hints, so expert mode prints hints once each (C86_violated_expert) and beginner mode prints them only once (C86_violated_beginner). Python's warnings module is modelled from its documentation. |
| C87 | Importing the module never fails, starts in the saved mode, and checks the version once a day | partial | Props/Import.lean, Props/Modes.lean | Proved for any number of imports not at a whole second. The code violates the rest: after a check at a whole second every import raises ValueError (C87_violated_second, C87_violated_first), a day means two (C87_violated_day), RAYTRACING_EXPERT changes the mode for good (C87_violated_env). C87_import relates the import to the file of the preferences, with the reads and writes of C53; a file with JSON that is not a dictionary makes every import raise TypeError (C87_violated_foreign). |
| C88 | CompoundLens.all() lists all the lenses | partial | Props/Modes.lean | Exactly the classes without subclasses are listed (C88_leaves); a class with subclasses is not (C88_violated). |
| C89 | The figure of a laser path or cavity shows the beams given, and only them | partial | Props/LaserDisplay.lean | Lines, success and cavities are proved for all paths, beams and sequences of displays (half heights of the graphics given). The code violates the rest: the waists of all earlier displays are shown again (C89_violated_arrows, C89_violated_all) and display() without input beam raises TypeError (C89_violated_none). |
| C90 | An element object can be held at one place or at several | partial | Props/Sharing.lean | Proved for all programs that put each object at one place (C90_programs), and, with any sharing of single elements, for matrices (C90_matrix) and traces (C90_trace). The code violates the rest: an object is flipped as many times as it is in the path (C90_flip_times), so an even number of places leaves it unflipped (C90_violated_flip, C90_violated_flip_twice); flipping a slice turns the elements of the path and leaves the entries of the path stale (C90_violated_slice); appending a Space elsewhere changes its index everywhere (C90_violated_space); a group at two places of a path replays its recorded trace (C90_violated_group). |
| C91 | The rays of an object inside a path are drawn both ways from the object | partial | Props/Behind.lean | C91_lines_partial: for every path of single parts in air, every position strictly inside a space and every list of rays, the lines drawn both ways are those of the specification (Drawn), the ray objects being shared by the two sub-paths; C91_entrance_partial for the entrance plane; C91_sides, C91_start, C91_through, C91_removed say where the lines are. Violated: by a ray stopped by an element with a thickness, which is not drawn up to it (C91_thick_violated, C91_violated_thick); for a source at the limit between two elements or out of the path (C91_edge_violated, C91_outside_violated); behind elements that are not the same from behind (C91_violated_asymmetric). A source in a space that is not in air raises before another element (C91_media_violated). Missing: nested groups (their traces are cached, see C11-C13). |
| C92 | The lenses and objectives of the catalogues are those of their data sheets | partial | Props/Catalogue.lean, Props/CatalogueNames.lean | All 342 lens classes of thorlabs.py and eo.py and all objectives of olympus.py and nikon.py, with the data of the files. C92_created: each lens can be made at every wavelength from 0.29 to 6.4 micrometres (when its class takes one) and is the stack of its data with the indices at that wavelength; C92_warnings gives the exact warnings of each; C92_visible, C92_focalShifts, C92_default the focal length over wavelengths; C92_objectives, C92_invariants the objectives. Violated: 96 lenses are off by more than 1 % from the focal length announced, 52 by more than 10 % (C92_violated), one by a factor of more than two (C92_violated_half); 14 names are used twice, 7 of them with other data (C92_violated_twice), and no other is (C92_once); AC254_150_A and AC254_250_A raise ValueError at every wavelength from 0.29 to 0.35 and from 1.3 to 6.4, because their focal length is written as an integer that the text of the warning cannot format (C92_violated_int). Missing: wavelengths out of 0.29-6.4, and for these two lenses those from 0.35 to 0.38 and from 1.1 to 1.3. |
| C93 | Glasses disperse as their Abbe numbers say | partial | Props/Dispersion.lean | C93_decreasing for all glasses and all pairs of wavelengths from 0.28 to 7 micrometres; C93_abbe (within 0.02) for every class that a name denotes, C93_order, C93_singlets. Violated by the first of the two classes called E_BAF11 (C93_violated), which is hidden by the second. |
| C94 | An objective lets through the cone of light it announces | partial | Props/ObjectiveNA.lean | C94_through and C94_flipped say for all parameters and all rays exactly which are blocked and where the others leave; C94_focus and C94_collects that the light at the focus is a cone of half angle min(NA, backAperture/(2\|f\|)); C94_field that the whole announced field is seen. The cone is within 3% of the announced NA for every objective of the catalogues (C94_catalogue) except nikon.LWD16X, which announces 1.56 and accepts 0.8: the property is violated there (C94_violated). Objectives whose two apertures disagree can also be made by users. |
| C95 | In floats, rays are traced up to rounding errors, and blocked rays are the right ones | proved | Props/Binary64.lean, Props/Rounded.lean | C95_through, C95_blocked: every program built in rounded arithmetic, any nesting, any rounding of relative error u <= 1/8; the error is relErr u k times the majorant, k the number of roundings, at most k u/(1 - k u) (C95_bound); C95_double: binary64 rounds with u = 2^-53. C95_agree compares with the same program run exactly; C95_positions: positions never decrease in binary64. C95_python_through, C95_python_blocked, C95_python_positions: the same with the bounded exponents of Python floats, underflow included, when no majorant comes near the largest float and the parameters are floats of ordinary magnitude; C95_python_overflow: a lens of focal length 2^-1030 is accepted and sends the axis to nan. A ray within the error of an edge may go either way, as the statement allows. |
| C96 | In floats, the matrix of a system is exact up to rounding errors, and legal systems are accepted | partial | Props/Binary64Matrix.lean, Props/RoundedMatrix.lean, Props/RoundedMedia.lean | The error bound on the coefficients holds for all systems. Acceptance is proved for systems in air with room for the errors on the determinant (C96_accepted, C96_double: up to 1000 roundings with moderate coefficients) and, with interfaces and media, for parts that follow each other from index to index, any nesting, with the same room and changes of index larger than the errors (C96_media, C96_room); C96_indices: such a system reports the indices of its media. C96_python_matrix, C96_python_accepted, C96_python_moderate: with the bounded exponents of Python floats, in air, for parameters that are zero or between 2^-48 and 2^48 when nothing overflows. Violated in general: the Sun through an ordinary lens is refused with ValueError (C96_violated, C96_python_violated), and a legal system that overflows is accepted with infinite coefficients, since a nan determinant is not found different (C96_python_overflow). Not covered: a group that does nothing inside glass (it reports index 1 and is refused: C04). |
| C97 | In floats, the position of a stop found by a trace can be handed back to transferMatrix(upTo) | partial | Props/RoundedPosition.lean, Props/RoundedStop.lean | No TypeError is proved when generic matrices have no length, for any rounding and any position. Violated next to a stop when an element is given by its matrix and a length: two witnesses in binary64, one with the stop just after and one just before. The matrix found is proved to be that of the exact system cut at a position that differs by a bounded rounding error (C97_where), so the coefficients of heights, A and B, are right up to errors (C97_heights). Those of angles, C and D, may jump: a lens that is the stop is left out (C97_violated_angles). |
| C98 | In floats, power, focal length and images are those of the exact system | partial | Props/RoundedImaging.lean | Proved with explicit bounds on the errors (C98_afocal, C98_focal, C98_imaging, C98_conjugate, C98_defocus); in binary64 the matrix of forwardConjugate is imaging for \|B\| up to 10^10 (C98_double). C98_focal is about the back focal length f2. Violated: D is compared with 0 without tolerance, so an object in the front focal plane of a lens of focal length 49 gets an image at -4.4e17 (C98_violated). |
| C99 | The profile of many traces at a position contains exactly the rays that reach it | partial | Props/Profile.lean | C99_profile_partial: at every position in the system not strictly inside a thick element and where no ray is stopped. C99_end: the default position, for all systems and rays. C99_empty. Violated at the position of a thin stop, where the rays it stops are still counted, and past the end, where the rays are those at the end (C99_violated). |
| C100 | The messages of progress never interrupt a long trace, and end with all the rays | proved | Props/Profile.lean | All numbers of rays; the iteration counter is that of a collection not iterated elsewhere at the same time (C49). |
| C101 | What print shows of a matrix, a ray or a beam is what the object says | partial | Props/Text.lean | C101_number for every number and number of decimals; C101_matrix, C101_same, C101_focal; C101_ray; C101_beams for every complex radius. Violated: a focal length is printed for every system with 0 < \|C\| <= 1e-5, which effectiveFocalLengths() calls afocal (C101_violated_weak); the default wavelength, 632.8e-6 mm, is printed as 632800.0 nm (C101_violated_beam). The format of complex numbers is a parameter; the sign of zero is not modelled. C101_float is the text of a matrix of floats; C101_ties says how halves are written. |
| C102 | The command line runs the examples asked, under the numbers it lists | partial | Props/Command.lean | The code does not refuse unknown numbers: 0 runs the last example (C102_violated_zero), and a number too large raises IndexError after the examples before it have run (C102_violated_unknown). The rest is proved. The parser of the options is not modelled. C102_violated_negative, C102_written and C102_first are about signs, blanks, underscores and the order of the options. |
| C103 | The printed class hierarchy is the class tree | partial | Props/Command.lean | The edges are proved (C103_edges, C103_count, C103_text). Classes of the same name are one vertex, so that the tree cannot always be read back (C103_violated). |
| C104 | The menu of the lens viewer offers every lens, and shows the one selected | partial | Props/Viewer.lean | Proved for all classes, modules and sequences of selections, when different lenses have different texts (in the catalogues the label is the part number); otherwise the item of a text shows the last lens of this text (C104_violated_same). The windows are not modelled. |
| C105 | The version check announces a later version exactly when there is one | partial | Props/Viewer.lean | Never raises (the model is total: all errors are caught); what is announced is true (C105_true); the answer is right when the releases are listed in order (C105_sorted). The code takes the last release listed for the latest, so it misses later versions listed before (C105_violated), and one release name refused by packaging prevents any announcement (C105_violated_name). The network and the order of versions are parameters. |
| C106 | A cavity folded with appendElementsInReverse is the round trip | partial | Props/Folded.lean | The elements are proved for all cavities (C106_elements, C106_short), and that the matrix of the elements has A = D (C106_symmetric). Violated by every cavity: what is reported is not updated, so the modes and the stability stay those of the way forth (C106_violated_modes); a cavity is reported stable whose round trip is not (C106_violated). The next element appended updates the matrix (C106_append). |
| C107 | In floats, the aperture stop found is the exact one up to rounding errors | partial | Props/RoundedAperture.lean | C107_stop: for all systems and all roundings, the opening reported has the largest exact ratio of height to diameter up to the errors, with its exact diameter and its position up to the errors. C107_agree: the same stop as the exact program when it is separated from the others by more than the errors. C107_reference: the exits compared with are those of C30. C107_violated: two apertures that limit equally, where floats report the second and exact numbers the first. Missing: probe rays within rounding errors of the edge of an opening, for which whether the openings behind are seen depends on the last digit; overflow and underflow. |
| C108 | In floats, chief and marginal rays cross the aperture stop where they should, up to rounding errors | proved | Props/RoundedChief.lean | For every rounding of bounded relative error, with exponents that are not bounded, and for systems where the fate of the probe ray of apertureStop is decided by more than the rounding errors. The bound uses a largest slope S of the two rays (1,0) and (0,1) along the system. |
| C109 | Tracing a beam again gives the trace of this beam through the current elements | partial | Props/BeamObjects.lean | C109_session, C109_another: right for every session in which no change is pending, and after a change for every object but the last one traced. C109_violated, C109_stale: after a change the last object traced gives the old trace, which is always wrong after an append. Elements added have traced no beam before, and rays traced through the same path in between are not described; tracing one replaces what is remembered. |
| C110 | The fan of rays displayed by default opens by a sensible angle | partial | Props/Fan.lean | Proved when the range displayed is less than 5 pi times the length of the path (positive, at least a tenth) and at most ten times it (at most a fifth), with C110_display for what is shown. Violated otherwise: the code takes a tangent instead of an arc tangent, so that for every path with a length each angle, negative ones included, is that of some object height (C110_violated_any); a path without a length raises ZeroDivisionError (C110_violated_zero, C110_violated_raises) or gets an angle that is not a number (C110_violated_nan). The half heights of the graphics are a parameter. C110_with_object: displayWithObject shows one object of the diameter asked for, whose rays open by the angle asked for or computed. C110_violated_large: for a path without length, ZeroDivisionError is raised when the range is that of the object or of an image. |
| C111 | A Lambertian source emits in proportion to the cosine of the angle | partial | Props/Lamps.lean | Proved for all sizes and intensities, with the real cosine: the rays in order (C111_rays), their number and bounds (C111_count), the cosine law to less than one ray (C111_cosine), what is refused, and when there are rays (C111_emits). Violated: one or two angles (the angles are then ±π/2 only) or an even number of angles with an intensity of 1 give an empty source; a single height is the lower bound. A negative intensity is not refused: it gives an empty source (C111_negative). Rounding is covered by C134. |
| C112 | Rays added to a source are part of it | partial | Props/Lamps.lean | Holds for collections (C112_rays). For random sources and lamps, iterations visit the first maxCount rays among those held then made (C112_visits): a ray appended before maxCount rays were made is visited (C112_append_partial). Violated: appended rays are never counted, nor visited once maxCount rays are held, so never for a lamp that is not random (C112_violated_lamp, any sequence of accesses, iterations and additions); a lamp loaded from a shorter file raises AttributeError when iterated (C112_violated_short), from a longer one visits only the first rays. |
| C113 | In floats, the stability of a cavity is decided rightly away from the limit | partial | Props/RoundedCavity.lean | C113_stable for every cavity built in floats and in exact numbers, unit determinant, power above the tolerance by more than its error, discriminant away from 0 by more than its error (2 ops + 4 roundings against the majorant); C113_noPower below the tolerance. Complex division by the method of CPython. Violated at the limit (C113_violated): a ring of length 196 with a lens of focal length 49, for which A + D = -2, is reported stable with a laser mode in Python floats. Overflow and underflow are not considered. |
| C114 | In floats, a beam after a system has the exact complex radius up to rounding errors | proved | Props/RoundedBend.lean | C114_trace, C114_matrix for every system that can be built, conditional on the call not raising; C114_air: in air it does not raise; C114_confined. Complex division by the method of CPython, whose error is bounded by 2 relErr u 10 (smith_num). doubleR is binary64 rounding on real numbers, equal to double on rationals (doubleR_cast); C114_example is a beam in Python floats through a lens and a space, with an error below 1e-10. Exponents are not bounded: overflow and underflow are not considered. The error on the size w is not bounded; that of media other than air is, when the call does not raise. |
| C115 | In floats, the search for the field of view ends at the edge of the field | partial | Props/RoundedField.lean | C115_field and C115_exact are for all paths, precisions and largest heights, under hypotheses on the edge of the field: the exact chief rays clear all openings below Y1 and hit one above Y2 by more than the rounding errors, and Y2 - Y1 is at most a twentieth of the precision. C115_whole is for fieldOfView(). Without the hypothesis on the precision, C115_precision_violated gives a path for which the search does not return in floats. C115_example shows that the hypotheses hold for a path with two irises, and the answer in floats. Missing: fields whose edge is less than 70 times the precision, and the exceptions of the matrix up to the field stop, which are described but not excluded. |
| C116 | The optical invariant is conserved in floats, up to explicit rounding errors | partial | Props/RoundedInvariant.lean, Props/RoundedMediaInvariant.lean | C116_value: the computed invariant is within 2*relErr(2k+7)*\|n\|*M of the exact value at the entrance, k roundings and majorants being those of the beginning of the path up to z; C116_conserved: two positions; C116_double: in Python floats, 10^-12 of the majorant up to 1000 roundings. C116_media: paths with interfaces through media of any indices, when they begin in air or when the matrix up to z is not the identity; otherwise violated: the invariant at the entrance of a path that begins in glass is computed with index 1 (C116_violated_glass). Violated when exact conservation (C116_violated) or a relative error (C116_violated_relative) is expected. Missing: overflow and underflow (numbers of the model of C95). |
| C117 | Foci, principal planes and focal lengths in floats, up to explicit rounding errors | partial | Props/RoundedCardinal.lean | C117_planes, C117_foci and C117_vertices: errors of a few roundings on the numbers computed from the matrix; C117_rays: what rays do at the foci found, with the errors on the matrix of C96; C117_double: size of the errors in Python floats. Violated when exact numbers or relative errors are expected (C117_violated). Missing: overflow and underflow (numbers of the model of C95). |
| C118 | Magnifications and sizes of images in floats, up to explicit rounding errors | partial | Props/RoundedConjugatesFound.lean, Props/RoundedMagnification.lean | C118_forward, C118_backward: any matrix of floats; C118_system: for the exact system, the error is relErr(2k+3) times the majorant of its determinant, k roundings; C118_double: in air, in Python floats, 10^-12 of the majorant up to 1000 roundings; C118_object, C118_field: sizes of images. Violated when exact values are expected (C118_violated: an object at twice the focal length is not imaged with magnification -1). Not covered: overflow and underflow (numbers of the model of C95). C118_returns: in air the forward conjugate raises no error when the matrix leaves room for the errors on its determinant, whatever D is. |
| C119 | F-number, numerical aperture and Lagrange invariant in floats, up to explicit rounding errors | partial | Props/RoundedSpeed.lean | C119_fNumber: for the exact focal length and the exact stop, under the hypotheses of C108 (the fate of the probe ray is decided by more than the rounding errors); C119_NA: over the reals, for any sine with an error es (C119_sine: the exact one rounded), the half angle being D/(2\|B\|) with B the height at the stop of a ray of angle 1; C119_lagrange: with the errors of C116, for the field found (C115 says where it is). Violated to the last digit (C119_violated: the f-number of a lens of focal length and diameter 49 is not 1). Not covered: overflow and underflow; the f-number of systems weaker than the tolerance of hasPower. |
| C120 | Sizes, waists and radii of curvature of Gaussian beams in floats, up to a few roundings | proved | Props/RoundedSize.lean | Numbers round with a relative error u, without overflow or underflow (model Fl). math.sqrt and math.pi are supposed to be the exact ones, rounded (FloatMath), which doubleRMath satisfies. The exact quantities are beamSize, beamCurve and waistSize. Systems in media: C120_after is stated in air. |
| C121 | In Python floats, flipping a system twice gives it back to the last bit | proved | Props/FlipFloat.lean | C121_restored holds in binary64 with overflow and underflow (a single zero), for all programs of the Part language; C121_rounded for any rounding; C121_single: a single element that was flipped without error can always be flipped back. C121_again: in air the second flip cannot fail. The proof uses only that changing a sign twice changes nothing and that == tells numbers apart. C121_violated: Space(100), Lens(3), Space(1000), Lens(1/64), Space(1000) is accepted, but its flip raises ValueError and the group is left with four elements, because the determinant of a product is off by more than 1e-5 after rounding. |
| C122 | Flipping a system in floats is writing the program the other way round | proved | Props/FlipMirrored.lean | Proved for all nested systems in air and any odd rounding with a relative error, Double in particular: C122_mirrored/C122_rounded (same numbers as the program written the other way round), C122_accepted/C122_double (flips raise no error when the determinants have room), C122_matrix (A and D exchanged up to the rounding errors of the system itself; no curved mirrors, whose unfolded matrix is not that of the reversed path, and generic matrices with A = D). C122_violated: the vertices of a flipped thick lens are not those of the lens written the other way round. |
| C123 | What save() leaves on the disk at every moment, and when it returns | partial | Props/SaveFile.lean | Proved: an undisturbed save returns after two looks at the size and the file then holds the data (C123_saved); at every moment the file holds the old content (only before it is opened) or a beginning of the new one (C123_prefix); Rays.save has the whole file on disk before it waits (C123_rays_complete); the exact condition for the waiting loop to end (C123_returns_iff). The code violates the rest: MatrixGroup.save waits inside the with block, before the last piece is written, so the file is incomplete during the whole wait (C123_group_violated) and a program killed then leaves neither system (C123_killed_violated; C123_rays_killed_violated for rays while writing); the loop never ends if the file is removed or keeps changing (C123_never_violated); Ctrl-C during the sleep of one second is ignored by the bare except (C123_interrupt_violated); an object that cannot be pickled destroys the old file (C123_unpicklable_violated). Trusted: BufferedWriter keeps pieces that fit in memory; pickle refuses texts cut short is a hypothesis of the theorems. |
| C124 | In floats, fans and uniform sources stay between their bounds, in order and evenly spaced up to rounding errors | proved | Props/RoundedFan.lean | C124_fan gives the angles of a fan exactly as computed; C124_order, C124_first, C124_inside, C124_spaced the order, the bounds and the spacing; C124_uniform the grid of UniformRays; C124_double the hypotheses for Python floats up to 10^15 rays. Limits shown by witnesses: the last ray of Ray.fan(0, -0.1, 0.2, 2) is beyond 0.2 (C124_last_violated), and the ray in the middle of Ray.fan(0, -1, 1, 99) is not on the axis (C124_middle_violated). |
| C125 | In floats, the laser mode of a cavity is the one that reproduces itself, up to explicit rounding errors | proved | Props/RoundedModes.lean | C125_mode: existence, uniqueness and componentwise error of the mode in floats, for any cavity and any rounding. C125_trip: the mode is reproduced by the exact round trip up to 5 times the errors, and by the round trip in floats with the error of C114 added (when multiplying the beam succeeds and its denominator is clear of 0). C125_example: ring of length 40 with a lens of 50, in Python floats, -20 + 40 i to 1e-10. Overflow and underflow are not modelled at Fl; what happens at the limit of stability is C113_violated. |
| C126 | In Python floats, the index of every glass is that of its formula to 4e-13 | proved | Props/FloatIndex.lean | For any rounding with u ≤ 1e-6 and powers (x**k, **.5) within two roundings of the exact ones; the bounds per glass are rational numbers computed in the kernel over all the materials (glasses_floatOk, glasses_margin), the wavelength ranges over the reals of [0.28, 7]. C126_python instantiates it for 53-bit rounding, C126_resonance_violated shows that the range cannot be extended to all accepted wavelengths, C126_exact ties the float model to the exact formulas of C56. |
| C127 | In Python floats, every lens of the catalogues can be made and has the focal length of its data | proved | Props/FloatLens.lean | C127_created: all 342 classes, no argument or any wavelength from 0.3 to 2.5 micrometres, real floats (doubleR: 53 bits, no overflow or underflow), pow and sqrt correctly rounded as in C126. The two classes whose focal length is written as an integer are covered while it is within 0.99999 % of the data (the exact lens is refused beyond 1 %: C92_violated_int); C127_default (without argument) and C127_visible (0.38 to 1.1 micrometres) need no such hypothesis. C127_refused: classes without wavelength raise TypeError. C127_exact: with exact numbers the model is that of C92. Beyond 2.5 micrometres the indices of some glued glasses get equal, below 0.3 one index is above the bound used. |
| C128 | In Python floats, the chromatic focal shifts of the lenses of the catalogues are the exact ones to 5e-8 of the focal length | proved | Props/FloatShifts.lean | C128_shifts for arrays of any length, on C127 (same floats: 53 bits, no overflow or underflow); the two classes with an integer focal length while it is within 0.99999 % of the data, without hypothesis from 0.38 to 1.1 micrometres (C128_visible) and for the default wavelengths (C128_default, on C124 for linspace). C128_order, C128_refused (a class without wavelength: TypeError, as in C79). Python lists instead of arrays: C79_violated_list. |
| C129 | In Python floats, the search by index returns the materials of the exact search | proved | Props/FloatFind.lean | C129_found: same names, order and Abbe numbers as the exact search of C80, indices within 4e-13 (floats of 53 bits without overflow, powers correctly rounded as in C126_python). C129_itself: found by its own index, no hypothesis on the other materials. C129_exact: with exact numbers the model is that of C80. Below 0.28 and above 7 micrometres see C80 (complex indices, resonances). |
| C130 | In Python floats intermediateConjugates() lists images up to explicit rounding errors | proved | Props/RoundedConjugates.lean, Props/RoundedConjugatesFound.lean | The errors are explicit in the unit roundoff, the number of roundings and the majorant of the matrix of the first elements. C130_returns: in air the list is always returned, whatever D is, when each product of the first elements leaves room for the rounding errors on the determinant; C130_conjugates itself is for all media and conditional on the method returning. C130_violated: a 4f relay of two lenses of focal length 49 lists two spurious planes near -4.4e17 in Python floats; the exact program lists only the image at 196. |
| C131 | In floats, histograms count every ray exactly once, between the edges computed | proved | Props/RoundedHistogram.lean | For collections just made; queries after other queries are in C48. The heights and angles are floats (values that rounding keeps), without overflow. numpy is not part of the code: its method is written down in numpyBin and proved to find the bin that the model counts in (C131_numpy), when bins are wider than four times the errors on the edges; recent versions of numpy refuse bins that are too narrow to have distinct edges, which is not modelled. C131_double: Python floats, up to 10^14 bins. |
| C132 | In Python floats an axicon bends every ray by its deviation angle, and the focal line is where parallel rays cross the axis, up to a few roundings | proved | Props/RoundedAxicon.lean | C132_made, C132_ray, C132_symmetric, C132_focal_line for any rounding (symmetric for odd ones); C132_double for Python floats, where halving is exact. Without overflow or underflow. Rays already blocked are in C60 (their angle is changed). |
| C133 | In Python floats the lens read from a Zemax file does to light what its surfaces do one after the other, up to rounding errors | partial | Props/RoundedZemax.lean | C133_program: the lens is exactly what the program of its surfaces makes, errors included (made if and only if the program runs). C133_matrix: coefficients within at most 8 roundings per surface of those of light going through the surfaces in exact arithmetic. C133_made: made whenever there is room for the rounding errors in the determinants (Part.Between, from air to air). C133_example: a doublet in Python floats meets all of it. Missing: the numbers of the file are taken as given floats (the parsing of decimal numbers and the conversion of units are not rounded here), the indices are taken as given numbers and not through the dispersion formulas, and overflow and underflow are outside the rounding model. |
| C134 | In Python floats a Lambertian source emits in proportion to the cosine, to less than one ray and the rounding errors | proved | Props/RoundedLamps.lean | C134_rays: the rays in order; C134_bounds: number and bounds; C134_cosine: the cosine law to less than one ray and the errors; C134_same: same number as the exact source of C111 away from whole numbers; C134_double: the errors are at most 3e-15 of the intensity in Python floats; C134_emits: when there are rays; C134_example: the default source. The cosine of the library is a parameter, any function of floats within e of the real cosine (e = 2e-16 in C134_double), and np.pi/2 is any float (halfPi64 in the example). Overflow and underflow are outside the rounding model; one height or one angle is C111 (no arithmetic but a product with 0). |
| C135 | In Python floats random sources never leave their bounds, not even by a rounding | proved | Props/RoundedRandom.lean | C135_inside: heights and angles exactly within bounds; C135_point: three roundings and order; C135_uniform for all sequences of operations (on C50); C135_lambertian and C135_gaussian for all cosines, profiles and numbers of rejections; C135_double: the hypotheses in Python floats; C135_reached: the upper bound can be reached; C135_example: bounds for which a random number of 1 would leave them. Assumes, as numpy documents, that random() gives multiples of 2^-53 below 1; overflow and underflow are outside the rounding model. |
| C136 | In Python floats a trace ends exactly at the length of the group, unless groups are nested | proved | Props/Binary64Length.lean, Props/RoundedLength.lean | C136_end: bit-equality for every group without inner groups, any rounding; C136_binary64: the same in binary64 with overflow and underflow, for ordinary parameters and all rays; C136_within: the bound for all programs (rounding model without overflow and underflow); C136_nested_violated: a Double witness where the two differ with an inner group; C136_example: lengths whose sum is rounded, and the hypotheses of C136_within; C136_binary64_example. |
| C137 | The two sides of the axis are the same to the last bit, in exact numbers and in Python floats | proved | Props/Symmetry.lean | C137_trace: for all numbers whose operations do not depend on signs; C137_exact, C137_rounded and C137_python: for all programs in exact numbers, under any odd rounding, and in binary64 with overflow and underflow (ordinary parameters); C137_axicon: one axicon and any ray; C137_example: a lens that stops a ray and its mirror image. New or unused groups (no recorded trace: see C11); the sign of zero is not modelled. |
| C138 | The unit of length does not matter | partial | Props/Units.lean, Props/UnitsAccepted.lean, Props/UnitsRounded.lean | In exact numbers: C138_accepted: a system of any elements, nested in any way, is accepted by the constructors in one unit exactly when it is in the other. C138_matrix: its matrix, length and indices. C138_trace: whole traces, and C138_through: the last ray. C138_made: groups of spaces and lenses in air can be made in every unit. C138_focus_violated: the tolerance 1e-5 of hasPower is an inverse length, so that every lens has no focus in a unit small enough (a lens of 50 mm in nanometres). In floats without overflow and underflow: C138_rounded_made, C138_rounded and C138_double: in units that are powers of two, the same systems or exceptions and the same traces to the last bit. C138_decimal_violated: in binary64, a ray that passes a hole in metres is stopped by it in millimetres. C138_example, C138_double_example: a nested system in other units. Missing: units that are powers of two with overflow and underflow; how far traces in floats can differ in the other units. |
<!-- end properties -->

## 5. Discrepancies found

Each is a theorem about the model: the code does not do what the property says. Most are general statements (for all systems of
some family); the others have a concrete witness.

<!-- discrepancies -->
* **C04 Length, vertices and indices of a product describe the combined system.**
  - `RT.C04_identity_index_violated`: fails for a group made of identities only (here a `Space` of length 0 in a medium of index 3/2): the group reports the index 1. Expected: front index 3/2 as the element has.
* **C09 A finite-length element also blocks rays leaving outside its aperture.**
  - `RT.C09_violated`: is violated by every element with a length: only the entrance is checked. A ray that enters inside the aperture and the numerical aperture comes out unblocked, whatever its height at the exit.
  - `RT.C09_violated_example`: : a ray leaving a space of diameter 2 at the height 5 is not blocked.
* **C10 Tracing does not modify the caller's ray.**
  - `RT.C10_violated`: is violated: the caller's ray is blocked by the entrance of a space.
  - `RT.C10_violated_axicon`: is violated also by an axicon after an aperture: the angle of a ray that the caller holds, blocked before, is changed.
* **C11 trace() depends only on the ray and on the current elements, not on earlier calls.**
  - `RT.C11_violated_nested`: is violated by nested groups. The ray `(5, 1/10)` is blocked by the aperture when it is traced first, but not when it is traced after `(0, 1/10)`: the nested group returns the cached trace of another ray.
  - `RT.C11_violated_position`: is violated by rays that differ by their position only: the second trace has the positions of the first.
  - `RT.C11_violated_edit`: is violated by edits: after `append`, tracing the same ray again ignores the new element.
* **C12 traceManyThrough returns exactly the rays that get through, in order.**
  - `RT.C12_violated`: is violated by nested groups: a ray that does not get through is returned.
* **C13 Parallel tracing returns the same rays as sequential tracing.**
  - `RT.C13_violated`: is violated by nested groups: two processes return one ray, one process two.
* **C14 A group always describes the product of its elements.**
  - `RT.C14_pop_violated`: is violated by removing the last element: the group keeps the matrix of the element that is gone.
  - `RT.C14_reverse_violated`: is violated by `LaserCavity.appendElementsInReverse`: the elements are added but the matrix is not updated.
* **C15 Adjacent elements of a group always have matching indices.**
  - `RT.C15_slice_violated`: is violated by a slice assignment that is refused: it has already removed the slice. Here `[air-glass, glass-air]` followed by another pair; the two middle surfaces are replaced by an impossible pair.
  - `RT.C15_reverse_violated`: is violated by `appendElementsInReverse`: an interface followed by itself, not flipped.
* **C16 Group editing behaves like list editing.**
  - `RT.C16_setItem_negative_violated`: is violated: `g[-j] = es` (for any `j` from 1 up to the length minus 1) removes the right element but puts the new ones one place too early, before the element that was in front of it.
  - `RT.C16_setSlice_violated`: is violated by slice assignments with a negative start, and by reversed bounds: the elements left are not those of the list operation. The elements are spaces of lengths 1, 2, 3 and 9.
* **C17 A refused edit leaves the group as it was.**
  - `RT.C17_edit_violated`: is violated by `pop`, `insert` and item assignment: from `[lens, air-glass, glass-air, lens]`, removing or replacing the glass surface raises `ValueError` and leaves a group of one element, the three others being lost.
  - `RT.C17_append_violated`: is violated by `append` itself when determinants are inexact: two elements each accepted on its own (the determinant is 0.9e-5 away from 1); the second `append` raises `ValueError` but the element stays in the list, whose matrix is still that of the first.
* **C19 The optical invariant is the same at every position.**
  - `RT.C19_violated`: is violated when the path starts in a medium of index 3/2: at `z = 0` the optical invariant is computed with the index 1 and is 2, at `z = 5` it is 3.
  - `RT.C19_aperture_violated`: is violated by a single element with an aperture: a ray that the aperture stops keeps its input values at the exit but not inside.
* **C21 backwardConjugate gives the object plane.**
  - `RT.C21_frontIndex_violated`: is violated in front of any other medium: for every consistent system with `A ≠ 0`, `B ≠ 0` whose front index differs from 1 by more than the tolerance, `backwardConjugate()` raises `ValueError` although the object plane exists.
* **C23 The reported focus positions are the foci.**
  - `RT.C23_weak_power_violated`: is violated for weak systems: any system with a power that is not zero but at most 1e-5 (a lens with a focal length of 100000 or more) reports no focus, although parallel rays do cross the axis at a definite place.
* **C26 Flipping twice restores the element.**
  - `RT.C26_generic_violated`: fails for a group containing a generic matrix between two media: `flipOrientation()` exchanges its indices but not its coefficients, so the determinant is wrong and the group cannot be rebuilt. Expected: no error. Here an interface written as a `Matrix`, alone in a group.
  - `RT.C26_media_violated`: fails for generic matrices in a medium: a group of them whose product is the identity reports the index 1 (C04), and the flipped group, whose product is another matrix, reports 1.5. After a space in air the first flip raises no error, but changes the index of the space; the second flip raises `ValueError` and the system is lost. Expected: the system, without error.
* **C28 Flipping exchanges front and back focal lengths.**
  - `RT.C28_thickLens_violated`: fails for every thick lens with power: the flip exchanges its vertices without measuring them from the other end, so the back focal length of the flipped lens is the front focal length plus the thickness, and conversely the front one is short of it. Expected: no difference.
* **C30 The aperture stop is the element that limits the on-axis cone.**
  - `RT.C30_violated`: is violated when the probe ray is blocked: behind a lens of diameter 10 there is a lens of diameter 1 which limits the light, but the lens of diameter 10 is reported, although the ray `(0, 0.02)` gets through it and is blocked.
  - `RT.C30_thick_violated`: is violated by thick elements: a space of diameter 10 (a tube) is reported, because its exit is compared, although only its entrance stops rays: the ray `(0, 0.06)` is higher than the tube at its exit and is not blocked.
  - `RT.C30_entrance_violated`: is violated by openings with a length, because their entrances are not compared: a tube of diameter 30 in converging light stops the ray of angle 0.2 at its entrance, but no stop is reported.
* **C31 Chief and marginal rays meet the stop at its centre and edges.**
  - `RT.C31_tolerance_violated`: is violated by small systems: with an iris 5e-6 behind the object, which is not conjugate to it, there is no chief ray.
* **C32 The entrance pupil is the image of the stop in object space.**
  - `RT.C32_frontIndex_violated`: is violated behind another medium: with an object in water the pupil exists but the method raises.
* **C33 The field of view and field stop searches terminate.**
  - `RT.C33_python_violated`: is violated in Python floats too by every path whose chief rays are blocked at all heights from 37 times the precision to twice the maximal height (and not on the axis). Either `fieldStop()`, `halfFieldOfView()` and `fieldOfView()` do not return, whatever the number of turns; or they return that there is no field stop and that the field is infinite. The latter is the case when the chief ray from minus infinity, whose height becomes `nan`, is not blocked.
  - `RT.C33_python_first_violated`: is violated in Python floats by every path that begins with an element with a diameter of at most 73 times the precision (an opening of the field at the object): the searches never return.
  - `RT.C33_python_never_violated`: The hypotheses of `C33_python_first_violated` are met with the settings of a new `ImagingPath`.
  - `RT.C33_python_infinite_violated`: is violated in Python floats by a system whose field is 7.6·10⁻⁶ wide, with the settings of a new `ImagingPath`: given enough turns, `fieldStop()` returns that there is no field stop and `fieldOfView()` that the field is infinite.
  - `RT.C33_diverges_violated`: is violated by every path whose chief rays are blocked from a height below 37.5 times the precision (and not on the axis): however many turns the loops are given, `fieldStop()`, `halfFieldOfView()` and `fieldOfView()` do not return.
  - `RT.C33_example_violated`: The hypotheses of `C33_diverges_violated` are met: lengths in metres, a stop of 1 µm before an iris of 10 µm, the precision and largest height of a new `ImagingPath`.
* **C34 The field of view is accurate to the requested precision.**
  - `RT.C34_thick_violated`: is violated by openings with a length: the field of this path is limited by a thick lens of diameter 20, and the field stop is reported with an infinite diameter, that of the space before.
* **C35 Derived imaging quantities are consistent.**
  - `RT.C35_NA_violated`: is violated by `NA()` without axial ray: every path without finite diameter raises `AttributeError`.
  - `RT.C35_fNumber_violated`: is violated by the f-number of a lens by itself: `ImagingPath([Lens(f=50, diameter=25)]).fNumber()` is 0, and not 2 as with a space in front, because the lens in the plane of the object is not found to be the stop.
  - `RT.C35_lagrangeInvariant_violated`: is violated by paths that start in water (index 4/3): the axial ray has the angle 1/4, but the Lagrange invariant is reported as a quarter of the half field of view, without the index.
* **C37 Aperture queries reflect the elements.**
  - `RT.C37_lens_violated`: is violated by every new `Lens`: its largest diameter is 4 whatever its diameter, and half of its diameter once it has been displayed.
  - `RT.C37_nested_violated`: is violated by groups that contain a group without finite diameter: it counts as an element of diameter 8.
* **C41 The waist is the smallest size of the beam.**
  - `RT.C41_violated`: is violated in every medium of index larger than 1: the beam becomes smaller than its reported waist.
* **C43 Cavity eigenmodes reproduce themselves after a round trip.**
  - `RT.C43_violated`: is violated when the front medium of the cavity is not air: its modes, which are in air, cannot be sent into it.
* **C44 isStable is the usual stability criterion.**
  - `RT.C44_violated`: is violated: a ring of length 1 closed by a lens of focal length 200000 has |A + D| < 2 and unit determinant, and is reported not stable.
* **C46 Uniform ray sources cover their grid.**
  - `RT.C46_violated`: is violated: one height asked between 1 and 2 gives a ray at height 0.
* **C47 Ray.at and Ray.along follow the traced path.**
  - `RT.C47_violated_end`: is violated past the end: whatever the trace is, a position past all its rays gives its last ray, which is not at that position.
  - `RT.C47_violated_inside`: is violated inside a thick element: in a flat slab of index 2 a ray at angle 1 travels at angle 1/2, so it is at the height 1/2 at the depth 1, but `along` gives the height 1; the ray at the end of the slab has the height 1.
* **C48 Statistics of a ray collection reflect its current rays.**
  - `RT.Rays.C48_violated_load`: is violated: once the heights have been asked, loading a file does not change them, whatever the file contains.
  - `RT.Rays.C48_violated_refused`: is violated: a histogram that numpy refuses leaves its parameters behind; asking the same thing again gives no error but `(None, None)`, or the previous histogram.
* **C49 Iterating over a collection visits every element once, independently of other iterations.**
  - `RT.C49_violated_contains`: is violated: a loop over a group that asks whether each element is in the group never ends when two elements are equal (two equal spaces, for instance).
  - `RT.C49_violated_zip`: is violated: `zip(group, group)` does not pair each element with itself. It pairs the first element with the second, the third with the fourth, and so on; the last one is left out when their number is odd.
  - `RT.C49_violated_nested`: is violated: a loop over a collection inside a loop over the same collection: the outer loop visits only the first ray.
  - `RT.C49_violated_query`: is violated: computing the heights of a collection for the first time inside a loop over it ends the loop.
  - `RT.C49_violated_group`: is violated in the same way for groups.
* **C51 A Rays collection keeps all the rays it is given.**
  - `RT.C51_violated`: is violated: made from an iterator that can be used only once (a generator), a collection is always empty.
* **C52 Saving then loading restores the content.**
  - `RT.RandomRays.C52_violated_random`: is violated for random sources: only the rays made so far are saved (none if none was asked).
  - `RT.C52_violated_empty`: is violated for groups: loading a file saved from a group without elements empties the group but keeps its matrix.
* **C53 Preferences are persistent and survive crashes and other programs.**
  - `RT.Prefs.C53_read_crash_violated`: is violated when the program is stopped while it *reads*: if any preference is stored, `prefs[k]` empties the file before writing it again, whatever the key and whatever the program has in memory.
  - `RT.Prefs.C53_set_crash_violated`: is violated when the program is stopped while it writes a preference: the file is empty at that moment.
  - `RT.Prefs.C53_lost_update_violated`: is violated by two programs: one sets a preference (it is in the file `d`), another one, that read the file before, sets a different preference: the first is replaced by its former value, or lost.
  - `RT.Prefs.C53_reset_violated`: is violated by a reset in another program: a preference that was reset is still read with its old value by a program that had it, and reading any other one stores it again.
  - `RT.Prefs.C53_mixture_violated`: is violated when reading a file written by another program is interrupted between two keys: the file contains a mixture of the values of the two programs, the second value being the old one.
  - `RT.Prefs.C53_unserializable_violated`: is violated by a value that JSON refuses: setting it raises `TypeError`, and all the preferences stored are lost.
  - `RT.Prefs.C53_init_violated`: is violated by `Preferences({...})` and `Preferences(key=value)`: they always raise `AttributeError`.
  - `RT.Prefs.C53_foreign_violated`: is violated by a file that contains a JSON text which is not a dictionary, nor a list of pairs (`null`, a number, a string): unlike a text that is not JSON, which is taken for no preferences, it makes `Preferences()` raise, in every program from then on; the file stays as it is. A program that has its preferences cannot read any, and changes the file only when it sets one or resets them.
  - `RT.Prefs.C53_del_violated`: is violated by `del prefs[k]`: the preference comes back when it is read.
* **C54 A Zemax lens is read as a lens in air.**
  - `RT.Zmx.C54_diameter_violated`: is violated by a surface of diameter 0 (`DIAM 0`, as written by Zemax for surfaces without aperture): `ValueError`.
  - `RT.Zmx.C54_unclosed_violated`: is violated by a file that ends with a glass: the lens ends in the glass, not in air.
* **C55 Zemax files are parsed totally.**
  - `RT.Zmx.C55_unit_violated`: is violated when no unit is given: reading the file raises `AttributeError`. The same for several `UNIT` lines.
  - `RT.Zmx.C55_wavelengths_violated`: is violated when all the wavelengths listed are 0.55, or when none is listed: `IndexError`.
  - `RT.Zmx.C55_cap_violated`: is violated by a file of more than 1000 surfaces: the others are silently ignored.
* **C56 Glass indices are physical on the accepted range.**
  - `RT.C56_uv_violated`: is violated in the ultraviolet: from 0.01 microns (accepted) up to the first resonance, every glass with three resonances has an index smaller than 1 (or complex).
  - `RT.C56_ir_violated`: is violated in the infrared: at 10 microns (accepted) 21 of the 37 materials have a complex index.
  - `RT.C56_resonance_violated`: is violated at the resonances: `FusedSilica.n(9.896161)` and `FusedSilica.n(0.0684043)` divide by zero.
* **C59 Spaces computed from an element lead to the announced plane.**
  - `RT.C59_toFocus_violated`: is violated by a 2f system, a lens between two spaces: the focus is at its back edge (`A = 0`), and `ToFocus` is a space of length `f`, not 0.
  - `RT.C59_fromFocusToFocus_violated`: is violated by a lens with a space on each side (a 2f system): the "group from focus to focus" has neither `A = 0` nor `D = 0`.
* **C60 An axicon deviates rays towards the axis by a constant angle.**
  - `RT.C60_blocked_violated`: is violated for blocked rays: every axicon with a deviation changes the angle of every blocked ray off the axis. The ray is the caller's object (`C10_violated_axicon`).
* **C61 Comparing two groups does not depend on what was traced.**
  - `RT.C61_violated`: is violated by every group: once a ray has been traced through it, a group differs from any group that has not been used, in particular from the group it was.
  - `RT.C61_violated_traced`: is violated even when the group was traced before: another group, equal to it, is different after tracing, if only one of the rays traced differs by its height.
  - `RT.C61_violated_iteration`: is violated by every group with elements: once it has been iterated over, it differs from any group that has not been, in particular from the group it was.
* **C62 Displaced labels are apart, inside the display, and return to their position.**
  - `RT.C62_inside_violated`: the second part is violated in `fixLabelOverlaps`: the boxes are computed once per iteration, so a label that overlaps two others is moved twice with the box it had at first. Here a label of width 2 in a display of width 10 ends outside of the display (left side at -1/4).
  - `RT.C62_apart_violated`: : next to the edge of the display the labels are never apart: two labels of width 2, the left one at the edge, the other one overlapping it by 1, still overlap by `1 / 2 ^ k` after `k` iterations.
  - `RT.C62_three_violated`: : three labels in a row are never apart, even with room around them: each of the outer ones overlaps the one in the middle by 1/2, and still overlaps it by `1/2 / 2 ^ k` after `k` iterations, because the one in the middle is pushed from both sides.
* **C64 subPath is the part of the path after (or before) a position.**
  - `RT.C64_edge_violated`: is violated at the limit between two elements, at the beginning and at the end of every path: `ValueError`.
  - `RT.C64_thick_violated`: is violated inside any element other than a `Space` (a thick lens, a slab, a group): `AssertionError`.
  - `RT.C64_index_violated`: is violated inside a `Space` that is not in air: the space made is in air, so that the next element does not fit.
* **C65 Tolerant comparisons.**
  - `RT.C65_opposite_violated`: is violated at the tolerance, whatever it is.
  - `RT.C65_relative_violated`: is violated at zero: the comparison raises, even of zero with itself.
* **C67 Every material is found by its name.**
  - `RT.C67_violated_user`: **C67 does not hold** for the materials that the user implements as a subclass of `Material`, as the text of the error asks, in a module of their own: whatever name finds it, in any case and with or without hyphens, and which is not already that of a material of the module, raises `KeyError`.
* **C68 A singlet or doublet is the lens its data describe.**
  - `RT.C68_violated_int`: is violated when the focal lengths are written as Python `int`s: instead of a warning that the back focal length `fb` or the focal length is off by more than 1 %, a singlet whose `fb` is an `int` raises `ValueError` (the text of the warning cannot be made).
  - `RT.C68_violated_int_doublet`: is violated in the same way by doublets whose focal length `fa`, or back focal length `fb`, is an `int`.
  - `RT.C68_weak_violated`: is violated by weak lenses: below a power of 1e-5, whatever the focal lengths announced, even the right ones, the lens cannot be made: the back focal length is `None`.
  - `RT.C68_flat_edge_violated`: is violated by the edge of a lens with a flat surface: no thickness at the edge is ever reported as wrong.
  - `RT.C68_unlimited_violated`: A singlet of infinite diameter is made of the same surfaces, with the same matrix; but it is checked as if its diameter were 8: the thickness at the edge is compared with that at 4 from the axis, so that the property is violated for the warnings.
  - `RT.C68_one_material_violated`: is violated by a doublet with one material and one index: the material is not used and the lens is refused.
* **C69 The drawing of a lens is its shape, and that of a flipped element its mirror image.**
  - `RT.C69_thick_violated`: is violated by thick lenses: whatever the radii, index, thickness and diameter, flipping a thick lens exchanges its surfaces, but what is drawn does not change.
  - `RT.C69_interface_violated`: is violated by interfaces: the radius drawn for a flipped interface is that of the interface before.
  - `RT.C69_curved_mirror_violated`: is violated by curved mirrors: the radius drawn for a flipped mirror is that of the mirror before.
  - `RT.C69_flat_mirror_violated`: is violated by flat mirrors: they have no surfaces to draw, asking for them divides by zero.
  - `RT.C69_compound_violated`: is violated by flipping a `CompoundLens`: its elements are reversed, then its surfaces once more; a plano-convex lens flipped has its curved surface at the back, and is drawn with it in front.
  - `RT.C69_contact_violated`: is violated by a `CompoundLens` with two surfaces in contact: the first one is drawn at the distance of the next space, here a third surface that is 5 away from the two first ones is drawn at 10.
  - `RT.C69_plano_violated`: is violated by flipping a lens with a flat surface: whatever the other radius, the thickness, the index and the height, drawing the flipped lens divides by zero.
* **C71 The efficiency report counts what happens to the source rays.**
  - `RT.C71_violated_dark`: is violated when no ray of the source gets through: instead of reporting 0 %, every such report fails.
  - `RT.C71_violated_field`: is violated by a source higher than the field: the ray `(7, -1/4)` gets through the path but it is counted as blocked, so the efficiency reported is 50 % although both rays get through.
  - `RT.C71_violated_single`: is violated by a single vignetted ray: "No losses to vignetting" is printed, although one of the two rays which reach the stop inside of it is lost and the relative efficiency printed is 50 %.
  - `RT.C71_violated_thick`: is violated by openings with a length: the ray of angle 7/50 enters the tube, leaves it outside of its diameter without being blocked (C09) and gets through the path, but it is counted as blocked by the stop, so the efficiency reported for a source inside the field is 50 % although both rays get through.
* **C72 Display settings hold for the following displays, and displaying leaves the caller's data alone.**
  - `RT.C72_violated_design`: is violated: whatever the path, what is displayed and how, once a path was displayed `design(...)` raises `TypeError`: its appearance can no longer be chosen.
  - `RT.C72_violated_lost`: is violated: the design chosen for the first display is lost for the next ones.
  - `RT.C72_violated_height`: is violated: with the height of the object set once and two displays, the first shows the height set, the second the field of view (when it is finite) and the height set is forgotten. For every path, every height and whatever is displayed.
  - `RT.C72_violated_style`: is violated: choosing a style after the height of the object: the object will be limited to the field of view.
  - `RT.C72_violated_list`: is violated: the list given by the caller is changed, unless it has an object and no other rays are given.
  - `RT.C72_violated_list_again`: is violated: using the same list again, after changing the height of the object, the object shown is still the first one.
  - `RT.C72_violated_negative`: is violated: a negative height is refused when it is set, and accepted by `displayWithObject`.
* **C73 One line per visible ray, coloured by its starting height.**
  - `RT.C73_violated`: is violated: when all the rays start on the axis and there is only one colour (as for lamps by default), nothing can be drawn: `IndexError`. Whatever the rays, as long as one of them has something to show.
* **C74 The images of each object of a figure are drawn where its rays meet.**
  - `RT.C74_violated_asymmetric`: is violated behind an element that is not the same from behind: for an object 40 after a plano-convex thick lens, the image through the lens is drawn at -28, which is 81 before the object, where there is no image.
  - `RT.C74_violated_group`: is violated behind a group, even of lenses that are the same from behind: the images through the group are drawn for the group placed as it is, not as light coming from the object meets it.
  - `RT.C74_violated_edge`: is violated for an object at the limit between two elements (such as a lens, or the end of the path), for every path of elements of non-negative lengths: `ValueError`.
  - `RT.C74_violated_inside`: is violated for an object inside of an element other than a `Space`: `AssertionError`.
  - `RT.C74_violated_media`: is violated for an object inside of a `Space` that is not in air, before any element that is not a space: `ValueError`.
  - `RT.C74_violated_same`: is violated for two objects with the same title (both in the entrance plane, or at positions that are the same to one decimal): only the last one and its images are in the figure, for every path.
  - `RT.C74_violated_hidden`: is violated when images are shown without objects (`showObject = False`, `showImages = True`) and the first object is not in the entrance plane, for every path: `KeyError`.
* **C76 The focal points of the elements are marked, and nothing else.**
  - `RT.C76_violated_group`: is violated by the elements inside of groups: a path made of spaces and groups has no mark at all, whatever lenses the groups contain.
  - `RT.C76_violated_afocal`: is violated by a `CompoundLens` without power (`s.c` below the tolerance): the marks of every path that contains one cannot be computed, `TypeError`, once those of the elements before it have been.
  - `RT.C76_violated_moved`: is violated by the figure of a plain group that is not at 0: the marks of its elements do not move with it, whatever the group, while the graphics of the elements do (C77). For a lens of focal length 5 in a group drawn at 100 they stay at -5 and 5.
* **C77 Elements are drawn where they are.**
  - `RT.C77_violated_box`: **C77 violated**: in every path, a generic matrix (alone or in a group) and a group inside of a group that start at `z` are drawn as a box that starts at `2 z`.
  - `RT.C77_violated_aperture`: **C77 violated**: a path that contains an `Aperture` without a diameter cannot be drawn.
  - `RT.C77_violated_below`: **C77 violated** below the axis: rays that stay below the axis, however far, do not count.
* **C78 The lengths written in the figure of an element are those of its arrows.**
  - `RT.C78_violated_group`: is violated by every `MatrixGroup` with power and vertices whose elements can be drawn: the foci, the planes and the lengths are computed (`C78_computed`), but the figure shows none of them.
  - `RT.C78_violated_moved`: is violated for the figure of a graphic that is not at 0 (`GraphicOf(element, x=x)`): the foci and the vertices are marked where they are, but the arrows of the front and back focal lengths start from the vertices of the element at 0, so their lengths are not those written.
  - `RT.C78_violated_vertices`: **C78 violated** for elements with power but without vertices, as generic matrices have by default: they cannot be displayed.
  - `RT.C78_violated_space`: **C78 violated** for spaces: they cannot be displayed.
* **C79 Focal shifts are those of the lens at each wavelength.**
  - `RT.C79_violated_int`: **C79 violated** by a design focal length written as a Python `int`: if at one of the wavelengths the focal length is off by more than 1 %, nothing is returned: making the lens at that wavelength raises `ValueError`.
  - `RT.C79_violated_list`: **C79 violated** for Python lists, which the documentation asks for: the wavelengths returned are 1000 copies of the list, so that there are not as many as shifts.
  - `RT.C79_violated_class`: **C79 violated** for the lenses whose class does not take a wavelength, and for those without a design focal length, whatever the wavelengths: `TypeError`.
* **C80 The search by index returns exactly the materials of that index.**
  - `RT.C80_violated_resonance`: **C80 violated** at the resonance of one material: no material of any index can be found, however far from resonance the others are.
  - `RT.C80_violated_user`: **C80 violated** as soon as the user has implemented a material in a module of their own: at every wavelength where the materials of the module have an index, no material of any index can be found.
  - `RT.C80_violated_twice`: **C80 violated** when the two classes `E_BAF11` are alive: the material is returned twice, and the Abbe number of its first class never.
* **C81 All the rays given to a figure are drawn.**
  - `RT.C81_violated_same`: **C81 violated** by two objects (or two lamps) that are not at 0 and whose titles are the same, e.g. positions that differ by less than the decimals shown: the rays of the first are not drawn.
* **C82 A check box shows and hides its group, and nothing else.**
  - `RT.C82_violated_labels`: **C82 violated** by the labels of graphics, which stay on the screen when the graphic is hidden, whatever the clicks.
  - `RT.C82_violated_elsewhere`: **C82 violated** by objects that are not at 0: they are seen although objects are not to be shown, e.g. because there is a lamp.
* **C84 An objective is drawn with its foci, its cone of light and its apertures.**
  - `RT.C84_violated_bars`: is violated by the bars of the apertures: the front aperture is drawn at the height of the back aperture.
* **C85 A figure shows the stops, the pupil, and the principal and axial rays where they are.**
  - `RT.C85_violated_pupil`: is violated by object-space telecentric systems (the stop at the back focal plane of what precedes it, `A = 0`): with `showEntrancePupil` the figure cannot be drawn, `ValueError`.
* **C86 The mode decides which warnings are printed.**
  - `RT.C86_violated_expert`: is violated in expert mode: hints for beginners, which this mode ignores according to its filters, are printed (once each), because the filter for all `UserWarning`s is set after that for `BeginnerHint`s, and comes first.
  - `RT.C86_violated_beginner`: is violated in beginner mode: hints for beginners, which this mode always prints according to its filters, are not printed the second time.
* **C87 Importing the module never fails, starts in the saved mode, and checks the version once a day.**
  - `RT.C87_violated_foreign`: is violated when the file of the preferences contains JSON that is not a dictionary (for instance `null`, or a number): every import of the module raises `TypeError` from then on, and the file stays as it is. A file that is not JSON at all does no harm.
  - `RT.C87_violated_second`: is violated: once the version was checked at a whole second, no import of the module succeeds any more: all raise `ValueError`, and the preferences stay as they are.
  - `RT.C87_violated_first`: Such a check is possible: the import of a new user at a whole second leaves these preferences.
  - `RT.C87_violated_day`: is violated: between one day and two days after a check, "more than a day" is not noticed.
  - `RT.C87_violated_env`: is violated by the environment variable: after one import with `RAYTRACING_EXPERT`, all the imports without it are in expert mode, whatever mode was saved.
* **C88 CompoundLens.all() lists all the lenses.**
  - `RT.C88_violated`: is violated: a subclass that has subclasses is not listed (when no other class has its name): a lens of a catalogue disappears from the list as soon as the user derives a class from it.
* **C89 The figure of a laser path or cavity shows the beams given, and only them.**
  - `RT.C89_violated_arrows`: is violated by the arrows of the waists: the figure of a laser path that was displayed before shows again all the arrows of the earlier displays (`f.arrows`), then its own. The rest (the lines, the exceptions) is that of a path never displayed.
  - `RT.C89_violated_all`: is violated: after any number of displays, the arrows in the figure are those of all of them.
  - `RT.C89_violated_none`: is violated without beam: `display()` of a laser path whose `inputBeam` was not set raises `TypeError`, for all paths.
* **C90 An element object can be held at one place or at several.**
  - `RT.C90_violated_flip`: is violated by flipping: for all paths of single elements, an element that is at an even number of places, and that two flips restore, is not flipped.
  - `RT.C90_violated_space`: is violated by `append`: for all stores, a `Space` that is already in a path and is appended to another one in a medium changes its index in the first path too.
  - `RT.C90_violated_flip_twice`: is violated by flipping a path that has the same thick lens at two places: its entries stay what they were (first and second line), `A` and `D` are not exchanged, as they are when the two lenses are two objects (third line).
  - `RT.C90_violated_slice`: is violated by slices: flipping the slice `path[:2]` turns round the thick lens of the path itself. The entries of the path keep their old values (second line), which are not those of its elements any more (third line).
  - `RT.C90_violated_group`: is violated by a group that is at two places of a path: the ray along the axis is found again in the record of the group, and the path of length 20 is traced to position 10 only.
* **C91 The rays of an object inside a path are drawn both ways from the object.**
  - `RT.C91_thick_violated`: is violated for a ray stopped by an element that has a thickness: it is not drawn up to this element, the last point is at an element before it.
  - `RT.C91_edge_violated`: is violated for an object at the limit between two elements (or at the end of the path): `ValueError`, nothing is drawn.
  - `RT.C91_outside_violated`: is violated for an object before or after the path: `ValueError`.
  - `RT.C91_media_violated`: is violated for a source inside of a `Space` that is not in air, before any element that is not a space: `ValueError`.
  - `RT.C91_violated_thick`: is violated by a thick element: a ray too high for a lens (thin) of diameter 1 is drawn up to it, but for an opening of diameter 1 with a thickness (a `Space` with a diameter) only its starting point is drawn.
  - `RT.C91_violated_asymmetric`: is violated behind an element that is not the same from behind: a ray parallel to the axis, from an object 40 after a plano-convex thick lens, comes out of the curved face at the height 1, but is drawn there at the height 9/10.
* **C92 The lenses and objectives of the catalogues are those of their data sheets.**
  - `RT.C92_violated`: **C92 does not hold** as expected of a catalogue: 96 classes have a focal length off by more than 1 % from that of their data sheet, of which 52 by more than 10 %.
  - `RT.C92_violated_half`: **C92 does not hold**: `AC508_750_C()` has less than half the focal length that its name and data sheet announce.
  - `RT.C92_violated_int`: **C92 does not hold** for `AC254_150_A` and `AC254_250_A`: their focal length is written as an integer, and the text of the warning that it is not the one expected formats it as a float. From 0.38 to 1.1 microns there is no warning and they are made; below 0.35 and above 1.3 microns they raise `ValueError` instead of warning.
  - `RT.C92_violated_twice`: **C92 does not hold** for 14 names: the file has two classes of that name, and only the second can be used; for 7 of them the two classes have not the same data. For `AC254_030_A` and `AC508_075_B` the class that can be used has a warning that the other has not.
* **C93 Glasses disperse as their Abbe numbers say.**
  - `RT.C93_violated`: **C93 does not hold** for the first of the two classes `E_BAF11` (hidden by the second, but listed twice in `Material.all()`): its Abbe number is too small by more than 1.8.
* **C94 An objective lets through the cone of light it announces.**
  - `RT.C94_violated`: is violated by `nikon.LWD16X`: it announces an NA of 1.56, but accepts 0.8 only: a ray parallel to the axis that would come to the focus with an angle between the two is blocked by its back aperture.
* **C96 In floats, the matrix of a system is exact up to rounding errors, and legal systems are accepted.**
  - `RT.C96_python_violated`: The Sun is refused here too: its parameters are ordinary.
  - `RT.C96_violated`: Violated: the Sun seen through an ordinary lens is a legal system, accepted when computed exactly; in Python floats it is refused with a `ValueError` about inconsistent indices, because the determinant is compared with 1 within 10⁻⁵ in absolute value.
* **C97 In floats, the position of a stop found by a trace can be handed back to transferMatrix(upTo).**
  - `RT.C97_violated_angles`: Violated for angles: a lens that is the aperture stop belongs to the matrix up to the stop in exact numbers, with the same lengths, and not in floats, where 0.4 + 0.1 - 0.4 < 0.1; C, which gives the angles, is then 0 instead of -1/10.
  - `RT.C97_violated`: Violated: when the stop is next to an element given by its matrix and a length, the chief ray and the entrance pupil raise `TypeError`, depending on the last digit of the lengths: in floats, 0.4 + 0.1 - 0.4 < 0.1 and 0.1 + 0.2 - 0.1 > 0.2.
* **C98 In floats, power, focal length and images are those of the exact system.**
  - `RT.C98_violated`: Violated: the image of an object in the front focal plane is at infinity, which is what the exact program returns; in floats `D` is not compared within a tolerance, and `forwardConjugate` announces an image at a finite distance: 4·10¹⁷ before the lens.
* **C99 The profile of many traces at a position contains exactly the rays that reach it.**
  - `RT.C99_violated`: At the position of the aperture the rays that it stops are still counted; past the end the rays are those at the end of the system, not at the position asked for.
* **C101 What print shows of a matrix, a ray or a beam is what the object says.**
  - `RT.C101_violated_weak`: **C101 does not hold** for weak systems: whenever `0 < |C| ≤ 1e-5`, a focal length is printed although `effectiveFocalLengths()` is infinite.
  - `RT.C101_violated_beam`: **C101 does not hold** for beams: wavelengths are in the units of the lengths, so 632.8e-6, the default, is 632.8 nm in millimetres, but the text says 632800.0 nm.
* **C102 The command line runs the examples asked, under the numbers it lists.**
  - `RT.C102_violated_zero`: is violated: 0 is not refused, it runs the last example.
  - `RT.C102_violated_negative`: is violated: negative numbers are not refused, they count from the last example but one.
  - `RT.C102_violated_unknown`: is violated: a number that is not in the list is not reported before anything runs: the examples before it run, then an `IndexError` is raised.
* **C103 The printed class hierarchy is the class tree.**
  - `RT.C103_violated`: is violated for classes of the same name (C92: some names of the catalogue are used twice): they are one vertex of the graph, and the same lines are printed whether a class derives from the one or from the other.
* **C104 The menu of the lens viewer offers every lens, and shows the one selected.**
  - `RT.C104_violated_same`: is violated by two lenses with the same label and the same focal length to 0.1: the item of this text shows the last one, so the first is not in the menu.
* **C105 The version check announces a later version exactly when there is one.**
  - `RT.C105_violated`: is violated when the last release listed is not the latest: a later version exists, and nothing is announced.
  - `RT.C105_violated_name`: is violated by one release whose name is not a version of PEP 440: no version is ever announced any more.
* **C106 A cavity folded with appendElementsInReverse is the round trip.**
  - `RT.C106_violated_modes`: is violated by every cavity: the modes and the stability reported after folding it are those of before, of the way forth only.
  - `RT.C106_violated`: is violated: 12 mm of space and a lens of focal length 10 mm, folded, is reported stable; the matrix of its elements has `A + D = -2.8`.
* **C107 In floats, the aperture stop found is the exact one up to rounding errors.**
  - `RT.C107_violated`: Two apertures of 1 and 3 at 1 and 3 limit the beam equally, and exact numbers report the first one; Python floats report the second one.
* **C109 Tracing a beam again gives the trace of this beam through the current elements.**
  - `RT.C109_violated`: is violated by every change: after it, tracing the same object again gives the trace of before, whatever the elements are now.
* **C110 The fan of rays displayed by default opens by a sensible angle.**
  - `RT.C110_violated_raises`: is violated: `displayWithObject` raises what the computation of the angle raises.
  - `RT.C110_violated_zero`: is violated: when the path has no length, the computation raises `ZeroDivisionError` unless the graphic of an element gives the range.
  - `RT.C110_violated_large`: is violated: when the path has no length and the range is that of the object or of an image, larger than all graphics, `ZeroDivisionError` is raised.
  - `RT.C110_violated_any`: is violated by every path with a length: whatever the angle, negative or as large as one likes, it is the one of the default fan for some height of the object.
  - `RT.C110_violated_nan`: is violated by every path without a length when the graphic of an element gives the range: the angle is not a number.
* **C111 A Lambertian source emits in proportion to the cosine of the angle.**
  - `RT.C111_violated_few`: is violated for one or two angles: the angles are then `±π/2` only, and the source is empty whatever the intensity is.
  - `RT.C111_violated_even`: is violated for an even number of angles and an intensity of one: no angle is on the axis, and the source is empty.
  - `RT.C111_violated_height`: is violated for one height: all the rays start at the lower bound, although `UniformRays` puts them on the axis.
* **C112 Rays added to a source are part of it.**
  - `RT.RandomRays.C112_violated_append`: is violated: a ray appended to a source that holds `maxCount` rays is never visited, and a ray appended to any source is not counted.
  - `RT.C112_violated_lamp`: is violated for every lamp: whatever is appended to it, between any accesses and iterations, its number of rays and the rays visited are those it was made with.
  - `RT.C112_violated_load`: : a lamp where at least as many rays as it counts are loaded visits the first ones of the file, no more.
  - `RT.C112_violated_short`: is violated: a lamp where fewer rays than it counts are loaded cannot be iterated: `AttributeError`.
* **C113 In floats, the stability of a cavity is decided rightly away from the limit.**
  - `RT.C113_violated`: Violated at the limit: the ring of length 4 f, with f = 49, has A + D = -2 exactly, and is not stable. In Python floats it is reported stable, with a laser mode: the discriminant, which is 0, comes out as -1.8e-15. Whatever the square root.
* **C115 In floats, the search for the field of view ends at the edge of the field.**
  - `RT.C115_precision_violated`: without the hypotheses on the precision is violated: with irises of diameters 4 and 2000, 10 apart, and a precision of 10⁻¹⁴, less than a quarter of the distance between 1000 and the next float, `fieldStop()`, `halfFieldOfView()` and `fieldOfView()` do not return.
* **C116 The optical invariant is conserved in floats, up to explicit rounding errors.**
  - `RT.C116_violated`: The optical invariant is not conserved to the last digit: that of the rays (1, 0) and (3, 1/4) is -1/4 at the entrance and another float after the lens.
  - `RT.C116_violated_relative`: Nor is a bound on the error in proportion of the value possible: the rays (1, 1) and (3, 3) have an optical invariant of 0 at the entrance and at `z = 13`, not at `z = 10`.
  - `RT.C116_violated_glass`: Violated in glass: the optical invariant of a path that begins in glass is not that of its entrance, since the beginning of the path is then the identity, which is taken to be in air.
* **C117 Foci, principal planes and focal lengths in floats, up to explicit rounding errors.**
  - `RT.C117_violated`: Violated to the last digit: the back focus of `Lens(f=49)` is not at 49; nor is a bound in proportion of the position possible: the front focus of `[Space(49), Lens(f=49), Space(49)]` is not at 0.
* **C118 Magnifications and sizes of images in floats, up to explicit rounding errors.**
  - `RT.C118_violated`: Violated to the last digit: the image of an object at twice the focal length, 49, is neither at 98 nor of the size of the object, and the product of the two magnifications is not 1.
* **C119 F-number, numerical aperture and Lagrange invariant in floats, up to explicit rounding errors.**
  - `RT.C119_violated`: Violated to the last digit: the f-number of `[Space(10), Lens(f=49, diameter=49)]` is not 1.
* **C121 In Python floats, flipping a system twice gives it back to the last bit.**
  - `RT.C121_violated`: fails when the flip itself fails: a system in air that Python accepts may be refused once flipped, because the determinant of a product is tested with its errors of rounding. The group is then left with four of its five elements. With exact numbers the system is flipped and flipped back.
* **C122 Flipping a system in floats is writing the program the other way round.**
  - `RT.C122_violated`: The vertices are not part of it: those of a flipped thick lens are exchanged but still counted from the side that was the front, so that they are not those of the thick lens written the other way round.
* **C123 What save() leaves on the disk at every moment, and when it returns.**
  - `RT.Saving.C123_never_violated`: fails when a file is removed, or when another program keeps changing its size: `save` then never returns.
  - `RT.Saving.C123_interrupt_violated`: : Ctrl-C in the second that follows a look at the file is ignored, the program goes on waiting; it stops the program only when the file cannot be read at that moment.
  - `RT.Saving.C123_group_violated`: fails for groups: when the last piece written is not larger than the memory of the file object (always the case for a system of less than 8192 bytes) the file is not complete until the very end of the call: all the waiting, at least one second, is done before the end of the file is written. The looks at the size are about a file cut short.
  - `RT.Saving.C123_killed_violated`: fails: so a program killed while it saves a system over an older file leaves neither the old system nor the new one, at any moment from the opening of the file to the very end of the call. `pickle` refuses every text cut short.
  - `RT.Saving.C123_rays_killed_violated`: : the same for rays, from the opening of the file to the end of the last write.
  - `RT.Saving.C123_unpicklable_violated`: fails: saving something that cannot be pickled raises, and the old content is lost; only what was written before remains.
* **C124 In floats, fans and uniform sources stay between their bounds, in order and evenly spaced up to rounding errors.**
  - `RT.C124_last_violated`: fails for the last ray of a fan: `Ray.fan(0, -0.1, 0.2, 2)` leaves at more than 0.2, since the last angle is computed from the first one.
  - `RT.C124_middle_violated`: fails for the ray in the middle: the 50th of the 99 rays of `Ray.fan(0, -1, 1, 99)` is not on the axis.
* **C126 In Python floats, the index of every glass is that of its formula to 4e-13.**
  - `RT.C126_resonance_violated`: Violated in the accepted range, below: at the Python float 0.07746417668832478, BK7 raises `ZeroDivisionError`, since the square of that float is the constant of the formula once rounded; the exact formula has a value there. For every powers of which `x ** 2` is the exact square rounded.
* **C130 In Python floats intermediateConjugates() lists images up to explicit rounding errors.**
  - `RT.C130_violated`: Violated for a relay of two lenses of focal length 49 (a 4f system): in exact numbers the only image is at its end, 196, inverted; in Python floats two more planes are listed, at more than 4 × 10¹⁷ before the system, because `D` behind the first lens is not zero but some 10⁻¹⁶.
* **C136 In Python floats a trace ends exactly at the length of the group, unless groups are nested.**
  - `RT.C136_nested_violated`: **C136, negated for groups inside groups**: with a tenth, and a group of two tenths and three tenths, the last position is not the length of the group: the trace adds the three lengths from the left, the group adds the inner sum.
* **C138 The unit of length does not matter.**
  - `RT.C138_focus_violated`: **C138, negated for foci**: the tolerance of `hasPower` is not in the unit of the system. Every lens, in a unit small enough, is said to have no focus, although it has one in its own unit.
  - `RT.C138_decimal_violated`: **C138 in Python floats, violated** in the decimal units that people use: a ray that passes a hole when lengths are in metres is stopped by it when they are in millimetres, all parameters being floats. At the hole its height is `1 + 2⁻⁵³`, which is rounded to 1 in one unit, and not to 1000 in the other.
<!-- end discrepancies -->
