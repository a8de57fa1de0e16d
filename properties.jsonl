{"id": "C01", "title": "Multiplying elements then a ray equals sending the ray through the elements one after the other", "statement": "For two elements M1 then M2 and an unblocked ray r that neither element blocks, (M2*M1)*r has the same height, angle and position z as M2*(M1*r); matrix multiplication is associative in its ABCD entries and in its physical length.", "quantifier": "all pairs/triples of finite elements (any A,B,C,D,L, any indices) whose product is accepted, and all rays", "why_tests_cant": "Tests multiply a handful of literal matrices; the claim is an algebraic law over all real coefficients.", "anchors": ["raytracing/matrix.py:Matrix.__mul__", "raytracing/matrix.py:Matrix.mul_matrix", "raytracing/matrix.py:Matrix.mul_ray"]}
{"id": "C02", "title": "Every system satisfies det = frontIndex/backIndex, and legal products are never rejected", "statement": "If every element satisfies determinant = frontIndex/backIndex and adjacent indices match, then every product and every group of them satisfies it too, so the ValueError raised on a determinant mismatch can never be triggered by composing such elements.", "quantifier": "all finite chains of elements of any length, nested groups included", "why_tests_cant": "It is an invariant over arbitrarily long compositions.", "anchors": ["raytracing/matrix.py:Matrix.__init__", "raytracing/matrix.py:Matrix.determinant", "raytracing/matrix.py:Matrix.mul_matrix"]}
{"id": "C03", "title": "The Matrix constructor accepts exactly the legal parameters", "statement": "Matrix(...) succeeds if and only if apertureDiameter > 0, apertureNA > 0, backIndex != 0 and |det - frontIndex/backIndex| <= 1e-5; otherwise it raises ValueError (ZeroDivisionError for backIndex 0). A successful construction stores the given parameters unchanged.", "quantifier": "all finite or infinite numeric arguments", "why_tests_cant": "An if-and-only-if over a continuous domain.", "anchors": ["raytracing/matrix.py:Matrix.__init__"]}
{"id": "C04", "title": "Length, vertices and indices of a product describe the combined system", "statement": "For the product of two index-matched elements the length is the sum of the lengths, the first vertex is the first vertex met by the light, the last vertex is the last one met, the front index is that of the first element and the back index that of the last.", "quantifier": "all pairs of elements and all chains of them", "why_tests_cant": "Bookkeeping over arbitrary sequences with and without vertices; tests check a few pairs.", "anchors": ["raytracing/matrix.py:Matrix.mul_matrix", "raytracing/matrixgroup.py:MatrixGroup.transferMatrix"]}
{"id": "C05", "title": "An element blocks a ray exactly when it enters outside the aperture or the NA; a blocked ray is frozen", "statement": "element*ray is blocked iff the ray was already blocked, or |y| exceeds half the aperture diameter at the entrance, or |theta| exceeds the NA. A blocked ray goes through any element unchanged (y, theta and z keep the values they had where it was blocked).", "quantifier": "all elements, all rays, including infinite apertures", "why_tests_cant": "Continuous domain with strict/non-strict boundary cases.", "anchors": ["raytracing/matrix.py:Matrix.mul_ray"]}
{"id": "C06", "title": "Once blocked, a ray stays blocked until the end of its trace", "statement": "In the list returned by trace(), if an entry is blocked then every later entry is blocked and has the same y, theta and z; traceThrough() is blocked iff some entry of the trace is.", "quantifier": "all element trees, all rays, on fresh elements", "why_tests_cant": "Invariant over arbitrarily long and nested traces.", "anchors": ["raytracing/matrix.py:Matrix.trace", "raytracing/matrixgroup.py:MatrixGroup.trace"]}
{"id": "C07", "title": "Tracing through a group agrees with its transfer matrix", "statement": "If a ray is not blocked anywhere in the group, the last ray of trace() has the height, angle and position obtained by applying the group's transfer matrix to the input ray.", "quantifier": "all (nested) groups without axicon, all rays", "why_tests_cant": "Two independent computations agreeing for arbitrary group trees.", "anchors": ["raytracing/matrix.py:Matrix.traceThrough", "raytracing/matrixgroup.py:MatrixGroup.trace", "raytracing/matrixgroup.py:MatrixGroup.transferMatrix"]}
{"id": "C08", "title": "Positions along a trace never go backwards and end at the end of the system", "statement": "With elements of non-negative length, the z of successive rays of a trace never decreases, starts at the input z and, if the ray is not blocked, ends at input z plus the length of the system.", "quantifier": "all (nested) groups with non-negative lengths, all rays", "why_tests_cant": "Monotonicity along a trace of arbitrary length.", "anchors": ["raytracing/matrix.py:Matrix.trace", "raytracing/matrixgroup.py:MatrixGroup.trace"]}
{"id": "C09", "title": "A finite-length element also blocks rays leaving outside its aperture", "statement": "As the documentation of trace() says, an element of non-zero length checks the ray before entering and after having propagated: a ray whose exit height is larger than half the diameter is blocked.", "quantifier": "all elements with length > 0 and finite aperture, all rays", "why_tests_cant": "Needs all rays, and an existence proof when it fails.", "anchors": ["raytracing/matrix.py:Matrix.trace", "raytracing/matrix.py:Matrix.mul_ray"]}
{"id": "C10", "title": "Tracing does not modify the caller's ray", "statement": "After element.trace(ray) or traceThrough(ray) the caller's ray object still has the height, angle, position and blocked state it had before.", "quantifier": "all element trees, all rays, all histories of earlier traces", "why_tests_cant": "Aliasing between the returned trace and the input object.", "anchors": ["raytracing/matrix.py:Matrix.trace", "raytracing/axicon.py:Axicon.mul_ray", "raytracing/matrixgroup.py:MatrixGroup.trace"]}
{"id": "C11", "title": "trace() depends only on the ray and on the current elements, not on earlier calls", "statement": "Whatever traces and edits were performed before, group.trace(ray) returns the same values as on a newly built group with the same elements.", "quantifier": "all sequences of trace/append/insert/pop/flip operations on a group, all rays", "why_tests_cant": "It ranges over call histories.", "anchors": ["raytracing/matrixgroup.py:MatrixGroup.trace", "raytracing/matrixgroup.py:MatrixGroup.append", "raytracing/ray.py:Ray.__eq__"]}
{"id": "C12", "title": "traceManyThrough returns exactly the rays that get through, in order", "statement": "traceManyThrough(rays) returns, in input order, the traceThrough of each input ray that is not blocked, and nothing else.", "quantifier": "all elements and all lists of rays", "why_tests_cant": "Arbitrary list lengths.", "anchors": ["raytracing/matrix.py:Matrix.traceManyThrough"]}
{"id": "C13", "title": "Parallel tracing returns the same rays as sequential tracing", "statement": "traceManyThroughInParallel(rays, processes=p) returns the same multiset of rays as traceManyThrough(rays) for every p >= 1 and whatever happens in the pool (an exception falls back to the sequential version).", "quantifier": "all lists of rays, all process counts, success or failure of the pool", "why_tests_cant": "Ranges over list lengths, process counts and failures.", "anchors": ["raytracing/matrix.py:Matrix.traceManyThroughInParallel"]}
{"id": "C14", "title": "A group always describes the product of its elements", "statement": "After any sequence of successful append/insert/pop/item assignment/flip operations, the A, B, C, D, L, vertices and indices of the group are those of the ordered product of its elements.", "quantifier": "all sequences of group operations", "why_tests_cant": "Invariant over operation histories.", "anchors": ["raytracing/matrixgroup.py:MatrixGroup.append", "raytracing/matrixgroup.py:MatrixGroup.insert", "raytracing/matrixgroup.py:MatrixGroup.pop", "raytracing/matrixgroup.py:MatrixGroup.flipOrientation", "raytracing/lasercavity.py:LaserCavity.appendElementsInReverse"]}
{"id": "C15", "title": "Adjacent elements of a group always have matching indices", "statement": "In any group obtained through the public API, the back index of each element equals the front index of the next one; a Space appended after a different medium takes that medium's index, and any other mismatching element is refused with ValueError.", "quantifier": "all sequences of group operations", "why_tests_cant": "Invariant over operation histories, also after failures.", "anchors": ["raytracing/matrixgroup.py:MatrixGroup.append"]}
{"id": "C16", "title": "Group editing behaves like list editing", "statement": "append, insert, pop, g[i], g[i:j], g[i]=e and g[i:j]=es leave the elements that the same operation on a Python list would leave, and pop/g[i] return the same element or raise IndexError in the same cases.", "quantifier": "all groups, all (positive or negative) indices and slices", "why_tests_cant": "Index arithmetic over all lengths and indices.", "anchors": ["raytracing/matrixgroup.py:MatrixGroup.__getitem__", "raytracing/matrixgroup.py:MatrixGroup.__setitem__", "raytracing/matrixgroup.py:MatrixGroup.insert", "raytracing/matrixgroup.py:MatrixGroup.pop"]}
{"id": "C17", "title": "A refused edit leaves the group as it was", "statement": "When append, insert, pop or item assignment raises, the group still has its previous elements and matrix.", "quantifier": "all groups, all edits, all failures", "why_tests_cant": "Failure atomicity over all states.", "anchors": ["raytracing/matrixgroup.py:MatrixGroup.append", "raytracing/matrixgroup.py:MatrixGroup.insert", "raytracing/matrixgroup.py:MatrixGroup.pop", "raytracing/matrixgroup.py:MatrixGroup.__setitem__"]}
{"id": "C18", "title": "transferMatrix(upTo=z) is the system truncated at z", "statement": "For 0 <= z <= L it has length z and, for a system made of spaces, thin elements and thick lenses, it maps a ray to the ray found at z on its path; for z >= L it is the full matrix; it raises TypeError exactly when z falls strictly inside an element that cannot be cut.", "quantifier": "all (nested) groups and all z", "why_tests_cant": "Piecewise function over all positions and all trees.", "anchors": ["raytracing/matrix.py:Matrix.transferMatrix", "raytracing/matrix.py:Space.transferMatrix", "raytracing/matrix.py:ThickLens.transferMatrix", "raytracing/matrixgroup.py:MatrixGroup.transferMatrix"]}
{"id": "C19", "title": "The optical invariant is the same at every position", "statement": "opticalInvariant(r1, r2, z) has the same value for all z in the system.", "quantifier": "all systems of cuttable elements, all pairs of rays, all positions", "why_tests_cant": "A conservation law over a continuum of positions and systems.", "anchors": ["raytracing/matrix.py:Matrix.opticalInvariant"]}
{"id": "C20", "title": "forwardConjugate gives the image plane", "statement": "forwardConjugate() returns (d, M') such that light leaving any object point, after the system and a distance d, is at a height that does not depend on its angle and equals magnification*y; it returns (inf, None) exactly when D = 0.", "quantifier": "all systems, all object heights and angles", "why_tests_cant": "For-all over rays and systems.", "anchors": ["raytracing/matrix.py:Matrix.forwardConjugate", "raytracing/matrix.py:Matrix.magnification", "raytracing/matrix.py:Matrix.isImaging"]}
{"id": "C21", "title": "backwardConjugate gives the object plane", "statement": "backwardConjugate() returns (d, M') such that light leaving any point at a distance d in front of the system, in the medium in front of it, reaches its end at a height that does not depend on its angle and M' is the matrix from that plane.", "quantifier": "all systems (any front index), all rays", "why_tests_cant": "For-all over rays and systems.", "anchors": ["raytracing/matrix.py:Matrix.backwardConjugate"]}
{"id": "C22", "title": "Transverse and angular magnification", "statement": "For an imaging system the two magnifications reported multiply to frontIndex/backIndex, the image of height y is at magnification*y, and a non-imaging system reports None.", "quantifier": "all systems", "why_tests_cant": "For-all over systems.", "anchors": ["raytracing/matrix.py:Matrix.magnification"]}
{"id": "C23", "title": "The reported focus positions are the foci", "statement": "For a system with power, every ray entering parallel to the axis crosses the axis at the reported back focus, and every ray coming from the reported front focus leaves parallel to the axis. The reported back focal length of a thin lens of focal length f is f.", "quantifier": "all systems with optical power, all ray heights/angles", "why_tests_cant": "For-all over rays and systems.", "anchors": ["raytracing/matrix.py:Matrix.focusPositions", "raytracing/matrix.py:Matrix.effectiveFocalLengths", "raytracing/matrix.py:Matrix.hasPower"]}
{"id": "C24", "title": "The reported principal planes are conjugate with unit magnification", "statement": "The matrix from the front principal plane to the back principal plane images with transverse magnification 1, and the two focal lengths measured from them are in the ratio of the indices.", "quantifier": "all systems with optical power", "why_tests_cant": "For-all over systems.", "anchors": ["raytracing/matrix.py:Matrix.principalPlanePositions", "raytracing/matrix.py:Matrix.effectiveFocalLengths"]}
{"id": "C25", "title": "Back and front focal lengths are distances from the vertices to the foci", "statement": "backFocalLength() is the distance from the last vertex to the back focus and frontFocalLength() the distance from the front focus to the first vertex; both are None exactly when the system has no power or no vertex.", "quantifier": "all systems", "why_tests_cant": "For-all over systems.", "anchors": ["raytracing/matrix.py:Matrix.backFocalLength", "raytracing/matrix.py:Matrix.frontFocalLength"]}
{"id": "C26", "title": "Flipping twice restores the element", "statement": "flipOrientation() applied twice to any element or group gives back the same optical description (ABCD, length, vertices, indices, element order, orientation flag).", "quantifier": "all elements and nested groups", "why_tests_cant": "Involution over all trees.", "anchors": ["raytracing/matrix.py:Matrix.flipOrientation", "raytracing/matrix.py:DielectricInterface.flipOrientation", "raytracing/matrix.py:ThickLens.flipOrientation", "raytracing/matrix.py:CurvedMirror.flipOrientation", "raytracing/matrixgroup.py:MatrixGroup.flipOrientation"]}
{"id": "C27", "title": "A flipped system runs light backwards", "statement": "If a system sends (y, theta) to (y', theta') then the flipped system sends (y', -theta') to (y, -theta).", "quantifier": "all (nested) groups of lenses, spaces, interfaces, slabs, thick lenses and apertures, all rays", "why_tests_cant": "A reversibility law over all systems and rays.", "anchors": ["raytracing/matrixgroup.py:MatrixGroup.flipOrientation", "raytracing/matrix.py:Matrix.flipOrientation"]}
{"id": "C28", "title": "Flipping exchanges front and back focal lengths", "statement": "After flipOrientation(), backFocalLength() is the previous frontFocalLength() and conversely.", "quantifier": "all elements and groups with power and vertices", "why_tests_cant": "For-all over systems.", "anchors": ["raytracing/matrix.py:Matrix.flipOrientation", "raytracing/matrix.py:ThickLens.flipOrientation", "raytracing/matrix.py:Matrix.backFocalLength"]}
{"id": "C29", "title": "A thick lens is two surfaces and a thickness", "statement": "ThickLens(n,R1,R2,t) (and DielectricSlab) has the ABCD matrix, length and indices of DielectricInterface(1,n,R1), Space(t,n), DielectricInterface(n,1,R2) in sequence, also after flipping, and cutting it at z gives the first surface followed by z of glass.", "quantifier": "all indices, radii (also infinite) and thicknesses", "why_tests_cant": "An identity of rational functions over all parameters.", "anchors": ["raytracing/matrix.py:ThickLens.__init__", "raytracing/matrix.py:ThickLens.transferMatrix", "raytracing/matrix.py:DielectricSlab"]}
{"id": "C30", "title": "The aperture stop is the element that limits the on-axis cone", "statement": "apertureStop() is the position and diameter of an aperture such that, from the axial object point, every ray that clears that aperture clears all of them and a ray that does not clear it is blocked.", "quantifier": "all paths, all on-axis rays", "why_tests_cant": "For-all over paths and angles.", "anchors": ["raytracing/imagingpath.py:ImagingPath.apertureStop"]}
{"id": "C31", "title": "Chief and marginal rays meet the stop at its centre and edges", "statement": "chiefRay(y) starts at height y and crosses the axis at the aperture stop; marginalRays(y) start at y and reach the stop at plus and minus half its diameter; the first has the larger angle. They are None exactly when there is no stop or the stop is conjugate to the object.", "quantifier": "all paths, all object heights", "why_tests_cant": "For-all over paths and heights.", "anchors": ["raytracing/imagingpath.py:ImagingPath.chiefRay", "raytracing/imagingpath.py:ImagingPath.marginalRays", "raytracing/imagingpath.py:ImagingPath.axialRay"]}
{"id": "C32", "title": "The entrance pupil is the image of the stop in object space", "statement": "A ray of the object space goes through a point of the stop iff it is aimed at the corresponding point of the entrance pupil: reported position and diameter are those of the stop seen through the elements in front of it.", "quantifier": "all paths with a stop, all rays", "why_tests_cant": "For-all over paths and rays.", "anchors": ["raytracing/imagingpath.py:ImagingPath.entrancePupil"]}
{"id": "C33", "title": "The field of view and field stop searches terminate", "statement": "fieldStop(), fieldOfView() and the methods that depend on them return for every path.", "quantifier": "all paths and all settings of precision and maxHeight", "why_tests_cant": "Termination over all inputs; a test that hangs is the only witness a test suite could produce.", "anchors": ["raytracing/imagingpath.py:ImagingPath.fieldStop", "raytracing/imagingpath.py:ImagingPath.halfFieldOfView"]}
{"id": "C34", "title": "The field of view is accurate to the requested precision", "statement": "The half field of view returned is a height whose chief ray is not blocked, and the chief ray of any height more than a small multiple of the precision above it is blocked.", "quantifier": "all paths with a field stop, all precisions", "why_tests_cant": "For-all over paths; convergence of a search.", "anchors": ["raytracing/imagingpath.py:ImagingPath.halfFieldOfView", "raytracing/imagingpath.py:ImagingPath.fieldOfView"]}
{"id": "C35", "title": "Derived imaging quantities are consistent", "statement": "axialRay is the upper marginal ray of the axial point, fieldOfView is twice halfFieldOfView, imageSize is |magnification| times field of view (or the object height), fNumber and NA follow from the axial ray, objectHeight refuses negative values and is otherwise what was set.", "quantifier": "all paths", "why_tests_cant": "Relations among queries over all paths.", "anchors": ["raytracing/imagingpath.py:ImagingPath.fieldOfView", "raytracing/imagingpath.py:ImagingPath.imageSize", "raytracing/imagingpath.py:ImagingPath.objectHeight"]}
{"id": "C36", "title": "intermediateConjugates lists image planes of the front edge", "statement": "Every (z, m) returned is the position and magnification of a plane conjugate to the entrance through the first elements of the path, no two listed planes coincide, and every such plane is listed (except one at z = 0).", "quantifier": "all nested groups", "why_tests_cant": "For-all over groups, soundness and completeness.", "anchors": ["raytracing/matrixgroup.py:MatrixGroup.intermediateConjugates"]}
{"id": "C37", "title": "Aperture queries reflect the elements", "statement": "hasFiniteApertureDiameter() is True iff some element, at any depth, has a finite diameter; largestDiameter is the largest finite diameter of the elements.", "quantifier": "all nested groups, all query histories", "why_tests_cant": "Induction over trees; purity over histories.", "anchors": ["raytracing/matrix.py:Matrix.hasFiniteApertureDiameter", "raytracing/matrix.py:Matrix.largestDiameter", "raytracing/matrix.py:Lens.largestDiameter", "raytracing/matrixgroup.py:MatrixGroup.largestDiameter"]}
{"id": "C38", "title": "Gaussian beams compose like matrices", "statement": "(M2*M1)*beam and M2*(M1*beam) have the same complex radius, position, index and wavelength.", "quantifier": "all systems, all complex radii for which the divisions are defined", "why_tests_cant": "A Mobius-action law over complex numbers.", "anchors": ["raytracing/matrix.py:Matrix.mul_beam"]}
{"id": "C39", "title": "A confined beam stays confined", "statement": "A physical beam (finite w) leaves any real system with positive determinant as a physical beam; its size is unchanged by thin elements and interfaces, also between different indices.", "quantifier": "all systems, all physical beams", "why_tests_cant": "For-all over systems and beams.", "anchors": ["raytracing/matrix.py:Matrix.mul_beam", "raytracing/gaussianbeam.py:GaussianBeam.isFinite", "raytracing/gaussianbeam.py:GaussianBeam.w"]}
{"id": "C40", "title": "Beam size and curvature round-trip through the complex radius", "statement": "GaussianBeam(w=w, R=R, n=n, wavelength=l) reports .w = w and .R = R.", "quantifier": "all positive w, n, wavelength and all non-zero or infinite R", "why_tests_cant": "Round-trip over a continuous domain.", "anchors": ["raytracing/gaussianbeam.py:GaussianBeam.__init__", "raytracing/gaussianbeam.py:GaussianBeam.w", "raytracing/gaussianbeam.py:GaussianBeam.R"]}
{"id": "C41", "title": "The waist is the smallest size of the beam", "statement": "Propagating a beam through its medium never gives a size below .wo, and exactly .wo at waistPosition.", "quantifier": "all physical beams, all distances, all indices", "why_tests_cant": "For-all over distances.", "anchors": ["raytracing/gaussianbeam.py:GaussianBeam.wo", "raytracing/gaussianbeam.py:GaussianBeam.waistPosition", "raytracing/gaussianbeam.py:GaussianBeam.w"]}
{"id": "C42", "title": "Beams track their medium and clipping", "statement": "element*beam raises RuntimeError iff the beam is not in the element's front medium; otherwise the output beam is in the back medium. A beam is marked clipped once its size at the exit of an element exceeds half the aperture, and stays marked afterwards.", "quantifier": "all chains of elements, all beams", "why_tests_cant": "Invariant over chains.", "anchors": ["raytracing/matrix.py:Matrix.mul_beam"]}
{"id": "C43", "title": "Cavity eigenmodes reproduce themselves after a round trip", "statement": "Each complex radius returned by eigenModes() is left unchanged by the cavity matrix, and laserModes() returns exactly those that are confined.", "quantifier": "all cavities with power", "why_tests_cant": "For-all over cavity matrices.", "anchors": ["raytracing/lasercavity.py:LaserCavity.eigenModes", "raytracing/lasercavity.py:LaserCavity.laserModes"]}
{"id": "C44", "title": "isStable is the usual stability criterion", "statement": "isStable is True iff |A + D| < 2 for the round-trip matrix (of unit determinant), and then there is exactly one laser mode.", "quantifier": "all cavities", "why_tests_cant": "An equivalence over all matrices.", "anchors": ["raytracing/lasercavity.py:LaserCavity.isStable"]}
{"id": "C45", "title": "Ray fans are complete, evenly spaced and bounded", "statement": "Ray.fan(y, min, max, N) has N rays at height y with evenly spaced angles from min to max inclusive; fanGroup has M*N rays covering the grid; N or M below 1 is refused with ValueError.", "quantifier": "all N, M, all bounds", "why_tests_cant": "All list sizes.", "anchors": ["raytracing/ray.py:Ray.fan", "raytracing/ray.py:Ray.fanGroup"]}
{"id": "C46", "title": "Uniform ray sources cover their grid", "statement": "UniformRays has M*N rays, one for each of M evenly spaced heights and N evenly spaced angles, end points included, all within the requested bounds.", "quantifier": "all M, N and bounds", "why_tests_cant": "All list sizes.", "anchors": ["raytracing/rays.py:UniformRays", "raytracing/rays.py:ObjectRays"]}
{"id": "C47", "title": "Ray.at and Ray.along follow the traced path", "statement": "ray.at(z) is on the straight line through the ray with the same angle and blocked state; along(trace, z) is at position z on the traced path.", "quantifier": "all rays, all traces, all z", "why_tests_cant": "For-all over traces.", "anchors": ["raytracing/ray.py:Ray.at", "raytracing/ray.py:Ray.along"]}
{"id": "C48", "title": "Statistics of a ray collection reflect its current rays", "statement": "yValues, thetaValues and the histograms are those of the rays currently in the collection, whatever was appended, loaded or queried before.", "quantifier": "all histories of append/load/query", "why_tests_cant": "Cache coherence over histories.", "anchors": ["raytracing/rays.py:Rays.yValues", "raytracing/rays.py:Rays.rayCountHistogram", "raytracing/rays.py:Rays.append", "raytracing/rays.py:Rays.load"]}
{"id": "C49", "title": "Iterating over a collection visits every element once, independently of other iterations", "statement": "A for loop over a Rays or a MatrixGroup visits each element once in order, whatever the loop body does with the collection short of modifying it.", "quantifier": "all collections, all interleavings of iterations and queries", "why_tests_cant": "Interleavings of iterator states.", "anchors": ["raytracing/rays.py:Rays.__iter__", "raytracing/rays.py:Rays.__next__", "raytracing/matrixgroup.py:MatrixGroup.__iter__", "raytracing/matrixgroup.py:MatrixGroup.__next__"]}
{"id": "C50", "title": "Random ray sources are lazy but stable", "statement": "For a random source of maxCount rays: len is maxCount, index i in [-maxCount, maxCount) gives a ray and the same index always gives the same ray, other indices raise IndexError, iteration gives exactly maxCount rays, and all rays are within the requested bounds.", "quantifier": "all access sequences, all random streams", "why_tests_cant": "Histories and random streams.", "anchors": ["raytracing/rays.py:RandomRays", "raytracing/rays.py:RandomUniformRays"]}
{"id": "C51", "title": "A Rays collection keeps all the rays it is given", "statement": "Rays(rays=it) contains exactly the rays produced by the iterable it, and refuses (TypeError) an iterable containing something else.", "quantifier": "all iterables, including one-shot iterators", "why_tests_cant": "Ranges over iterables with state.", "anchors": ["raytracing/rays.py:Rays.__init__"]}
{"id": "C52", "title": "Saving then loading restores the content", "statement": "Loading a file saved from a collection (or a group) gives a collection with the same rays (or elements and matrix), and append=True adds them after the current ones.", "quantifier": "all collections and groups", "why_tests_cant": "Round-trip over all contents.", "anchors": ["raytracing/rays.py:Rays.save", "raytracing/rays.py:Rays.load", "raytracing/matrixgroup.py:MatrixGroup.save", "raytracing/matrixgroup.py:MatrixGroup.load"]}
{"id": "C53", "title": "Preferences are persistent and survive crashes and other programs", "statement": "A preference that was set is read back with its last value, by this or a later program; reading preferences never changes what is stored, even if the program is stopped in the middle.", "quantifier": "all sequences of operations by several programs, all crash points", "why_tests_cant": "Crash points and interleavings.", "anchors": ["raytracing/preferences.py:Preferences"]}
{"id": "C54", "title": "A Zemax lens is read as a lens in air", "statement": "matrixGroup() of a reader is made of the surfaces from the first glass up to and including the first return to air, alternating interface and thickness; its indices chain from air to air and its length is the sum of the glass thicknesses.", "quantifier": "all lists of surfaces", "why_tests_cant": "All surface lists.", "anchors": ["raytracing/zemax.py:ZMXReader.matrixGroup", "raytracing/zemax.py:ZMXReader.lensSurfaces"]}
{"id": "C55", "title": "Zemax files are parsed totally", "statement": "Every line of the form KEY value... is parsed; surfaces are numbered consecutively from 0; the unit factor is 25.4 for inches and 1 otherwise, also when no unit is given; design wavelengths are those listed without the default padding.", "quantifier": "all file contents", "why_tests_cant": "All texts.", "anchors": ["raytracing/zemax.py:ZMXReader.value", "raytracing/zemax.py:ZMXReader.surfaceInfo", "raytracing/zemax.py:ZMXReader.designWavelengths"]}
{"id": "C56", "title": "Glass indices are physical on the accepted range", "statement": "Material.n(wavelength) raises ValueError outside the accepted wavelength range and returns a real index larger than 1 inside.", "quantifier": "all materials, all wavelengths", "why_tests_cant": "Continuous domain.", "anchors": ["raytracing/materials.py:Material"]}
{"id": "C57", "title": "2f and 4f systems", "statement": "System4f(f1,f2) is imaging with magnification -f2/f1 and length 2(f1+f2); System2f(f) exchanges height and angle (A = D = 0) with length 2f.", "quantifier": "all focal lengths", "why_tests_cant": "All parameters.", "anchors": ["raytracing/components.py:System4f", "raytracing/components.py:System2f"]}
{"id": "C58", "title": "An Objective behaves as its datasheet", "statement": "Objective(f,NA,focusToFocusLength,backAperture,workingDistance) goes from back focus to front focus (A = D = 0), has effective focal length f, the stated length, and its working distance as distance from the last vertex to the focus; flipping exchanges the two sides.", "quantifier": "all parameters accepted", "why_tests_cant": "All parameters.", "anchors": ["raytracing/specialtylenses.py:Objective"]}
{"id": "C59", "title": "Spaces computed from an element lead to the announced plane", "statement": "ToFocus(e) after e leads to the focus, ToConjugate(e) after e leads to the image plane, and e.fromFocusToFocus() goes from front focus to back focus (A = D = 0).", "quantifier": "all elements for which the constructor succeeds", "why_tests_cant": "All elements.", "anchors": ["raytracing/matrix.py:ToConjugate", "raytracing/matrix.py:ToFocus", "raytracing/matrix.py:Matrix.fromFocusToFocus"]}
{"id": "C60", "title": "An axicon deviates rays towards the axis by a constant angle", "statement": "An axicon keeps the height, changes the angle by (n-1)*alpha towards the axis, leaves axial rays alone, leaves blocked rays alone, and refuses Gaussian beams.", "quantifier": "all rays, all axicons", "why_tests_cant": "For-all over rays, aliasing.", "anchors": ["raytracing/axicon.py:Axicon.mul_ray", "raytracing/axicon.py:Axicon.mul_beam"]}
{"id": "C61", "title": "Comparing two groups does not depend on what was traced", "statement": "If two groups compare equal, they still compare equal after tracing rays through one of them.", "quantifier": "all groups, all trace histories", "why_tests_cant": "Histories.", "anchors": ["raytracing/matrix.py:Matrix.__eq__", "raytracing/matrixgroup.py:MatrixGroup.trace"]}
{"id": "C62", "title": "Displaced labels are apart, inside the display, and return to their position", "statement": "When labels overlap, fixLabelOverlaps moves them until they are side by side; labels that do not overlap are not moved. After any sequence of label translations, resetPosition() puts the label back exactly where it was, and a translated label is kept inside the display when it fits.", "quantifier": "all sequences of translations, all positions and sizes of labels, any number of iterations", "why_tests_cant": "Histories.", "anchors": ["raytracing/graphicComponents.py:Label", "raytracing/figure.py:MplFigure.translateLabel", "raytracing/figure.py:MplFigure.fixLabelOverlaps"]}
{"id": "C63", "title": "The plotted ray stops where the ray is blocked", "statement": "The points plotted for a traced ray are the successive (z, y) of the trace up to the first blocked ray, and with blocked rays removed nothing is plotted for a ray that does not get through.", "quantifier": "all traces", "why_tests_cant": "All lists.", "anchors": ["raytracing/figure.py:Figure.rearrangeRayTraceForPlotting"]}
{"id": "C64", "title": "subPath is the part of the path after (or before) a position", "statement": "subPath(zStart) contains the elements located after zStart, cutting a Space if needed, so that its length is L - zStart; backwards=True gives the elements before zStart in reverse order, with length zStart.", "quantifier": "all paths, all positions", "why_tests_cant": "All paths and positions.", "anchors": ["raytracing/imagingpath.py:ImagingPath.subPath"]}
{"id": "C65", "title": "Tolerant comparisons", "statement": "isAlmostZero and isNotZero are opposite of each other; areAbsolutelyAlmostEqual and areRelativelyAlmostEqual are symmetric and reflexive.", "quantifier": "all numbers and tolerances", "why_tests_cant": "Continuous domain with boundaries.", "anchors": ["raytracing/utils.py"]}
{"id": "C66", "title": "Histograms count every ray exactly once", "statement": "With default bounds the counts of rayCountHistogram add up to the number of rays in the collection; with given bounds, to the number of rays between them (included); there are as many counts and positions as bins.", "quantifier": "all non-empty collections, all numbers of bins", "why_tests_cant": "All sizes and all values, including values on the edges of bins.", "anchors": ["raytracing/rays.py:Rays.rayCountHistogram", "raytracing/rays.py:Rays.rayAnglesHistogram"]}
{"id": "C67", "title": "Every material is found by its name", "statement": "Material.findByName of the printed name of a material, whatever its case, and with or without its hyphens, returns this material; a name that is not one of a material is refused with ValueError; this includes the materials that the user implements as subclasses of Material, as the text of that error asks.", "quantifier": "all strings, all materials of the module, and any list of materials defined by the user in other modules", "why_tests_cant": "All strings.", "anchors": ["raytracing/materials.py:Material.findByName"]}
{"id": "C68", "title": "A singlet or doublet is the lens its data describe", "statement": "`SingletLens` and `AchromatDoubletLens`, built from radii, thicknesses, indices (or materials and a wavelength) and a diameter, have the ray matrix, length, vertices and indices of the stack of surfaces and glasses described, in that order, from air to air; a warning is issued exactly when the effective focal length or the back focal length is off by more than 1 % or the thickness at the edge by more than 5 %; data that describe a lens are accepted.", "quantifier": "all radii (finite or infinite), thicknesses, indices, diameters, announced focal lengths and edge thicknesses, materials and wavelengths", "why_tests_cant": "The tests build the lenses of catalogues. Weak lenses, flat surfaces, mixed ways of giving the glasses, and the equivalence between warnings and errors of the data range over all real parameters.", "anchors": ["raytracing/specialtylenses.py:CompoundLens.__init__", "raytracing/specialtylenses.py:AchromatDoubletLens.__init__", "raytracing/specialtylenses.py:SingletLens.__init__"]}
{"id": "C69", "title": "The drawing of a lens is its shape, and that of a flipped element its mirror image", "statement": "The outline drawn for an element passes through the vertices of its surfaces and ends on the spheres (or planes, or cones) they belong to; after `flipOrientation()` the outline drawn is the mirror image of the one drawn before.", "quantifier": "all elements with surfaces (thick lenses, slabs, interfaces, curved mirrors, axicons, compound lenses, singlets, doublets), any number of surfaces, all radii, thicknesses, indices and heights", "why_tests_cant": "The figures are not compared by the tests; the property relates two drawings for every list of surfaces.", "anchors": ["raytracing/matrix.py:Matrix.surfaces", "raytracing/matrix.py:Matrix.flipOrientation", "raytracing/specialtylenses.py:CompoundLens.forwardSurfaces", "raytracing/graphicComponents.py:SurfacePair", "raytracing/graphics.py:SurfacesGraphic", "raytracing/interface.py"]}
{"id": "C70", "title": "What is drawn for a Gaussian beam is the beam", "statement": "Displaying a laser path draws, above and below the axis, the size of the beam along the path: the beams of its trace, and in each free space the beam at intermediate positions, with the size it has there. Drawing succeeds whenever the beam can be traced, and the arrows mark the waists that are in the path.", "quantifier": "all paths built by programs (any nesting), all beams with finite attributes, any number of divisions of the spaces", "why_tests_cant": "The figures are not compared by the tests; the property relates the drawing to the trace of every beam in every path.", "anchors": ["raytracing/figure.py:Figure.beamTraceLines", "raytracing/figure.py:Figure.beamWaistAnnotations", "raytracing/figure.py:Figure.rearrangeBeamTraceForPlotting"]}
{"id": "C71", "title": "The efficiency report counts what happens to the source rays", "statement": "`reportEfficiency` counts as transmitted exactly the source rays that get through the path: the collection efficiency is the percentage of the source rays that get through, the relative efficiency their percentage among the rays that reach the stop inside of it, and the loss the rest. Each ray is plotted at its coefficients in terms of the axial and principal rays.", "quantifier": "all imaging paths with a stop and a field stop, all sources (lists of rays), object diameters and half angles", "why_tests_cant": "The method is excluded from the coverage (prints, plots and draws random rays); the property is about all paths and all sources.", "anchors": ["raytracing/imagingpath.py:ImagingPath.reportEfficiency", "raytracing/imagingpath.py:ImagingPath.lagrangeInvariant", "raytracing/matrix.py:Matrix.opticalInvariant"]}
{"id": "C72", "title": "Display settings hold for the following displays, and displaying leaves the caller's data alone", "statement": "The parameters given to `design(...)` and the height given to the object are those of the following displays; displaying a path again shows the same thing; a list of sources given by the caller is not modified.", "quantifier": "all paths, all design arguments, object heights, sources, arguments of display, and sequences of displays", "why_tests_cant": "`display` opens windows and is excluded from the coverage; the property is about sequences of settings and displays of any length.", "anchors": ["raytracing/imagingpath.py:ImagingPath.display", "raytracing/imagingpath.py:ImagingPath.displayWithObject", "raytracing/imagingpath.py:ImagingPath.objectHeight", "raytracing/figure.py:Figure.design", "raytracing/figure.py:Figure.applyDesign", "raytracing/figure.py:Figure.display"]}
{"id": "C73", "title": "One line per visible ray, coloured by its starting height", "statement": "For a source, one line is drawn for each ray with something to show, in order, through the points of its trace shifted to the position of the source; the colours follow the starting height, from the first colour for the lowest to the last for the highest. Any non-empty list of colours is accepted.", "quantifier": "all lists of traces, all lists of colours, all roundings to a nearest integer", "why_tests_cant": "The figures are not compared by the tests; the property ranges over all lists of rays and colours, and the failing case needs one colour and rays from the axis.", "anchors": ["raytracing/figure.py:Figure.rayTraceLines"]}
{"id": "C74", "title": "The images of each object of a figure are drawn where its rays meet", "statement": "When images are shown, a figure shows for each of its objects the object and its images: each image drawn is a plane where all rays of each point of the object meet, going through the elements after the object or back through those before it, with the diameter of the object times the magnification; each such plane is drawn; this holds for any number of objects, anywhere in the path, shown or not.", "quantifier": "all paths built by programs, all objects (diameters and positions), all lists of objects, all display flags", "why_tests_cant": "The figures are not compared by the tests; the property relates the graphics to all rays of every object at every position of every path.", "anchors": ["raytracing/figure.py:Figure.setGraphicsFromRaysList", "raytracing/figure.py:Figure.graphicsOfConjugatePlanes", "raytracing/imagingpath.py:ImagingPath.subPath", "raytracing/matrixgroup.py:MatrixGroup.intermediateConjugates"]}
{"id": "C75", "title": "The vertical range of a figure contains what is drawn", "statement": "The display range of an imaging path is the smallest in which all the elements, the object and its images inside of the path fit. That of a laser path contains the elements; without any element of finite size it is three times the size of the input beam, or 100.", "quantifier": "all paths built by programs, all finite half heights of the graphics, all object heights, all beams", "why_tests_cant": "A statement about the maximum of lists of any length; the figures are not compared by the tests.", "anchors": ["raytracing/figure.py:Figure.displayRange", "raytracing/figure.py:Figure.imagingDisplayRange", "raytracing/figure.py:Figure.laserDisplayRange"]}
{"id": "C76", "title": "The focal points of the elements are marked, and nothing else", "statement": "With `showPointsOfInterest`, the figure has on its axis a mark at each focal point of each focusing element of the path, with a text that says which focal point of which element it is; marks at the same place are merged into one with the texts separated by commas; there are no other marks.", "quantifier": "all paths built by programs, any number of elements, any formatting of the positions to 3 decimals", "why_tests_cant": "The figures are not compared by the tests; the property ranges over lists of elements of any length and coincidences of their foci.", "anchors": ["raytracing/figure.py:Figure.pointsOfInterest", "raytracing/matrix.py:Lens.pointsOfInterest", "raytracing/matrix.py:CurvedMirror.pointsOfInterest", "raytracing/matrix.py:ThickLens.pointsOfInterest", "raytracing/specialtylenses.py:CompoundLens.pointsOfInterest"]}
{"id": "C77", "title": "Elements are drawn where they are", "statement": "In the figure of a path, each element that is not a space is drawn from the sum of the lengths of what is before it to the end of its length, the elements of a group one by one; nothing else is drawn as an element. A lens without a diameter is drawn at least as high as the rays at it.", "quantifier": "all paths built by programs, any number of elements and groups, all lists of rays shown", "why_tests_cant": "The figures are not compared by the tests; positions accumulate over lists of elements of any length.", "anchors": ["raytracing/figure.py:Figure.graphicsOfElements", "raytracing/figure.py:Figure.maxRayHeight", "raytracing/graphics.py:GraphicOf", "raytracing/graphics.py:MatrixGraphic", "raytracing/graphics.py:LensGraphic", "raytracing/graphics.py:SurfacesGraphic", "raytracing/graphics.py:ApertureGraphic", "raytracing/graphics.py:MatrixGroupGraphic", "raytracing/graphicComponents.py:Rectangle", "raytracing/graphicComponents.py:ApertureBars"]}
{"id": "C78", "title": "The lengths written in the figure of an element are those of its arrows", "statement": "The figure of one element with power shows its two foci and its two principal planes; the effective, front and back focal lengths written on its four arrows are the lengths of the arrows, positive when the focus is on its usual side, and are written in the middle of the arrows. Every element can be displayed.", "quantifier": "all elements built by programs with |C| above the precision limit, all media and vertices", "why_tests_cant": "The figures are not compared by the tests; the equalities are between quantities computed by different methods, for all real parameters.", "anchors": ["raytracing/matrix.py:Matrix.display", "raytracing/graphics.py:MatrixGraphic.createFigure", "raytracing/graphics.py:MatrixGraphic.addPrincipalPlanes", "raytracing/graphics.py:MatrixGraphic.cardinalPoints", "raytracing/graphics.py:MatrixGraphic.verticesPoints"]}
{"id": "C79", "title": "Focal shifts are those of the lens at each wavelength", "statement": "`focalShifts` returns the wavelengths in nanometers and, for each one and in the same order, the focal length of the lens with the indices of its materials at that wavelength, minus its design focal length; by default for 100 wavelengths equally spaced from 0.4 to 0.8 microns.", "quantifier": "all singlets and doublets (radii, thicknesses, materials as arbitrary functions of the wavelength), all lists of wavelengths of any length, given as arrays or lists", "why_tests_cant": "Not called by any test; ranges over all real parameters and index functions.", "anchors": ["raytracing/specialtylenses.py:CompoundLens.focalShifts", "raytracing/specialtylenses.py:SingletLens.__init__", "raytracing/specialtylenses.py:AchromatDoubletLens.__init__"]}
{"id": "C80", "title": "The search by index returns exactly the materials of that index", "statement": "`Material.findByIndex(n, wavelength, tolerance)` returns once each material whose index at the wavelength differs from n by less than the tolerance, with its index and Abbe number, and no other; it raises ValueError for a wavelength that is not accepted.", "quantifier": "all real indices, tolerances and wavelengths, any list of materials defined by the user", "why_tests_cant": "The tests call it at one wavelength with two indices; the property is for every real wavelength, index and tolerance, with formulas that have poles.", "anchors": ["raytracing/materials.py:Material.findByIndex", "raytracing/materials.py:Material.all"]}
{"id": "C81", "title": "All the rays given to a figure are drawn", "statement": "The lines of a figure are those of all the rays given to it, each once: objects and lamps at any position, and any other rays, in any number and order.", "quantifier": "all lists of rays, any number, any classes, positions and traces, any formatting of the titles", "why_tests_cant": "The figures are not compared by the tests; lists of any length, coincidences of formatted titles.", "anchors": ["raytracing/figure.py:Figure.setLinesFromRaysList", "raytracing/figure.py:Figure.lines"]}
{"id": "C82", "title": "A check box shows and hides its group, and nothing else", "statement": "When a figure appears its groups are seen according to the design (field of view, objects); there is a check box per group with its state; after any sequence of clicks, each group is seen if and only if its state was toggled that many times from its first state; a hidden group leaves nothing on the screen.", "quantifier": "all figures (any groups, graphics and lines), all flags, all sequences of clicks", "why_tests_cant": "Interactive; sequences of clicks of any length are an induction.", "anchors": ["raytracing/figure.py:Figure.display", "raytracing/figure.py:Figure.setGroupVisibility", "raytracing/figure.py:Figure.visibility", "raytracing/figure.py:MplFigure.initVisibilityCheckBoxes", "raytracing/figure.py:MplFigure.onCheckBoxCallback", "raytracing/graphics.py:Graphic.isVisible", "raytracing/graphicComponents.py:Component.isVisible"]}
{"id": "C83", "title": "Outlines are closed lines, arrows end at the heights they stand for, labels are above the middle", "statement": "The outline of a lens, a box or an arrow is one closed line, drawn without lifting the pen. The arrow of an object or image of diameter d starts on the axis side at -d/2 and its point is at d/2, so every ray leaving the point of the object passes through the point of each image. The label of a symmetric graphic is above its middle, 30 % higher than its highest point.", "quantifier": "all lists of curves and points, all sizes, surfaces and diameters, any number of surfaces, paths and images", "why_tests_cant": "The tests do not look at the drawing; any number of surfaces, any sizes and signs.", "anchors": ["raytracing/graphicComponents.py:Component.patch", "raytracing/graphicComponents.py:Component.linearBezierCurvesFrom", "raytracing/graphicComponents.py:Arrow", "raytracing/graphicComponents.py:Rectangle", "raytracing/graphicComponents.py:SurfacePair", "raytracing/graphics.py:Graphic.halfHeight", "raytracing/graphics.py:Graphic.centroid", "raytracing/graphics.py:ObjectGraphic"]}
{"id": "C84", "title": "An objective is drawn with its foci, its cone of light and its apertures", "statement": "An objective, flipped or not, is marked at its two foci, its outline is a closed line symmetric about the axis that goes from the height of the back aperture to the height of its front lens, and the bars of its apertures are at their heights.", "quantifier": "all focal lengths, numerical apertures, lengths, working distances and back apertures, both orientations", "why_tests_cant": "The tests do not look at the drawing; all parameters and orientations.", "anchors": ["raytracing/graphics.py:ObjectiveGraphic", "raytracing/specialtylenses.py:Objective.pointsOfInterest", "raytracing/specialtylenses.py:Objective.flipOrientation"]}
{"id": "C85", "title": "A figure shows the stops, the pupil, and the principal and axial rays where they are", "statement": "In the figure of an imaging path, AS and FS are written at the aperture stop and at the field stop, the entrance pupil is drawn so that a ray enters the stop exactly when it is aimed inside the pupil, the principal ray starts at the edge of the field and crosses the axis at the stop, the axial ray touches the edge of the stop, and the arrows of the object and of its images end on the principal ray. Without stop none of these appear.", "quantifier": "all paths built with the API whose stop is finite and visible, any number and kind of elements, all ranges", "why_tests_cant": "The tests do not look at the drawing; any number of elements and images.", "anchors": ["raytracing/figure.py:Figure.stopsLabels", "raytracing/figure.py:Figure.graphicOfEntrancePupil", "raytracing/figure.py:Figure.setPrincipalAndAxialRays", "raytracing/figure.py:MplFigure.scalingOfGraphic"]}
{"id": "C86", "title": "The mode decides which warnings are printed", "statement": "After beginnerMode(), expertMode() or silentMode() the last mode set decides what happens to the warnings of the module, whatever was set before: silent mode prints none, expert mode does not print hints for beginners and prints each note once, beginner mode prints every hint each time.", "quantifier": "all sequences of modes set before, all sequences of warnings of any texts, categories and places", "why_tests_cant": "Sequences of modes and warnings have any length; the order of the filters matters.", "anchors": ["raytracing/utils.py:beginnerMode", "raytracing/utils.py:expertMode", "raytracing/utils.py:silentMode", "raytracing/utils.py:BeginnerHint", "raytracing/utils.py:ExpertNote"]}
{"id": "C87", "title": "Importing the module never fails, starts in the saved mode, and checks the version once a day", "statement": "Any sequence of imports succeeds; each one starts in the mode that was last saved (beginner for a new user); the version is checked if more than a day has passed since the last check, and the environment variable RAYTRACING_EXPERT acts on the imports where it is set.", "quantifier": "all sequences of imports at any times, all saved preferences, with or without the environment variable", "why_tests_cant": "Any number of imports at any times of day; one time in a million is special.", "anchors": ["raytracing/__init__.py:lastCheckMoreThanADay", "raytracing/utils.py:checkLatestVersion", "raytracing/utils.py:beginnerMode", "raytracing/utils.py:expertMode"]}
{"id": "C88", "title": "CompoundLens.all() lists all the lenses", "statement": "The list of all lenses contains every class of lens that exists, at any depth of subclassing.", "quantifier": "all trees of classes", "why_tests_cant": "Trees of any depth and width, including the classes of users.", "anchors": ["raytracing/utils.py:allSubclasses", "raytracing/specialtylenses.py:CompoundLens.all"]}
{"id": "C89", "title": "The figure of a laser path or cavity shows the beams given, and only them", "statement": "Each display of a laser path shows the lines and waists of the beams given (or of the input beam), whatever was displayed before; a confined beam in the right medium can always be shown; a stable cavity shows its mode, an unstable one nothing with a hint.", "quantifier": "all paths built with the API, all lists of beams, all sequences of displays", "why_tests_cant": "Sequences of displays of any length, any number of beams and elements; display is excluded from the tests' coverage.", "anchors": ["raytracing/laserpath.py:LaserPath.display", "raytracing/lasercavity.py:LaserCavity.display", "raytracing/figure.py:Figure.displayGaussianBeam", "raytracing/figure.py:Figure.beamWaistAnnotations"]}
{"id": "C90", "title": "An element object can be held at one place or at several", "statement": "A program that makes, assembles, edits, flips and traces elements and puts each object at one place only sees what it would see if elements were values. An object that is at several places (twice in a path, in a slice, in a cavity completed with appendElementsInReverse) behaves as copies of it would.", "quantifier": "all programs of any length over single elements and nested groups, errors being caught; all paths with any sharing", "why_tests_cant": "Programs of any length, any nesting and any pattern of sharing; tests use fresh objects.", "anchors": ["raytracing/matrixgroup.py:MatrixGroup.append", "raytracing/matrixgroup.py:MatrixGroup.flipOrientation", "raytracing/matrixgroup.py:MatrixGroup.__getitem__", "raytracing/matrixgroup.py:MatrixGroup.pop", "raytracing/matrixgroup.py:MatrixGroup.insert", "raytracing/matrixgroup.py:MatrixGroup.trace", "raytracing/lasercavity.py:LaserCavity.appendElementsInReverse"]}
{"id": "C91", "title": "The rays of an object inside a path are drawn both ways from the object", "statement": "For rays whose source is at a position z inside a path, display draws each ray from the source to the right through the elements after it, and to the left through the elements before it, met in reverse order and from behind. Each line goes through the places where the ray meets the elements, in order, up to the element that stops it (or is not drawn when stopped rays are removed). A source in the entrance plane gives one line per ray through the whole path.", "quantifier": "all paths of any number of elements, all positions of the source, all lists of rays, all apertures, with or without removal of blocked rays", "why_tests_cant": "Paths, positions and rays are unbounded; the figure is not inspected by tests, and the same ray objects are used in two sub-paths.", "anchors": ["raytracing/figure.py:Figure.rayTraceLines", "raytracing/figure.py:Figure.rearrangeRayTraceForPlotting", "raytracing/imagingpath.py:ImagingPath.subPath", "raytracing/matrix.py:Matrix.traceMany"]}
{"id": "C92", "title": "The lenses and objectives of the catalogues are those of their data sheets", "statement": "Every lens class of thorlabs.py and eo.py can be made without argument and, if it takes a wavelength, at any wavelength in the range of its glasses. The lens made has the surfaces, glasses, thicknesses and diameter of its data, with the indices of its materials at that wavelength; its focal lengths have the sign and, within 1 % at the wavelength of reference, the value announced; when not, creation warns. focalShifts gives the focal length at each wavelength minus the one announced. Every objective of olympus.py and nikon.py has the focal length, back aperture and working distance announced. A name denotes one lens.", "quantifier": "all the lens and objective classes of the catalogues, all wavelengths (a real interval), all arrays of wavelengths of any length", "why_tests_cant": "The wavelength is a real number and the focal length a function of it for each of the 342 classes; tests make a few lenses at the wavelength of reference.", "anchors": ["raytracing/thorlabs.py", "raytracing/eo.py", "raytracing/olympus.py", "raytracing/nikon.py", "raytracing/specialtylenses.py:AchromatDoubletLens.__init__", "raytracing/specialtylenses.py:SingletLens.__init__", "raytracing/specialtylenses.py:Objective.__init__", "raytracing/specialtylenses.py:CompoundLens.focalShifts"]}
{"id": "C93", "title": "Glasses disperse as their Abbe numbers say", "statement": "The index of every glass decreases with the wavelength. Its Abbe number is (n_d - 1)/(n_F - n_C) for its own indices, so that a glass of larger Abbe number disperses less; the focal length of the converging singlets of the catalogues increases with the wavelength.", "quantifier": "all glasses, all pairs of wavelengths from 0.28 to 7 micrometres (real numbers), all singlets of the catalogues", "why_tests_cant": "A statement about all pairs of real wavelengths for every formula; tests look at an index at one wavelength.", "anchors": ["raytracing/materials.py:Material.n", "raytracing/materials.py:Material.abbeNumber", "raytracing/materials.py:Material.Vd", "raytracing/thorlabs.py"]}
{"id": "C94", "title": "An objective lets through the cone of light it announces", "statement": "A ray (y, theta) traced through an Objective(f, NA, focusToFocusLength, backAperture, workingDistance) comes out blocked exactly when it enters outside the back aperture or is outside the cone of the NA at the working distance before the focus; otherwise it leaves at the front focal plane with the height f*theta and the angle -y/f. The flipped objective collects light from its focal plane by the same rule. So the light that comes to the focus, and the light collected from it, is the cone of the NA the objective announces, and all its announced field is seen.", "quantifier": "all parameters for which an objective can be made, all rays (height, angle, position), objectives as made or flipped; all objectives of the catalogues olympus and nikon", "why_tests_cant": "Tests trace a few rays through one objective; whether a ray is blocked depends on all parameters together, and which of two apertures limits the light is not visible from any one ray.", "anchors": ["raytracing/specialtylenses.py:Objective.__init__", "raytracing/specialtylenses.py:Objective.flipOrientation", "raytracing/matrix.py:Matrix.traceThrough", "raytracing/matrixgroup.py:MatrixGroup.trace", "raytracing/olympus.py", "raytracing/nikon.py:LWD16X"]}
{"id": "C95", "title": "In floats, rays are traced up to rounding errors, and blocked rays are the right ones", "statement": "Python computes with floats. A ray traced through a system by floating-point operations comes out with the height, angle and position of exact geometrical optics up to a relative error that grows with the number of roundings (of order 10^-16 for each), measured against the sum of the absolute values of the terms. A ray that clears every opening by more than this error is not blocked; a ray outside an opening by more than this error is blocked. Positions along the trace never decrease. Outside of ordinary magnitudes this stops being true: the parameters must be zero, infinite or between 2^-48 and 2^48 in absolute value, and no result may come near the largest float; results too small to keep all their bits only add an absolute error of order 10^-323.", "quantifier": "all systems of spaces, lenses, mirrors, interfaces, thick lenses, slabs, apertures, matrices and nested groups, all rays; all roundings of bounded relative error, and binary64 rounding to nearest even in particular", "why_tests_cant": "Tests compare a few traces with a tolerance chosen by hand; a bound on the errors of every trace of every system of any length can only be proved.", "anchors": ["raytracing/matrix.py:Matrix.mul_ray", "raytracing/matrix.py:Matrix.trace", "raytracing/matrix.py:Matrix.traceThrough", "raytracing/matrixgroup.py:MatrixGroup.trace"]}
{"id": "C96", "title": "In floats, the matrix of a system is exact up to rounding errors, and legal systems are accepted", "statement": "The coefficients A, B, C, D and the length of a system computed with floats are those of the exact composition of its elements up to a relative error of order 10^-16 for each rounding, measured against the sum of the absolute values of the terms. A legal system is accepted: rounding errors on the determinant do not make the constructor refuse it.", "quantifier": "coefficients: all systems of spaces, lenses, mirrors, interfaces, thick lenses, slabs, apertures, matrices and nested groups, all roundings of bounded relative error; acceptance: all such systems in air", "why_tests_cant": "The constructor compares a rounded determinant with the ratio of the indices at an absolute tolerance; tests use short systems with moderate lengths, where the error is far below the tolerance.", "anchors": ["raytracing/matrix.py:Matrix.__init__", "raytracing/matrix.py:Matrix.mul_matrix", "raytracing/matrixgroup.py:MatrixGroup.transferMatrix", "raytracing/matrixgroup.py:MatrixGroup.append"]}
{"id": "C97", "title": "In floats, the position of a stop found by a trace can be handed back to transferMatrix(upTo)", "statement": "chiefRay, entrancePupil and the other functions that need the matrix up to the aperture stop ask for it at the position found by tracing a ray. In floats this position may fall one rounding error before or after the boundary between two elements. The matrix up to there must still be found: no TypeError is raised.", "quantifier": "all systems of spaces, lenses, mirrors, interfaces, thick lenses, slabs, apertures, matrices and nested groups, all positions, all roundings of bounded relative error", "why_tests_cant": "Whether the sum of the lengths and the repeated differences agree depends on the last bit of every length; the tests use integers, for which they always agree.", "anchors": ["raytracing/matrixgroup.py:MatrixGroup.transferMatrix", "raytracing/matrix.py:Matrix.transferMatrix", "raytracing/imagingpath.py:ImagingPath.chiefRay", "raytracing/imagingpath.py:ImagingPath.entrancePupil"]}
{"id": "C98", "title": "In floats, power, focal length and images are those of the exact system", "statement": "In floats: an afocal system reports no power, a system with power reports it, with the exact focal length up to rounding errors; a system between two conjugate planes reports that it is imaging; the plane found by forwardConjugate is the image plane up to rounding errors and the matrix returned with it is imaging; an object in the front focal plane has its image at infinity.", "quantifier": "all systems of spaces, lenses, mirrors, interfaces, thick lenses, slabs, apertures, matrices and nested groups, all roundings of bounded relative error; forwardConjugate for all matrices of floats", "why_tests_cant": "Some of the tests of the code use a tolerance and others compare floats with 0; whether a system is on the right side depends on the rounding errors of all its parameters.", "anchors": ["raytracing/matrix.py:Matrix.hasPower", "raytracing/matrix.py:Matrix.isImaging", "raytracing/matrix.py:Matrix.effectiveFocalLengths", "raytracing/matrix.py:Matrix.forwardConjugate"]}
{"id": "C99", "title": "The profile of many traces at a position contains exactly the rays that reach it", "statement": "profileFromRayTraces(traces, z) returns, in order, exactly the rays that are not stopped before z, each at its height, angle and position at z; without z it returns the rays that get through the whole system, as they come out. An empty trace raises IndexError.", "quantifier": "all systems of spaces, lenses, mirrors, interfaces, thick lenses, slabs, apertures, matrices and nested groups, all lists of rays, all positions", "why_tests_cant": "A ray may be stopped by any element before or after z, and z may fall anywhere between, on or inside of elements; tests sample a few systems and positions.", "anchors": ["raytracing/matrix.py:Matrix.profileFromRayTraces", "raytracing/ray.py:Ray.along", "raytracing/matrix.py:Matrix.traceMany"]}
{"id": "C100", "title": "The messages of progress never interrupt a long trace, and end with all the rays", "statement": "traceManyThrough(rays, progress=True) prints the number of rays done after 10000 rays, then each time the number is multiplied by 3, and once all the rays are done; the numbers increase, nothing is printed for fewer than 10000 rays, and no division by zero can occur, whatever the number of rays.", "quantifier": "all numbers of rays", "why_tests_cant": "The interval between messages changes after each message and is capped by the number of rays; the tests trace few rays and never reach a message.", "anchors": ["raytracing/rays.py:Rays.displayProgress", "raytracing/rays.py:Rays.__iter__", "raytracing/rays.py:Rays.__next__", "raytracing/matrix.py:Matrix.traceManyThrough"]}
{"id": "C101", "title": "What print shows of a matrix, a ray or a beam is what the object says", "statement": "str() of a matrix, a ray or a beam never raises for finite numbers. The numbers in the text are the attributes of the object up to half a unit of the last decimal shown: A, B, C, D and the focal length of a matrix; height, angle and position of a ray; size, radius of curvature, position, Rayleigh range, waist and its position, wavelength in nanometres of a beam. The focal length is that of effectiveFocalLengths() and the matrix is called afocal exactly when it has none; a ray is called blocked exactly when it is; a beam is called not finite exactly when it is not confined. Two matrices with the same text have the same coefficients up to a thousandth.", "quantifier": "all matrices with finite coefficients, all rays, all complex radii, positive wavelengths and indices; all numbers of an ordered field with floor", "why_tests_cant": "The text is a function of real numbers; tests compare the text of a few objects. The disagreement between the text and the focal lengths is only for weak systems.", "anchors": ["raytracing/matrix.py:Matrix.__str__", "raytracing/ray.py:Ray.__str__", "raytracing/gaussianbeam.py:GaussianBeam.__str__"]}
{"id": "C102", "title": "The command line runs the examples asked, under the numbers it lists", "statement": "python -m raytracing -l lists every example file of the directory once, under consecutive numbers from 1, whatever the order in which the system lists the directory. The option -e with such numbers, separated by commas, runs these examples in the order asked and nothing else; without option all run, in order. An example that raises stops the command. A number that is not in the list is refused before anything runs.", "quantifier": "all directories, in all orders; all lists of numbers; all outcomes of the examples", "why_tests_cant": "The list depends on the files present and on the order of the system; the tests import the examples but never go through the command line.", "anchors": ["raytracing/__main__.py", "raytracing/examples/__init__.py:short"]}
{"id": "C103", "title": "The printed class hierarchy is the class tree", "statement": "printClassHierarchy(aClass) prints one graph whose edges are exactly the pairs of a class of the hierarchy and one of its direct subclasses, once per place in the tree, so that the tree can be read from what is printed.", "quantifier": "all class trees, of any depth and width", "why_tests_cant": "The classes present depend on what the user imports and derives; the function prints and returns nothing.", "anchors": ["raytracing/utils.py:printClassHierarchy", "raytracing/__main__.py"]}
{"id": "C104", "title": "The menu of the lens viewer offers every lens, and shows the one selected", "statement": "The menu of lensViewer has one item for each lens of the Thorlabs and Edmund catalogues that can be built, in the order of CompoundLens.all(), made of its label and focal length; a lens that cannot be built is left out without preventing the others. Selecting items, any number of times, never fails: the title of the menu is the last item selected and the lens on display is the one of this item.", "quantifier": "all class lists, all modules (which names they have and what their constructors do), all lenses, all sequences of selections", "why_tests_cant": "The dictionary is built by a loop that reuses its own variable and ignores all errors; a few lenses do not show what happens to names found in no module, in both, or with equal texts.", "anchors": ["raytracing/lensViewer.py: OpticalComponentViewer.build_lens_dict, OpticalComponentViewer.selection_changed", "raytracing/lensViewer.py: PopupMenu.selection_callback"]}
{"id": "C105", "title": "The version check announces a later version exactly when there is one", "statement": "checkLatestVersion(currentVersion) never raises; it returns True and announces a version exactly when a release later than the current one is published, and the version announced is the latest one.", "quantifier": "all answers or failures of the network, all lists of releases in any order, all current versions", "why_tests_cant": "The answer depends on a server; tests see one answer, not the orders in which the releases may be listed.", "anchors": ["raytracing/utils.py: checkLatestVersion"]}
{"id": "C106", "title": "A cavity folded with appendElementsInReverse is the round trip", "statement": "After cavity.appendElementsInReverse(skipFirstElement, skipLastElement) the elements are those of the way forth followed by those of the way back in the reverse order, without the ones skipped; the matrix, the modes and the stability reported are those of this round trip. For elements in air that are the same from behind, the round trip that begins and ends with the first element has A = D and determinant 1.", "quantifier": "all cavities of any number of elements, the four choices of skipped elements", "why_tests_cant": "Tests check the number of elements of one cavity, not their order nor that what is reported is computed from all of them.", "anchors": ["raytracing/lasercavity.py: LaserCavity.appendElementsInReverse, LaserCavity.eigenModes, LaserCavity.isStable", "raytracing/matrixgroup.py: MatrixGroup.append"]}
{"id": "C107", "title": "In floats, the aperture stop found is the exact one up to rounding errors", "statement": "In floats, apertureStop() returns the position and diameter of the opening that limits the beam from the axis most, as exact geometrical optics does: the diameter is exactly that of the opening and the position its exact position up to rounding errors. The opening reported never limits the beam less than another one by more than rounding errors, and it is the exact stop whenever the exact stop is more limiting than every other opening by more than the rounding errors. Infinite diameter is reported only when the probe ray is on the axis at every opening, up to rounding errors.", "quantifier": "all systems built from spaces, lenses, mirrors, interfaces, thick lenses, slabs, apertures, matrices and nested groups, all finite diameters, every way of rounding with relative error at most 1/8 (Python floats: 2^-53), all rays of the probe that are not within rounding errors of the edge of an opening", "why_tests_cant": "Rounding errors depend on all the numbers of the system; a test shows one system, and which of two nearly equally limiting openings wins can change with the last digit of one length.", "anchors": ["raytracing/imagingpath.py:ImagingPath.apertureStop", "raytracing/matrix.py:Matrix.traceManyThrough", "raytracing/matrix.py:Matrix.mul_ray", "raytracing/matrixgroup.py:MatrixGroup.trace"]}
{"id": "C108", "title": "In floats, chief and marginal rays cross the aperture stop where they should, up to rounding errors", "statement": "The ray returned by chiefRay(y), followed exactly from the height y with the returned angle, crosses the aperture stop at its centre, up to a bound on the rounding errors; the two rays of marginalRays(y) cross it at its two edges, the one with the larger angle first; rays aimed at the centre and edges of the pupil returned by entrancePupil() cross the stop at its centre and edges. The bound includes the error on the position of the stop, found by tracing a ray and handed back to transferMatrix(upTo).", "quantifier": "all nested groups of spaces, lenses, mirrors, interfaces, thick lenses, slabs, apertures and zero-length matrices that do not change heights, with lengths that are not negative; all roundings of bounded relative error; all heights y", "why_tests_cant": "A chief ray goes through a trace, a search, a repeated subtraction of lengths and a division, each with rounding errors that depend on every digit; tests compare a few values with a tolerance that has no justification.", "anchors": ["raytracing/imagingpath.py:ImagingPath.chiefRay", "raytracing/imagingpath.py:ImagingPath.marginalRays", "raytracing/imagingpath.py:ImagingPath.entrancePupil", "raytracing/imagingpath.py:ImagingPath.apertureStop", "raytracing/matrixgroup.py:MatrixGroup.transferMatrix"]}
{"id": "C109", "title": "Tracing a beam again gives the trace of this beam through the current elements", "statement": "trace(beam) on a path, a laser path or a group returns the beams that the beam given goes through, computed with the elements the path has now, whatever beams were created and traced before, whatever elements were added, removed or replaced since, and however groups are nested; it modifies no beam. Violated: after the elements changed, tracing the beam object that was traced last returns the old trace; after an append this is always wrong.", "quantifier": "all groups at any depth of nesting, all histories of creating beams, tracing beam objects (also those of earlier traces), failed traces, and changes of the elements, all numbers", "why_tests_cant": "What a group remembers depends on the whole history of the session and on which object is given; tests trace new beams through new paths.", "anchors": ["raytracing/matrixgroup.py:MatrixGroup.trace", "raytracing/matrixgroup.py:MatrixGroup.append", "raytracing/matrix.py:Matrix.trace", "raytracing/gaussianbeam.py:GaussianBeam"]}
{"id": "C110", "title": "The fan of rays displayed by default opens by a sensible angle", "statement": "When no fan angle is given, displaying a path never fails because of it, and the half angle of the fan of the object shown is positive and such that a ray rises over the length of the path by between a tenth and a fifth of the range displayed.", "quantifier": "all paths, whatever their length, all sizes of their elements, all heights of the object", "why_tests_cant": "The displays are excluded from the coverage, and the angle depends continuously on the height of the object and the length of the path: only particular values can be tried.", "anchors": ["raytracing/imagingpath.py:ImagingPath.display", "raytracing/imagingpath.py:ImagingPath.displayWithObject", "raytracing/figure.py:Figure.displayRange", "raytracing/figure.py:Figure.imagingDisplayRange"]}
{"id": "C111", "title": "A Lambertian source emits in proportion to the cosine of the angle", "statement": "LambertianRays(yMax, yMin, M, N, I) contains, for each of N evenly spaced angles θ from -π/2 to π/2 and each of M evenly spaced heights, I·cos θ rays to less than one ray, all within the bounds; a source with at least one height, one angle and an intensity of at least 1 is not empty, and a single height is on the axis as for UniformRays.", "quantifier": "all bounds, numbers of heights and of angles, and intensities", "why_tests_cant": "The default sizes are tested; the sizes for which the source is empty (one or two angles, an even number of angles with I = 1) and the count for all sizes cannot be enumerated.", "anchors": ["raytracing/rays.py: LambertianRays.__init__"]}
{"id": "C112", "title": "Rays added to a source are part of it", "statement": "After append(ray) or load(file) on a collection or a source of rays, len counts the rays added, and an iteration visits them.", "quantifier": "all collections, random sources and lamps, any rays and files, between any accesses and iterations", "why_tests_cant": "Random sources and lamps inherit append and load but count and visit maxCount rays; the effect depends on how many rays were made before, over arbitrary sequences of operations.", "anchors": ["raytracing/rays.py: Rays.append, Rays.load, RandomRays.__len__, RandomRays.__getitem__, RandomRays.__next__, LampRays.__init__"]}
{"id": "C113", "title": "In floats, the stability of a cavity is decided rightly away from the limit", "statement": "A LaserCavity computes its modes with floats. Away from the limit of stability by more than the rounding errors on the discriminant of its round trip, isStable in floats says exactly what the criterion |A + D| < 2 says of the exact round trip, and laserModes() has one mode when it is stable and none when it is not.", "quantifier": "all cavities made of spaces, lenses, mirrors, interfaces, thick lenses, slabs, apertures, matrices and groups of these, nested to any depth; any rounding of relative error u, any square root that is positive on positive numbers", "why_tests_cant": "The error on the discriminant grows with the number of elements and depends on all of their parameters; a test samples a few cavities, far from the limit.", "anchors": ["raytracing/lasercavity.py:LaserCavity.isStable", "raytracing/lasercavity.py:LaserCavity.eigenModes", "raytracing/lasercavity.py:LaserCavity.laserModes", "raytracing/gaussianbeam.py:GaussianBeam.isFinite"]}
{"id": "C114", "title": "In floats, a beam after a system has the exact complex radius up to rounding errors", "statement": "In Python floats, tracing a Gaussian beam through a system (traceThrough), or multiplying it by the matrix of the system (system * beam), gives the complex radius of the law ABCD applied exactly, up to an explicit error that depends on the elements and the beam; in air, for a positive wavelength, tracing does not raise; and a beam whose exact radius is confined by more than that error is reported as confined (isFinite), one that is not by more than that error is not.", "quantifier": "All systems built by a program, any number of elements and nesting, any finite complex radius for which no denominator Cq + D is within its rounding error of 0; any rounding of relative error at most 1/8, Python's among them.", "why_tests_cant": "Tests compare a few beams with assertAlmostEqual; the error of a chain of complex divisions depends on every element and on the beam, and there is no bound on the number of elements.", "anchors": ["raytracing/matrix.py: Matrix.mul_beam", "raytracing/matrix.py: Matrix.traceThrough", "raytracing/gaussianbeam.py: GaussianBeam.isFinite, w"]}
{"id": "C115", "title": "In floats, the search for the field of view ends at the edge of the field", "statement": "fieldStop(), halfFieldOfView() and fieldOfView() look for the edge of the field by repeated floating-point steps. When the edge of the field is known up to a twentieth of the precision, rounding errors included, and the precision is well above the distance between floats, the search ends; half the field of view is less than three times the precision below the edge, never above it, and its chief ray comes out; the field stop is the first element to block a chief ray that starts just above the edge. It answers infinity only when the largest height is less than about 1.7 times the edge. When the precision is less than the distance between floats at the edge, the search may never end.", "quantifier": "all imaging paths built by a program, any number of elements and nesting, all precisions and largest heights; any rounding of relative error at most 10^-6, Python's among them", "why_tests_cant": "The number of steps has no bound that a test could sample, each step is rounded, and whether a ray passes is decided by rounded numbers; a test tries a few systems with the default precision.", "anchors": ["raytracing/imagingpath.py:ImagingPath.fieldStop", "raytracing/imagingpath.py:ImagingPath.halfFieldOfView", "raytracing/imagingpath.py:ImagingPath.fieldOfView", "raytracing/imagingpath.py:ImagingPath.chiefRay"]}
{"id": "C116", "title": "The optical invariant is conserved in floats, up to explicit rounding errors", "statement": "opticalInvariant(ray1, ray2, z) of a path, computed in floats, is the value at the entrance, n*(theta1*y2 - y1*theta2), up to an explicit error that depends on the number of roundings and on the size of the coefficients, at every position z where it is computed; its values at two positions differ by no more than these errors.", "quantifier": "all paths in air (lenses, mirrors, thick lenses, slabs, apertures, matrices, nested groups) and all paths through media of any indices accepted by the program, all pairs of rays, all positions, all roundings to nearest with relative error u", "why_tests_cant": "Tests compare a few values with a tolerance chosen by hand; they cannot bound the rounding errors for all paths, rays and positions.", "anchors": ["raytracing/matrix.py: Matrix.opticalInvariant, Matrix.traceThrough", "raytracing/matrixgroup.py: MatrixGroup.transferMatrix"]}
{"id": "C117", "title": "Foci, principal planes and focal lengths in floats, up to explicit rounding errors", "statement": "For every system with power built by a program in floats, focusPositions, principalPlanePositions, effectiveFocalLengths, frontFocalLength and backFocalLength return numbers within an explicit error of the exact cardinal points of the matrix; for the exact system, a ray parallel to the axis crosses the axis at the back focus found, and a ray from the front focus found comes out parallel, up to explicit errors.", "quantifier": "all systems built by a program, in any media, any number of elements and nesting, all positions z, all roundings of relative error u", "why_tests_cant": "Tests compare a few focal lengths with a tolerance; the loss of digits when large numbers cancel depends on the system, and no sample bounds it.", "anchors": ["raytracing/matrix.py: Matrix.focusPositions", "raytracing/matrix.py: Matrix.principalPlanePositions", "raytracing/matrix.py: Matrix.effectiveFocalLengths", "raytracing/matrix.py: Matrix.frontFocalLength", "raytracing/matrix.py: Matrix.backFocalLength"]}
{"id": "C118", "title": "Magnifications and sizes of images in floats, up to explicit rounding errors", "statement": "The matrices that forwardConjugate() and backwardConjugate() return in floats have a transverse and an angular magnification whose product is the determinant of the system (1 in air) up to an explicit error; one of the two is that of the system to two roundings; imageSize() is the height of the object, or twice the half field of view found, times the transverse magnification, up to one or two roundings.", "quantifier": "all matrices of floats, all systems built by a program in any media, any number of elements and nesting, all object heights and fields, all roundings of relative error u", "why_tests_cant": "Tests compare a few magnifications with a tolerance; how many digits of A + z C are lost depends on the system, and no sample bounds it.", "anchors": ["raytracing/matrix.py: Matrix.forwardConjugate", "raytracing/matrix.py: Matrix.backwardConjugate", "raytracing/matrix.py: Matrix.magnification", "raytracing/imagingpath.py: ImagingPath.imageSize"]}
{"id": "C119", "title": "F-number, numerical aperture and Lagrange invariant in floats, up to explicit rounding errors", "statement": "In floats, fNumber() times the diameter of the aperture stop is the front focal length of the exact system times the magnification of the pupil, up to an explicit error; NA() is the index times the sine of half the angle under which the stop is seen from the axis of the object, up to an explicit error that includes that of the function sine; lagrangeInvariant() of a path in air is the angle of the axial ray times the half field of view found, up to an explicit error.", "quantifier": "all imaging paths built by a program, any number of elements and nesting, for which the ray that finds the stop is decided by more than the rounding errors; all fields; all roundings of relative error u; all implementations of sine with a bounded error", "why_tests_cant": "Tests compare a few f-numbers and apertures with a tolerance; the error depends on how the stop was found and on the matrix up to it, for every system.", "anchors": ["raytracing/imagingpath.py: ImagingPath.fNumber", "raytracing/imagingpath.py: ImagingPath.NA", "raytracing/imagingpath.py: ImagingPath.axialRay", "raytracing/imagingpath.py: ImagingPath.lagrangeInvariant"]}
{"id": "C120", "title": "Sizes, waists and radii of curvature of Gaussian beams in floats, up to a few roundings", "statement": "In floats, w, the radius of curvature R and the waist wo of a confined beam are those of its complex radius up to 7, 8 and 3 roundings, waistPosition and the Rayleigh range are exact, and R is infinite exactly when the exact one is. A beam made by GaussianBeam(w, R) reports that w and R up to 24 and 31 roundings (less than 4e-15 in Python floats). After a system in air, the size, the waist, its position and the Rayleigh range are those of the exact beam up to the error on the complex radius and those roundings.", "quantifier": "all complex radii, wavelengths, indices, sizes and radii of curvature (also infinite); all systems in air, any number of elements and nesting; all roundings of relative error u, with math.sqrt and math.pi correctly rounded", "why_tests_cant": "Tests compare a few sizes with a tolerance; that nothing cancels in these formulas, whatever the complex radius, is a statement about all beams.", "anchors": ["raytracing/gaussianbeam.py: GaussianBeam.__init__", "raytracing/gaussianbeam.py: GaussianBeam.w", "raytracing/gaussianbeam.py: GaussianBeam.R", "raytracing/gaussianbeam.py: GaussianBeam.wo", "raytracing/gaussianbeam.py: GaussianBeam.waistPosition", "raytracing/gaussianbeam.py: GaussianBeam.zo", "raytracing/matrix.py: Matrix.traceThrough"]}
{"id": "C121", "title": "In Python floats, flipping a system twice gives it back to the last bit", "statement": "For every element or group of any nesting, whatever its parameters: if flipOrientation() raises no error twice in a row, then every attribute of the object and of everything in it (matrix, length, vertices, indices, apertures, labels, flags) is what it was before, exactly, although the flipped elements and all the products are recomputed with rounding, overflow and underflow. In a system in air, the second flip cannot raise an error when the first did not. A first flip can: the tests of the determinant are sensitive to rounding, so that a system that was accepted may be refused in the other direction, and its group then loses elements.", "quantifier": "all programs of constructors with any nesting and any parameters, in binary64 arithmetic and in any rounded arithmetic", "why_tests_cant": "Tests compare matrices within a tolerance for a few lenses; they cannot show that no rounding, overflow or nesting leaves a trace, nor find the systems whose flip is refused because of rounding.", "anchors": ["raytracing/matrix.py: Matrix.flipOrientation, CurvedMirror.flipOrientation, DielectricInterface.flipOrientation, ThickLens.flipOrientation, Matrix.__init__", "raytracing/matrixgroup.py: MatrixGroup.flipOrientation, MatrixGroup.append, MatrixGroup.transferMatrix"]}
{"id": "C122", "title": "Flipping a system in floats is writing the program the other way round", "statement": "For a system in air built from the library's constructors, flipOrientation() in floats gives the very numbers obtained by building the elements in reverse order, each turned round (radii exchanged and negated): same matrices, lengths, indices, apertures and labels at every level of nesting, to the last bit. Consequently flipping raises no error when the reversed program is accepted, and the flipped matrix is the exact one with A and D exchanged within the rounding errors of the original system. The vertices are excluded: those of a flipped thick lens differ.", "quantifier": "All systems in air with legal parameters, of any number of elements and nesting, all roundings that are odd and have a relative error (Python doubles without overflow and underflow in particular).", "why_tests_cant": "The products are taken in the other order, so equality to the last bit is a statement on all the roundings made; a test compares a few systems within a tolerance.", "anchors": ["raytracing/matrix.py:Matrix.flipOrientation", "raytracing/matrixgroup.py:MatrixGroup.flipOrientation", "raytracing/matrixgroup.py:MatrixGroup.append", "raytracing/matrix.py:ThickLens.__init__"]}
{"id": "C123", "title": "What save() leaves on the disk at every moment, and when it returns", "statement": "Rays.save and MatrixGroup.save return once the data are in the file, whatever other programs do to it; a program stopped while saving over an older file leaves the old content or the new one, and load reads it; a save that raises leaves the old file.", "quantifier": "All data (any number of pieces written by pickle), any size of the buffer of the file object, any previous content, stopped after any number of steps; for the waiting loop, all histories of the sizes seen and of Ctrl-C.", "why_tests_cant": "It is about every moment at which a program can be stopped and every behaviour of other programs; tests only run undisturbed saves to the end.", "anchors": ["raytracing/rays.py:Rays.save", "raytracing/matrixgroup.py:MatrixGroup.save", "raytracing/rays.py:Rays.load", "raytracing/matrixgroup.py:MatrixGroup.load"]}
{"id": "C124", "title": "In floats, fans and uniform sources stay between their bounds, in order and evenly spaced up to rounding errors", "statement": "In floats, Ray.fan gives the number of rays asked, in order, the first exactly at the first bound, all but the last exactly between the bounds, each within four roundings of its evenly spaced place. UniformRays (and the object rays and lamps made with it) gives M*N rays, none outside the bounds of heights and angles, not even by a rounding, the extreme ones exactly on the bounds.", "quantifier": "All bounds that are floats, all numbers of rays up to 10^15 (at least 2), any monotone rounding with a relative error that keeps whole numbers (Python doubles without overflow and underflow in particular).", "why_tests_cant": "Whether a ray leaves the bounds by one unit in the last place depends on the bounds and on the number of rays; a test compares a few fans within a tolerance.", "anchors": ["raytracing/ray.py:Ray.fan", "raytracing/ray.py:Ray.fanGroup", "raytracing/rays.py:UniformRays"]}
{"id": "C125", "title": "In floats, the laser mode of a cavity is the one that reproduces itself, up to explicit rounding errors", "statement": "When a confined complex radius is left unchanged by the exact round trip of a LaserCavity, and the cavity is not within rounding errors of the limits of power and of stability, laserModes() computed in floats is a list of exactly one beam, confined, at the default wavelength, in air, at z = 0, whose complex radius is that of the exact mode up to explicit errors on its real and imaginary parts (the second grows near the limit of stability). Sent through the exact round trip, this mode comes back as it was up to five times these errors, and through the round trip in floats with the error of the law ABCD added.", "quantifier": "all cavities made of spaces, lenses, mirrors, interfaces, thick lenses, slabs, apertures, matrices and groups of these, nested to any depth; any rounding of relative error u, with a square root that is the exact one rounded", "why_tests_cant": "The error depends on all the coefficients of the round trip and on the distance to the limit of stability; a test compares a few modes with a tolerance chosen by hand.", "anchors": ["raytracing/lasercavity.py:LaserCavity.eigenModes", "raytracing/lasercavity.py:LaserCavity.laserModes"]}
{"id": "C126", "title": "In Python floats, the index of every glass is that of its formula to 4e-13", "statement": "Between 0.28 and 7 microns, n(wavelength) of every glass of the catalogue, computed in floats with the operations of the source, is a real number above 1 that differs from the exact value of the dispersion formula by at most 4e-13 (4e-14 for all glasses but S_NPH2). Air gives 1, and wavelengths out of the accepted range raise ValueError. With exact numbers, the same operations give the formula, resonances included. Closer to the resonances this cannot hold: at the float 0.07746417668832478, in the accepted range, N_BK7 raises ZeroDivisionError although its formula has a value there.", "quantifier": "all the materials of the module and all wavelengths from 0.28 to 7 microns; any rounding of relative error u up to 1e-6, and powers that are the exact ones up to two roundings", "why_tests_cant": "The errors are amplified near the resonances of each formula by factors that depend on the glass and the wavelength; a test compares a few indices at one wavelength with the catalogue, to a few digits.", "anchors": ["raytracing/materials.py:Material.n", "raytracing/materials.py:N_BK7.n", "raytracing/materials.py:S_NPH2.n", "raytracing/materials.py:FusedSilica.n"]}
{"id": "C127", "title": "In Python floats, every lens of the catalogues can be made and has the focal length of its data", "statement": "Creating any lens of thorlabs.py or eo.py, with the numbers and operations of Python floats (indices of glasses included), raises no exception: without argument, or with a wavelength if its class takes one. Its power C is that of the exact lens with the data of the file within 7e-11 per mm, its thickness within 1e-12 of itself, and effectiveFocalLengths() returns, on both sides, the exact focal length within 4e-8 of itself.", "quantifier": "all 342 classes of thorlabs.py and eo.py, no argument or any float wavelength between 0.3 and 2.5 micrometres, any asin and cos of the machine", "why_tests_cant": "the tests create a few lenses at one wavelength and compare focal lengths to two decimals; whether the determinant checks (1e-5 relative, after about ten roundings) refuse some lens at some wavelength, and how much error the floats add, is a question on all wavelengths", "anchors": ["raytracing/thorlabs.py", "raytracing/eo.py", "raytracing/specialtylenses.py:SingletLens.__init__", "raytracing/specialtylenses.py:AchromatDoubletLens.__init__", "raytracing/matrix.py:Matrix.effectiveFocalLengths", "raytracing/materials.py:Material.n"]}
{"id": "C128", "title": "In Python floats, the chromatic focal shifts of the lenses of the catalogues are the exact ones to 5e-8 of the focal length", "statement": "For a lens of thorlabs.py whose class takes a wavelength, focalShifts(wavelengths) with an array, or without argument, raises no exception in Python floats and returns as many shifts as wavelengths. Each wavelength comes back in nanometres to one rounding, and each shift is the focal length of the exact lens at this wavelength minus that of the data sheet, up to 5e-8 of the focal length. Without argument the wavelengths are a hundred, evenly spaced from 400 to 800 nm. Shifts are in the right order when the focal lengths differ by more than these errors.", "quantifier": "all classes of the catalogues that take a wavelength, all arrays of wavelengths between 0.3 and 2.5 micrometres, of any length", "why_tests_cant": "the shifts are small differences of focal lengths, so that errors matter; the tests look at one lens, and only that something is returned", "anchors": ["raytracing/specialtylenses.py:CompoundLens.focalShifts", "raytracing/thorlabs.py", "raytracing/eo.py", "raytracing/matrix.py:Matrix.effectiveFocalLengths"]}
{"id": "C129", "title": "In Python floats, the search by index returns the materials of the exact search", "statement": "Material.findByIndex(n, wavelength, tolerance) in Python floats returns the same materials as with exact arithmetic, in the same order, with their Abbe numbers and with their indices within 4e-13, unless the index of some material differs from n by the tolerance itself up to 5e-13. With any positive tolerance, a material is found by its own index.", "quantifier": "all lists of materials of the module, all float indices n, tolerances and wavelengths between 0.28 and 7 micrometres", "why_tests_cant": "tests look for one index at one wavelength; whether a rounding error can make a material appear or disappear depends on all of them", "anchors": ["raytracing/materials.py:Material.findByIndex", "raytracing/materials.py:Material.n"]}
{"id": "C130", "title": "In Python floats intermediateConjugates() lists images up to explicit rounding errors", "statement": "When MatrixGroup.intermediateConjugates() returns a list in floating-point arithmetic, every (position, magnification) listed is that of an image of the entrance plane through the first elements of the path: rays of one point of the entrance plane, traced exactly, meet at the position listed up to an explicit error, and the magnification times D is the determinant up to an explicit error. Behind every element, unless D is zero within its rounding error, the image is listed up to the tolerance of 1e-3 (or lies at 0), and two planes listed differ by the tolerance. Where D is exactly zero the exact program lists no plane but the floating-point one may list planes at distances such as -4.4e17, as it does for a 4f relay of two lenses of focal length 49.", "quantifier": "every system that can be described (any number of elements, any nesting, apertures, media), every rounding of the arithmetic with relative error u, every element of the path", "why_tests_cant": "The errors depend on the whole path and on the rounding of every operation; tests compare a few lists with a tolerance and do not meet the values for which D is a rounding residue.", "anchors": ["raytracing/matrixgroup.py:MatrixGroup.intermediateConjugates", "raytracing/matrix.py:Matrix.forwardConjugate", "raytracing/utils.py:areAbsolutelyAlmostEqual"]}
{"id": "C131", "title": "In floats, histograms count every ray exactly once, between the edges computed", "statement": "Rays.rayCountHistogram() and Rays.rayAnglesHistogram() in floating-point arithmetic give as many positions and counts as bins; with the default bounds the counts add up to the number of rays; with other bounds, to the number of values between them; and each count is the number of values between the edges of the bin computed in floats. The way numpy finds the bin of a value, by a rounded division corrected by at most one, gives that bin when a bin is wider than four times the rounding errors on the edges.", "quantifier": "every non-empty collection of rays, every number of bins (up to 1e14 in Python floats), every pair of bounds that are floats, every monotone rounding", "why_tests_cant": "Which values fall on a rounded edge depends on the last digit of every value and edge; tests look at a few collections.", "anchors": ["raytracing/rays.py:Rays.rayCountHistogram", "raytracing/rays.py:Rays.rayAnglesHistogram", "raytracing/rays.py:Rays.yValues", "raytracing/rays.py:Rays.thetaValues"]}
{"id": "C132", "title": "In Python floats an axicon bends every ray by its deviation angle, and the focal line is where parallel rays cross the axis, up to a few roundings", "statement": "In floating-point arithmetic an Axicon can be made with any index and angle and any positive diameter. A ray that is not blocked leaves it at exactly the same height and position; its angle is that of the exact program up to three roundings, towards the axis on both sides, and unchanged on the axis; it is blocked exactly when its height exceeds half the diameter. Opposite rays leave exactly opposite. At the distance focalLineLength(y), as computed, a parallel ray at height y is on the axis up to 1e-15 of y.", "quantifier": "every index, angle and diameter, every ray of floats, every rounding with relative error u (and Python's in particular)", "why_tests_cant": "Tests try a few indices and angles and compare with a tolerance; the exactness of the height, the symmetry and the bound hold for all floats only by an argument about every rounding.", "anchors": ["raytracing/axicon.py:Axicon.mul_ray", "raytracing/axicon.py:Axicon.deviationAngle", "raytracing/axicon.py:Axicon.focalLineLength"]}
{"id": "C133", "title": "In Python floats the lens read from a Zemax file does to light what its surfaces do one after the other, up to rounding errors", "statement": "In floating-point arithmetic matrixGroup() of a Zemax reader keeps the surfaces from the first glass to the return to air and makes the same elements, in the same order, as a user would by hand: an interface for each surface and the thickness of glass after it. The coefficients of its matrix are those of refraction at each surface and propagation in each glass in exact arithmetic, up to at most eight roundings for each surface relatively to the majorant of the product. The lens is made without error whenever there is room for the rounding errors in the test of the determinants.", "quantifier": "all lists of glass surfaces with finite thicknesses, any radii, diameters and indices, any surfaces in air before and any surfaces after, all roundings with a relative error", "why_tests_cant": "Tests read a few files of a catalogue and compare focal lengths with loose tolerances.", "anchors": ["raytracing/zemax.py:ZMXReader.matrixGroup", "raytracing/matrix.py:DielectricInterface", "raytracing/matrix.py:Space", "raytracing/matrixgroup.py:MatrixGroup.append"]}
{"id": "C134", "title": "In Python floats a Lambertian source emits in proportion to the cosine, to less than one ray and the rounding errors", "statement": "In floating-point arithmetic LambertianRays(yMax, yMin, M, N, I) contains, for each of N angles from -np.pi/2 to np.pi/2 and each of M heights, I·cos θ rays to less than one ray plus 3e-15·I, where θ is the exact evenly spaced angle. It is the number of the exact source unless I·cos θ is that close to a whole number. No ray is outside the bounds of heights and angles, not even by a rounding, and a source with at least four angles and an intensity a little above 2 is not empty.", "quantifier": "all bounds that are floats, all numbers of heights and angles from 2 to 10^15, all intensities, any cosine function within a given error of the real one", "why_tests_cant": "Whether I·cos θ falls on one side or the other of a whole number depends on the last digit of the angle, for each size and intensity; tests look at the default source.", "anchors": ["raytracing/rays.py:LambertianRays.__init__"]}
{"id": "C135", "title": "In Python floats random sources never leave their bounds, not even by a rounding", "statement": "In floating-point arithmetic every ray of RandomUniformRays, RandomLambertianRays and GaussianProfileUniformRays has its height between yMin and yMax and its angle between thetaMin and thetaMax, exactly, although the width max - min may be rounded up; each is within three roundings of min + random()*(max - min) and in the order of the random numbers. The upper bound itself can be reached.", "quantifier": "all bounds that are floats, all streams of random numbers that random() can give, all sequences of accesses and iterations, any monotone rounding with a relative error that keeps floats", "why_tests_cant": "A ray out of the bounds by one unit in the last place would appear for few random numbers and few bounds only; tests draw a few thousand rays.", "anchors": ["raytracing/rays.py:RandomUniformRays.randomRay", "raytracing/rays.py:RandomLambertianRays.randomRay", "raytracing/rays.py:GaussianProfileUniformRays.randomRay"]}
{"id": "C136", "title": "In Python floats a trace ends exactly at the length of the group, unless groups are nested", "statement": "In floating-point arithmetic the last ray of the trace of an unblocked ray that starts at z = 0 has its z equal, to the last bit, to the L of the MatrixGroup, when no element of the group is itself a group. With groups inside groups the two may differ in the last bits (0.1, then a group of 0.2 and 0.3): both are then within their rounding errors of each other.", "quantifier": "all groups of elements without groups inside, all rays from the entrance that are not blocked, any rounding with a relative error; for the bound, all programs with groups nested to any depth and all rays that go through with room for the errors", "why_tests_cant": "Whether two sums of floats agree to the last bit depends on every length and on the order of the additions; tests with round lengths agree by luck.", "anchors": ["raytracing/matrix.py:Matrix.mul_ray", "raytracing/matrix.py:Matrix.mul_matrix", "raytracing/matrixgroup.py:MatrixGroup.transferMatrix", "raytracing/matrix.py:Matrix.traceThrough"]}
{"id": "C137", "title": "The two sides of the axis are the same to the last bit, in exact numbers and in Python floats", "statement": "trace() of the ray with opposite height and angle gives, ray by ray, the opposite heights and angles at the same positions, and the rays are blocked at the same places, exactly, also when floats are rounded, overflow or underflow. Axicons turn the mirror image of a ray to the mirror image.", "quantifier": "all systems made by programs, nested to any depth, all rays (infinite and nan ones too), exact numbers, every rounding that does not depend on signs, and binary64", "why_tests_cant": "Tests compare a few symmetric rays within a tolerance; that no rounding and no comparison at the edge of an opening ever breaks the symmetry is about all floats.", "anchors": ["raytracing/matrix.py:Matrix.mul_ray", "raytracing/matrix.py:Matrix.trace", "raytracing/matrixgroup.py:MatrixGroup.trace", "raytracing/axicon.py:Axicon.mul_ray"]}
{"id": "C138", "title": "The unit of length does not matter", "statement": "Writing all lengths of a system and of the rays in another unit (focal lengths, radii, distances, diameters, heights, positions) changes nothing but the unit of the results: traceThrough() blocks the same rays and gives the same angles, and heights and positions in the new unit.", "quantifier": "all systems made by programs, nested to any depth, all rays of finite numbers, all units", "why_tests_cant": "Tests use millimetres; a constant of the code that is a length in disguise, such as the tolerance of hasPower, shows only in other units.", "anchors": ["raytracing/matrix.py:Matrix.traceThrough", "raytracing/matrix.py:Matrix.hasPower", "raytracing/matrix.py:Matrix.focusPositions", "raytracing/matrix.py:ThickLens"]}
