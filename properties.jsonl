{"id": "C01", "title": "Tyre profile radius is bounded, symmetric and falls away from the centre", "statement": "For a profile with positive radii and exponents and half width Ly <= Ry, shape::surfaceRadius(y) is defined for every y in [-Ly,Ly], lies in [0,Rx], equals Rx at y=0, is the same for y and -y, and never increases as |y| grows.", "quantifier": "all profile parameters Rx,Mx,Ry,My>0, 0<Ly<=Ry and all pairs of lateral positions in [-Ly,Ly]", "why_tests_cant": "a test samples finitely many (parameter, position) combinations of a continuous five-parameter family", "anchors": ["src/shape.cc:shape::surfaceRadius", "src/shape.cc:shape::checkWidthBound"]}
{"id": "C02", "title": "Profile derivative is the true slope of the profile radius", "statement": "For every lateral position strictly inside the profile, shape::surfaceDerivative(y) is the mathematical derivative of surfaceRadius at y, it is odd in y, and surfaceAngle(y) is its arctangent. (Inside the centre tolerance band the code returns 0.)", "quantifier": "all valid profiles and all positions 0<|y|<min(Ly,Ry)", "why_tests_cant": "a derivative is a limit; finite differences only approximate it at sampled points", "anchors": ["src/shape.cc:shape::surfaceDerivative", "src/shape.cc:shape::surfaceAngle"]}
{"id": "C03", "title": "Profile queries outside the tyre width are rejected", "statement": "surfaceRadius, surfaceDerivative and surfaceAngle raise an error exactly when |y| is greater than the half width Ly, and never otherwise, whatever the profile.", "quantifier": "every profile, every position (including NaN, which compares false and is therefore let through) and every tolerance", "why_tests_cant": "the guard must hold for every real position and every profile, including NaN", "anchors": ["src/shape.cc:shape::checkWidthBound", "src/shape.cc:shape::surfaceRadius", "src/shape.cc:shape::surfaceDerivative"]}
{"id": "C04", "title": "Ribs tile the tyre width exactly", "statement": "Constructing a shell or calling resize(n) with n>=1 on a valid profile succeeds and yields exactly n ribs of equal width 2*Ly/n; rib i is centred at -Ly+(2i+1)*Ly/n, so consecutive ribs share an edge, the first starts at -Ly, the last ends at +Ly, the layout is mirror symmetric, and each rib has the profile's radius at its centre.", "quantifier": "every rib count n>=1 and every valid profile", "why_tests_cant": "holds for an unbounded rib count; the loop accumulates positions, so only induction covers all n", "anchors": ["src/shell.cc:shell::resize", "src/shell.cc:shell::shell", "src/rib.cc:rib::rib"]}
{"id": "C05", "title": "A zero rib count is rejected without damage", "statement": "shell::resize(0) raises an error and leaves every observable part of the shell (ribs, contact records, candidate lists, pose, box) unchanged.", "quantifier": "every shell state", "why_tests_cant": "must hold in every reachable state of the shell", "anchors": ["src/shell.cc:shell::resize"]}
{"id": "C06", "title": "Contact records are stored inside allocated storage for every rib count", "statement": "After construction or resize(n), setup and every per-rib or aggregate contact getter access only contact records that exist, for every rib count n.", "quantifier": "every rib count, every ground, pose and method", "why_tests_cant": "out-of-bounds accesses usually go unnoticed in a test run; the claim is about all sizes", "anchors": ["src/shell.cc:shell::resize", "src/shell.cc:shell::setup", "src/shell.cc:shell::contactPoint"]}
{"id": "C07", "title": "Non-rigid poses are rejected", "statement": "shell::transform and shell::setup refuse a pose whose linear part is not a rotation, leaving the shell pose rigid.", "quantifier": "every 4x4 pose", "why_tests_cant": "infinitely many non-rigid matrices; the accepted set must be characterised", "anchors": ["src/shell.cc:shell::transform", "src/shell.cc:shell::checkTransformation", "src/shell.cc:shell::setup"]}
{"id": "C08", "title": "Moving the shell keeps its pose rigid", "statement": "Starting from the identity pose of a new shell, after any sequence of translate and rotate (unit axis) calls, and transform calls with rigid poses, the shell pose is rigid: its linear part is orthonormal with determinant one, so distances between points of the tyre are preserved.", "quantifier": "every finite sequence of pose operations", "why_tests_cant": "unbounded operation histories", "anchors": ["src/shell.cc:shell::translate", "src/shell.cc:shell::rotate", "src/shell.cc:shell::transform"]}
{"id": "C09", "title": "The shell bounding box encloses the whole tyre", "statement": "After setup with any rigid pose, the axis-aligned box used for the ground query contains every point of every rib disk, so ground touching the tyre is never culled.", "quantifier": "every profile, rib count and rigid pose", "why_tests_cant": "all orientations of all profiles; a miss needs a specific camber and profile", "anchors": ["src/shell.cc:shell::updateBBox", "src/shell.cc:shell::setup", "src/shell.cc:shell::bbox"]}
{"id": "C10", "title": "The shell bounding box follows the pose", "statement": "shell::bbox() always corresponds to the current pose: after any pose operation (setup, transform, translate, rotate) it is centred on the shell origin with half extent Rx.", "quantifier": "every finite sequence of shell operations", "why_tests_cant": "unbounded histories", "anchors": ["src/shell.cc:shell::bbox", "src/shell.cc:shell::translate", "src/shell.cc:shell::transform", "src/shell.cc:shell::updateBBox"]}
{"id": "C11", "title": "Mesh box query is exact", "statement": "On a mesh loaded from file, mesh::intersection(box, out) puts in out exactly the triangles whose own bounding box overlaps the query box, each exactly once, and returns whether there is any.", "quantifier": "every loaded mesh (any number of triangles, any layout, duplicates included) and every query box", "why_tests_cant": "the spatial tree has unboundedly many shapes; the result must equal brute force for all of them", "anchors": ["src/mesh.cc:mesh::intersection", "src/mesh.cc:mesh::buildAABBtree", "toolbox/src/AABBtree.cc:AABBtree::build", "toolbox/src/AABBtree.cc:AABBtree::intersection"]}
{"id": "C12", "title": "Spatial tree construction always terminates and loses no box", "statement": "AABBtree::build terminates for every list of boxes (coincident, nested or degenerate boxes included), every input box appears in exactly one leaf, and every inner node's box encloses the boxes below it.", "quantifier": "every finite list of boxes", "why_tests_cant": "recursive splitting by a computed cut could loop or drop elements for some layout", "anchors": ["toolbox/src/AABBtree.cc:AABBtree::build"]}
{"id": "C13", "title": "No ground triangle touching the query box is missed", "statement": "If some point of a loaded mesh triangle lies in the query box, the box query returns that triangle.", "quantifier": "every mesh, every box and every point of every triangle", "why_tests_cant": "continuum of points and unbounded meshes", "anchors": ["src/mesh.cc:mesh::intersection", "src/triangleground.cc:triangleground::updateBBox", "toolbox/src/aabb.cc:aabb::intersects"]}
{"id": "C14", "title": "Box overlap test means sharing a point", "statement": "A box constructed from two points in any order holds exactly the points between them; aabb::intersects is true exactly when the two (well formed) boxes have a common point, is symmetric and reflexive; Intersection(aabb,aabb) then returns exactly the common part, and aabb::merged the smallest enclosing box.", "quantifier": "every pair of boxes", "why_tests_cant": "continuum of configurations, including touching faces", "anchors": ["toolbox/src/aabb.cc:aabb::intersects", "toolbox/src/aabb.cc:aabb::merged", "toolbox/src/intersection.cc:Intersection(aabb,aabb,aabb)"]}
{"id": "C15", "title": "Querying a mesh without triangles is safe", "statement": "mesh::intersection and shell::setup on a default-constructed mesh report no contact instead of accessing invalid memory.", "quantifier": "every query box, shell and pose", "why_tests_cant": "undefined behaviour need not show up in a test run", "anchors": ["src/mesh.cc:mesh::mesh", "src/mesh.cc:mesh::intersection", "toolbox/src/AABBtree.cc:AABBtree::intersection"]}
{"id": "C16", "title": "Clearing or copying a mesh keeps queries consistent", "statement": "After mesh::clear() a box query finds nothing, and after mesh::copy(m) box queries answer exactly as on m.", "quantifier": "every mesh and every query box", "why_tests_cant": "history dependent: needs every previous content", "anchors": ["src/mesh.cc:mesh::clear", "src/mesh.cc:mesh::copy", "src/mesh.cc:mesh::intersection"]}
{"id": "C17", "title": "A mesh built from user triangles answers with those triangles", "statement": "For a mesh constructed from a vector of ground triangles, a box query returns exactly the supplied triangles whose boxes overlap the query box, whatever ids the triangles carry.", "quantifier": "every vector of triangles with arbitrary ids and every box", "why_tests_cant": "unbounded id assignments", "anchors": ["src/mesh.cc:mesh::mesh(triangleground::vecptr)", "src/mesh.cc:mesh::intersection", "src/triangleground.cc:triangleground::updateBBox"]}
{"id": "C18", "title": "Per-rib candidate filtering never drops touched ground", "statement": "The per-rib candidate lists computed by setup contain, for each rib, every local triangle that meets the plane of that rib (touching at a vertex or edge included); without refinement they contain every local triangle; only local triangles are listed, in order.", "quantifier": "every rib count, every local triangle list and every rigid pose", "why_tests_cant": "quantifies over all triangles and ribs; a boundary slip drops contacts only for special positions", "anchors": ["src/shell.cc:shell::refineIntersection", "src/shell.cc:shell::setup"]}
{"id": "C19", "title": "RDF loading reproduces the file", "statement": "Loading a well formed *.rdf text (a NODES section with 'id x y z' lines, then an ELEMENTS section with 'n1 n2 n3 friction' lines whose indices refer to listed nodes, comments allowed) into an empty mesh succeeds and yields exactly one triangle per element line, in order, with the listed nodes mapped by the pose, the listed friction and consecutive ids from 0.", "quantifier": "every well formed text of any length, any pose", "why_tests_cant": "unbounded file contents", "anchors": ["src/mesh.cc:mesh::load", "src/mesh.cc:mesh::split", "src/mesh.cc:mesh::tail", "src/mesh.cc:mesh::firstToken"]}
{"id": "C20", "title": "OBJ loading reproduces the file", "statement": "Loading a well formed *.obj text ('v x y z' and 'f a b c' lines with 1-based indices, unknown lines ignored) with friction f into an empty mesh succeeds and yields exactly one triangle per face line, in order, with the right vertices mapped by the pose and friction f.", "quantifier": "every well formed text of any length, any friction >= 0, any pose", "why_tests_cant": "unbounded file contents", "anchors": ["src/mesh.cc:mesh::load", "src/mesh.cc:mesh::split", "src/mesh.cc:mesh::tail"]}
{"id": "C21", "title": "Malformed mesh records are never silently accepted", "statement": "If a text contains an RDF node line without three coordinates, an element line without four fields, a negative index or a negative friction (or the OBJ counterparts), load raises an error instead of returning a mesh.", "quantifier": "every text containing such a line at any position reached by the parser", "why_tests_cant": "unbounded set of malformed files", "anchors": ["src/mesh.cc:mesh::load"]}
{"id": "C22", "title": "Out-of-range vertex references are rejected", "statement": "An element or face that refers to a vertex not listed so far makes load raise an error (no invalid memory access).", "quantifier": "every text with an out-of-range index", "why_tests_cant": "undefined behaviour may appear to work in a test", "anchors": ["src/mesh.cc:mesh::load"]}
{"id": "C23", "title": "A mesh can be reloaded", "statement": "Calling load on a mesh that already holds triangles either replaces its content by the file's, or fails leaving the mesh unchanged.", "quantifier": "every non-empty mesh and every well formed file", "why_tests_cant": "history dependent", "anchors": ["src/mesh.cc:mesh::load"]}
{"id": "C24", "title": "Blank lines in mesh files are harmless", "statement": "Inserting blank lines anywhere in a well formed file does not change the result of load.", "quantifier": "every well formed file and every insertion position", "why_tests_cant": "unbounded positions", "anchors": ["src/mesh.cc:mesh::load", "src/mesh.cc:mesh::firstToken"]}
{"id": "C25", "title": "Ground friction is never negative", "statement": "Every ground triangle and flat ground that can be constructed has friction >= 0 (negative and NaN values are refused at construction), so every friction reported by a contact evaluation on it is >= 0 (for the geometric method on a mesh: whenever the reported volume is not zero).", "quantifier": "every construction argument, every mesh, pose and method", "why_tests_cant": "all inputs and aggregation weights", "anchors": ["src/triangleground.cc:triangleground::triangleground", "src/flat.cc:flat::flat", "src/rib.cc:rib::envelop"]}
{"id": "C26", "title": "Ground normals are unit and upward", "statement": "The normal of a constructed, non-degenerate ground triangle is orthogonal to its edges, has length one and non-negative z whatever the vertex order; a constructed flat ground has a unit normal with positive z parallel to the given one.", "quantifier": "all triangles and all normals", "why_tests_cant": "continuum of inputs", "anchors": ["src/triangleground.cc:triangleground::updateNormal", "src/flat.cc:flat::flat"]}
{"id": "C27", "title": "A ground triangle's box is the smallest box around it", "statement": "The bounding box of a constructed ground triangle contains every convex combination of its vertices and touches a vertex on each of its six faces, and carries the triangle's id.", "quantifier": "all triangles, all convex combinations", "why_tests_cant": "continuum of inputs", "anchors": ["src/triangleground.cc:triangleground::updateBBox", "toolbox/src/triangle.cc:triangle::clamp"]}
{"id": "C28", "title": "Sampling picks the highest ground under the sampling line", "statement": "The sampling method evaluates each vertical sampling line at the highest of all intersections with the candidate triangles, with the friction of that triangle, and reports a miss exactly when no candidate is hit.", "quantifier": "every candidate list (any length, any overlap of bridges/tunnels) and line", "why_tests_cant": "unbounded lists and layouts", "anchors": ["src/rib.cc:rib::samplingLine", "src/rib.cc:rib::envelopSampling"]}
{"id": "C29", "title": "Sampling does not depend on the order of mesh triangles", "statement": "Reordering the candidate triangles does not change whether the sampling method finds contact, nor its point, normal, depth, area and volume (friction can differ only when two triangles are hit at exactly the same height).", "quantifier": "every candidate list and every permutation of it", "why_tests_cant": "factorially many permutations", "anchors": ["src/rib.cc:rib::samplingLine", "src/rib.cc:rib::envelopSampling"]}
{"id": "C30", "title": "A rib out of contact reports a neutral record", "statement": "Whenever the evaluation of a rib returns false, its contact record has zero depth, area, volume and friction, the point at the lowest rib point of the rib frame (centre minus radius along the rib z axis, mapped by the pose) and the pose's z axis as normal - for both methods and both kinds of ground.", "quantifier": "every rib, ground, pose and method", "why_tests_cant": "all branches of all inputs", "anchors": ["src/rib.cc:rib::envelop", "src/rib.cc:rib::envelopGeometric", "src/rib.cc:rib::envelopSampling"]}
{"id": "C31", "title": "Contact area and volume formulas are the circular-segment formulas", "statement": "Whenever a flat or sampled contact of depth d (0<=d<=2R) is reported, area is width times the chord length, volume is width times the area of the circular segment of height d; both are non-negative, volume is strictly increasing in d, and it never exceeds width*pi*R^2.", "quantifier": "all radii, widths and depths", "why_tests_cant": "continuum of inputs; the segment area is an integral", "anchors": ["src/rib.cc:rib::envelopGeometric", "src/rib.cc:rib::envelopSampling"]}
{"id": "C32", "title": "Geometric contact with flat ground is the true plane/disk section", "statement": "For a rigid pose, the geometric method on flat ground reports contact exactly when the ground plane cuts the rib disk in a chord (up to the fixed numerical tolerance), and then the contact point is the chord midpoint: it lies on the ground plane and in the rib disk, is the point of the section closest to the rib centre, and depth is radius minus its distance from the centre, between 0 and the radius.", "quantifier": "every rib, rigid pose and flat ground", "why_tests_cant": "continuum of configurations", "anchors": ["src/rib.cc:rib::envelopGeometric", "toolbox/src/intersection.cc:Intersection(plane,disk,segment)"]}
{"id": "C33", "title": "Lowering the tyre never reduces the reported depth", "statement": "On flat ground, moving the tyre towards the ground never decreases the depth, area or volume reported by the geometric method.", "quantifier": "every pair of heights of the same tyre orientation", "why_tests_cant": "monotonicity over a continuum", "anchors": ["src/rib.cc:rib::envelopGeometric"]}
{"id": "C34", "title": "Geometric mesh contact does not depend on triangle order", "statement": "Reordering the mesh triangles does not change whether the geometric method finds contact, nor the reported contact quantities.", "quantifier": "every triangle list and permutation", "why_tests_cant": "factorially many permutations", "anchors": ["src/rib.cc:rib::envelopGeometric"]}
{"id": "C35", "title": "Contact does not depend on the wheel's spin angle", "statement": "Rotating the pose about the wheel's own spin axis (the shell y axis) does not change the contact found by a rib nor its point, depth, friction, area and volume.", "quantifier": "every spin angle, rib, ground and pose", "why_tests_cant": "continuum of spin angles", "anchors": ["src/rib.cc:rib::envelopGeometric", "src/rib.cc:rib::envelopSampling"]}
{"id": "C36", "title": "Geometric mesh contact aggregates with non-negative weights", "statement": "In the geometric method every intersected triangle contributes with a non-negative area and volume, so the reported area and volume are non-negative, volume is at most (number of triangles)*width*pi*R^2 and the reported friction lies between the smallest and largest friction of the candidate triangles. When each triangle by itself is either not cut or in contact, the result for the mesh is the superposition of the results for its triangles: areas and volumes add up, contact point and friction are the volume weighted means and the normal is along the volume weighted sum of normals.", "quantifier": "every candidate list, rib and pose", "why_tests_cant": "unbounded lists, continuum of positions", "anchors": ["src/rib.cc:rib::envelopGeometric"]}
{"id": "C37", "title": "Geometric evaluation of a valid mesh never raises", "statement": "For every mesh of non-degenerate triangles and every rigid pose, setup with method geometric returns normally.", "quantifier": "all meshes and poses", "why_tests_cant": "needs a rare near-vertex configuration", "anchors": ["toolbox/src/intersection.cc:Intersection(line,triangle,segment)", "src/rib.cc:rib::envelopGeometric", "src/shell.cc:shell::setup"]}
{"id": "C38", "title": "setup tells whether any rib is in contact", "statement": "shell::setup returns true exactly when at least one rib is in contact with the ground, for mesh and for flat ground.", "quantifier": "every rib count, ground, pose and method", "why_tests_cant": "unbounded rib count; the wrong rib must be the one in contact", "anchors": ["src/shell.cc:shell::setup"]}
{"id": "C39", "title": "Unknown enveloping methods are rejected", "statement": "setup raises an error whenever method is neither 'geometric' nor 'sampling'.", "quantifier": "every string, ground and pose", "why_tests_cant": "infinitely many strings and states", "anchors": ["src/shell.cc:shell::setup", "src/rib.cc:rib::envelop"]}
{"id": "C40", "title": "setup results do not depend on history", "statement": "After setup(ground,pose,method) the returned flag, the error raised if any, and every contact record depend only on the shell geometry and the arguments, not on earlier setup, transform, translate or rotate calls (nor on left-over records).", "quantifier": "every pair of prior histories", "why_tests_cant": "unbounded histories", "anchors": ["src/shell.cc:shell::setup", "src/shell.cc:shell::refineIntersection"]}
{"id": "C41", "title": "Total contact area is the sum of the ribs' areas", "statement": "shell::contactArea(total) equals the sum of the areas reported rib by rib.", "quantifier": "every rib count and every set of contact records", "why_tests_cant": "all record contents", "anchors": ["src/shell.cc:shell::contactArea"]}
{"id": "C42", "title": "Total contact volume is the sum of the ribs' volumes", "statement": "shell::contactVolume(total) equals the sum of the volumes reported rib by rib, and is non-negative after any setup.", "quantifier": "every rib count and every set of contact records", "why_tests_cant": "all record contents", "anchors": ["src/shell.cc:shell::contactVolume"]}
{"id": "C43", "title": "Aggregated contact quantities are averages of the ribs'", "statement": "The shell contact point, friction and (when there is contact volume) depth are weighted averages of the ribs' values: each lies between the smallest and largest rib value (coordinatewise for the point), and equal rib values are reproduced unchanged.", "quantifier": "every rib count and all non-negative volumes", "why_tests_cant": "unbounded rib counts and weights", "anchors": ["src/shell.cc:shell::contactPoint", "src/shell.cc:shell::contactFriction", "src/shell.cc:shell::contactDepth"]}
{"id": "C44", "title": "Light contact still reports the average depth", "statement": "When the total contact volume is positive but below the numerical threshold, the shell depth is still the average of the rib depths.", "quantifier": "every set of contact records", "why_tests_cant": "needs the tiny-volume branch", "anchors": ["src/shell.cc:shell::contactDepth"]}
{"id": "C45", "title": "The shell contact normal has unit length", "statement": "After any setup the aggregated contact normal has length one whenever the weighted sum of rib normals is not zero; per-rib normals have length one for every rigid pose.", "quantifier": "every set of records, every pose", "why_tests_cant": "continuum", "anchors": ["src/shell.cc:shell::contactNormal", "src/rib.cc:rib::envelop"]}
{"id": "C46", "title": "Contact frames are right-handed orthonormal frames", "statement": "contactPointAffine returns a frame whose axes are orthonormal and right handed, whose z axis is the contact normal, whose x axis is orthogonal to the wheel axis, and whose origin is the contact point, whenever the contact normal is a unit vector not parallel to the wheel axis.", "quantifier": "every contact record and pose", "why_tests_cant": "continuum", "anchors": ["src/shell.cc:shell::contactPointAffine"]}
{"id": "C47", "title": "Vector getters agree with per-rib getters", "statement": "Each vector-valued contact getter returns a vector with one entry per rib, equal to the corresponding per-rib getter, whatever the size of the vector passed in.", "quantifier": "every rib count and every size of the output vector", "why_tests_cant": "all sizes; undefined behaviour otherwise invisible", "anchors": ["src/shell.cc:shell::contactPoint", "src/shell.cc:shell::contactPointAffine", "src/shell.cc:shell::relativeAngles"]}
{"id": "C48", "title": "Copied objects equal the original", "statement": "After a.copy(b), a.isApprox(b) holds for every positive tolerance, for shape, rib, ground triangle and flat ground, and all accessors of a return the values of b.", "quantifier": "all objects", "why_tests_cant": "all field values", "anchors": ["src/shape.cc:shape::copy", "src/rib.cc:rib::copy", "src/triangleground.cc:triangleground::copy", "src/flat.cc:flat::copy"]}
{"id": "C49", "title": "Line/plane intersection is exact", "statement": "Intersection(line,plane) returns false exactly when |direction.normal| <= tolerance; otherwise the returned point lies on the line and on the plane and is the only such point.", "quantifier": "all lines, planes and tolerances >= 0", "why_tests_cant": "continuum", "anchors": ["toolbox/src/intersection.cc:Intersection(line,plane,point)"]}
{"id": "C50", "title": "Line/triangle intersection is exact", "statement": "For a line not parallel to the triangle plane, Intersection(line,triangle) with tolerance 0 returns true exactly when the line meets the closed triangle, and then returns the meeting point; with tolerance e>0 it returns false for lines whose spanned volume with the triangle edges is below e, never misses a meeting point of any other line, and any reported point is on the line and has barycentric coordinates at least -e.", "quantifier": "all lines, triangles and tolerances", "why_tests_cant": "continuum", "anchors": ["toolbox/src/intersection.cc:Intersection(line,triangle,point)"]}
{"id": "C51", "title": "Plane/plane intersection is exact", "statement": "For planes with unit normals, Intersection(plane,plane) yields, when it succeeds, exactly the set of common points of the two planes.", "quantifier": "all pairs of planes", "why_tests_cant": "continuum", "anchors": ["toolbox/src/intersection.cc:Intersection(plane,plane,line)"]}
{"id": "C52", "title": "Plane/disk intersection is the chord", "statement": "For unit normals, Intersection(plane,disk,segment) returns a segment with both end points on the plane, in the disk plane and (outside the tangency band) at distance exactly the radius from the centre; every common point of plane and disk is on that segment.", "quantifier": "all planes and disks", "why_tests_cant": "continuum", "anchors": ["toolbox/src/intersection.cc:Intersection(plane,disk,segment)", "toolbox/src/intersection.cc:Intersection(line,disk,segment)"]}
{"id": "C53", "title": "Triangle/disk intersection stays on both bodies", "statement": "When Intersection(triangle,disk,segment) succeeds, the end points lie in the triangle's plane and in the disk's plane, within the disk (outside the tangency band) and within the triangle up to the tolerance.", "quantifier": "all triangles and disks", "why_tests_cant": "continuum", "anchors": ["toolbox/src/intersection.cc:Intersection(triangle,disk,segment)", "toolbox/src/intersection.cc:Intersection(segment,disk,segment)"]}
{"id": "C54", "title": "The S-function output bus mirrors the shell", "statement": "Whenever enve_sfun_out returns: rib slots 0..min(ribs,20)-1 hold the shell's per-rib contact frame, depth and friction and all remaining slots hold NaN, no slot is out of range; with the mesh selected (0) the mesh is evaluated first, InMesh is its result, and the flat ground is evaluated exactly when that result is false; with the flat ground selected (1) only the flat ground is evaluated and InMesh is set. Any other selector value is rejected before the shell is touched.", "quantifier": "every rib count, bus and selector value", "why_tests_cant": "all sizes and all selector values", "anchors": ["sfun/src_sfun/enve_sfun_interface.cc:enve_sfun_out"]}
{"id": "C55", "title": "Disk area and perimeter are the circle formulas", "statement": "disk::area() is pi*r^2 and disk::perimeter() is 2*pi*r.", "quantifier": "all radii", "why_tests_cant": "coincide numerically at r=2 and r=0", "anchors": ["toolbox/src/disk.cc:disk::area", "toolbox/src/disk.cc:disk::perimeter"]}
{"id": "C56", "title": "Relative angles reconstruct the relative orientation", "statement": "For a rigid pose and a unit contact normal not parallel to the wheel axis, the angles returned by the shell-level relativeAngles (yaw z, camber x, pitch y) rebuild the rotation from the contact frame to the wheel frame. The per-rib version returns the same angles of the rib's own contact frame with the rib's angle subtracted from the first (yaw) component.", "quantifier": "all relative orientations", "why_tests_cant": "continuum including the gimbal branches", "anchors": ["src/shell.cc:shell::relativeAngles"]}
{"id": "C57", "title": "Failed resize leaves a usable shell", "statement": "If resize(n) raises (invalid profile), the shell still answers queries consistently (all ribs present or none).", "quantifier": "every profile and n", "why_tests_cant": "failure point depends on all parameters", "anchors": ["src/shell.cc:shell::resize"]}
{"id": "C58", "title": "Tokenising is whitespace exact", "statement": "mesh::split on ' ' yields exactly the maximal runs of non-space characters in order; firstToken and tail split a line into its first word and the trimmed rest.", "quantifier": "every string", "why_tests_cant": "unbounded strings", "anchors": ["src/mesh.cc:mesh::split", "src/mesh.cc:mesh::tail", "src/mesh.cc:mesh::firstToken"]}
{"id": "C59", "title": "Flat and mesh ground agree", "statement": "A rib evaluated geometrically against one large triangle lying in the ground plane reports the same contact point, depth, area, volume and friction as against the flat ground with that plane (when the section chord lies inside the triangle).", "quantifier": "every rib, upright rigid pose and plane height", "why_tests_cant": "continuum; two independent code paths", "anchors": ["src/rib.cc:rib::envelopGeometric"]}
{"id": "C60", "title": "Sampling on flat ground reports the true height", "statement": "On a horizontal flat ground at height h, an upright pose (wheel z axis vertical, any heading) and the rib centre not below the ground, the sampling method reports contact exactly when the rib's lowest point is below h, with depth h minus the height of that lowest point, the point straight below the centre and a vertical normal.", "quantifier": "every rib, height and horizontal position", "why_tests_cant": "continuum", "anchors": ["src/rib.cc:rib::envelopSampling"]}
{"id": "C61", "title": "The spatial search does not change the geometric result", "statement": "After setup with the geometric method on a mesh, every rib reports the record that evaluating the rib on all triangles of the mesh would give, and setup returns whether any of these evaluations finds contact: the box query and the candidate selection only save time.", "quantifier": "every shell, mesh (any number of triangles), rigid pose", "why_tests_cant": "continuum of poses, unbounded meshes; a missed triangle shows only in rare positions", "anchors": ["src/shell.cc:shell::setup", "src/shell.cc:shell::refineIntersection", "src/mesh.cc:mesh::intersection", "src/rib.cc:rib::envelopGeometric"]}
{"id": "C62", "title": "Distant ground has no influence", "statement": "Two meshes with the same triangles near the shell (bounding boxes that meet the cube of half extent Rx around the shell origin) give the same outcome of setup, whatever else they contain and in whatever order: same flag, and for every rib the same contact point, normal, depth, area and volume.", "quantifier": "every shell, pair of meshes, pose, both methods", "why_tests_cant": "quantifies over all possible rest-of-the-world meshes", "anchors": ["src/shell.cc:shell::setup", "src/mesh.cc:mesh::intersection"]}
{"id": "C63", "title": "Initialisation of the Simulink block", "statement": "For a valid tyre shape and a positive number of ribs, enve_sfun_init succeeds exactly if ENVE_GROUND_PATH names a *.rdf or *.obj file that loads and the flat friction is not negative; it throws without the variable or with another extension. It then holds one triangle per element of the file (in order, at the listed vertices, with the listed friction, 1 for OBJ), a horizontal plane at the given height with the given friction, and a shell of that shape and number of ribs at the identity pose.", "quantifier": "every path, file contents and parameters", "why_tests_cant": "unbounded file contents and parameters", "anchors": ["sfun/src_sfun/enve_sfun_interface.cc:enve_sfun_init"]}
{"id": "C64", "title": "A simulation step depends on its own input only", "statement": "In a run of any number of steps of the block, the bus of every step equals the bus that a single step with the same input gives on the shell just initialised; the run completes exactly if each of its inputs, taken alone, does.", "quantifier": "every shell, ground and sequence of inputs of any length, any arithmetic", "why_tests_cant": "quantifies over all histories", "anchors": ["sfun/src_sfun/enve_sfun_interface.cc:enve_sfun_out", "src/shell.cc:shell::setup"]}
{"id": "C65", "title": "No step of a simulation fails", "statement": "After a successful initialisation every step with selectors 0 or 1 returns a bus, and a run gives one bus per input.", "quantifier": "every input sequence of any length", "why_tests_cant": "a failing pose is a rare coincidence", "anchors": ["sfun/src_sfun/enve_sfun_interface.cc:enve_sfun_out", "src/rib.cc:rib::envelopGeometric", "toolbox/src/intersection.cc:Intersection(plane,triangle,segment)"]}
{"id": "C66", "title": "IsParallel means parallel", "statement": "For entities with unit directions and normals, non-degenerate segments and triangles, IsParallel(a, b, tol) holds exactly when both have a direction or a normal and the sine of their angle (the cosine, for a direction and a normal) is below tol. The order of the arguments does not matter. Points, balls and empty entities are parallel to nothing. With directions shorter than 1 the test is meaningless: perpendicular lines can be reported as parallel.", "quantifier": "every pair of the nine kinds of entities, every tolerance", "why_tests_cant": "81 combinations of kinds over a continuum of directions", "anchors": ["toolbox/src/parallel.cc:IsParallel"]}
{"id": "C67", "title": "IsOrthogonal means orthogonal", "statement": "IsOrthogonal(a, b, tol) holds exactly when both entities have a direction or a normal and these are at a right angle up to tol (for a direction and a normal: parallel up to tol). The order of the arguments does not matter.", "quantifier": "every pair of the nine kinds of entities, every tolerance", "why_tests_cant": "81 combinations of kinds over a continuum of directions", "anchors": ["toolbox/src/orthogonal.cc:IsOrthogonal"]}
{"id": "C68", "title": "IsCollinear means on one line", "statement": "For two lines, rays or segments, IsCollinear holds for every positive tolerance exactly when one line contains both; for one tolerance, exactly when the second starts less than the tolerance away from the line carrying the first and their directions differ by an angle with a sine below the tolerance.", "quantifier": "every pair of entities, every tolerance", "why_tests_cant": "continuum of positions and directions", "anchors": ["toolbox/src/collinear.cc:IsCollinear"]}
{"id": "C69", "title": "IsCoplanar means in one plane", "statement": "For two entities with a direction or a normal, IsCoplanar holds for every positive tolerance exactly when one plane contains both. For two lines, rays or segments and one tolerance: exactly when they are parallel or their carrying lines come as close as the tolerance times the distance of their starts. Points, balls and empty entities are coplanar with nothing.", "quantifier": "every pair of entities, every tolerance", "why_tests_cant": "continuum of positions and directions", "anchors": ["toolbox/src/coplanar.cc:IsCoplanar"]}
{"id": "C70", "title": "Intersection does not depend on the order of its arguments", "statement": "Intersection(a, b) and Intersection(b, a) give the same result for entities of different kinds. The result never has a larger dimension than an argument. A ball can be intersected with a line, ray, plane or segment and with nothing else; an empty entity with nothing.", "quantifier": "every pair of the nine kinds of entities, every tolerance, any arithmetic", "why_tests_cant": "81 combinations of kinds through four branches each", "anchors": ["toolbox/src/intersection.cc:Intersection(entity,entity)"]}
{"id": "C71", "title": "Crossing of lines, rays and segments", "statement": "For two lines, rays or segments that are not parallel up to the tolerance, the intersection is a point if and only if they have a common point (both extended by the tolerance at their ends), and it is that point; parallel ones give no point. Intersection on the entities returns this point or an empty entity unless they are collinear.", "quantifier": "every pair of lines, rays, segments, every positive tolerance", "why_tests_cant": "continuum of positions and directions", "anchors": ["toolbox/src/intersection.cc:Intersection(line,line,point)", "toolbox/src/intersection.cc:Intersection(segment,segment,point)", "toolbox/src/intersection.cc:Intersection(entity,entity)"]}
{"id": "C72", "title": "Intersections with a ball", "statement": "The segment returned for a line, ray or segment and a ball is exactly the set of their common points, and none is returned only if no point is deeper in the ball than the tolerance; the disk returned for a plane and a ball is exactly the set of their common points, and none is returned exactly if there are none.", "quantifier": "every line, ray, segment, plane and ball, every tolerance", "why_tests_cant": "continuum of positions", "anchors": ["toolbox/src/intersection.cc:Intersection(line,ball,segment)", "toolbox/src/intersection.cc:Intersection(ray,ball,segment)", "toolbox/src/intersection.cc:Intersection(segment,ball,segment)", "toolbox/src/intersection.cc:Intersection(plane,ball,disk)"]}
{"id": "C73", "title": "Intersection of three planes", "statement": "Three planes whose normals span a volume of at least the tolerance have exactly one common point and this point is returned; otherwise nothing is returned.", "quantifier": "every triple of planes, every positive tolerance", "why_tests_cant": "continuum of planes", "anchors": ["toolbox/src/intersection.cc:Intersection(plane,plane,plane,point)"]}
{"id": "C74", "title": "Point membership", "statement": "Intersection of a point and a line, ray, plane, segment, triangle, disk or point returns the point for every positive tolerance exactly when the point belongs to the entity; otherwise it returns an empty entity. The order of the arguments does not matter. For a ball or an empty entity it throws, although isInside of a ball is exact.", "quantifier": "every point, entity of any kind, tolerance", "why_tests_cant": "continuum of points", "anchors": ["toolbox/src/intersection.cc:Intersection(entity,entity)", "toolbox/src/line.cc:line::isInside", "toolbox/src/ray.cc:ray::isInside", "toolbox/src/segment.cc:segment::isInside", "toolbox/src/triangle.cc:triangle::isInside", "toolbox/src/disk.cc:disk::isInside"]}
{"id": "C75", "title": "A line pierces a flat entity at the right point", "statement": "For a line, ray or segment and a plane, triangle or disk that are not coplanar and steeper than the tolerance, Intersection returns their common point if there is one; a point it returns is on both, up to the tolerance at the ends and at the border of a triangle; if there is no such point, even up to the tolerance, it returns an empty entity.", "quantifier": "every line, ray, segment, plane, triangle and disk, every positive tolerance", "why_tests_cant": "continuum of positions", "anchors": ["toolbox/src/intersection.cc:Intersection(line,plane,point)", "toolbox/src/intersection.cc:Intersection(ray,plane,point)", "toolbox/src/intersection.cc:Intersection(plane,segment,point)", "toolbox/src/intersection.cc:Intersection(line,triangle,point)", "toolbox/src/intersection.cc:Intersection(line,disk,point)"]}
{"id": "C76", "title": "Entities on one line", "statement": "For two lines, rays or segments on a common line Intersection returns exactly their common points (for two segments: a segment that contains them and is within half the tolerance of both, or an empty entity if they are further apart), and does not throw.", "quantifier": "every pair of line-like entities on a common line, every positive tolerance", "why_tests_cant": "continuum of positions", "anchors": ["toolbox/src/intersection.cc:Intersection(entity,entity)", "toolbox/src/intersection.cc:Intersection(ray,ray,ray)", "toolbox/src/intersection.cc:Intersection(ray,ray,segment)", "toolbox/src/intersection.cc:Intersection(segment,segment,segment)", "toolbox/src/intersection.cc:Intersection(ray,segment,segment)"]}
{"id": "C77", "title": "A collection answers truthfully about its entities", "statement": "For a collection of entities, contain<Kind>, are<Kind>, is<Kind>(i) and count<Kind> tell whether some, all, the i-th or how many entities are of the kind; the counts of the kinds add up to the size; contain/are/count for degenerated and (non-)clampable entities do the same; push_back, resize and clear change the contents as their names say; remove<Kind> removes exactly the entities of the kind; translate, rotate and transform move each entity once.", "quantifier": "every collection of every size, every kind", "why_tests_cant": "unbounded collections, nine kinds and their combinations", "anchors": ["toolbox/src/collection.cc:collection::contain*", "toolbox/src/collection.cc:collection::are*", "toolbox/src/collection.cc:collection::is*", "toolbox/src/collection.cc:collection::count*", "toolbox/src/collection.cc:collection::remove*", "toolbox/src/collection.cc:collection::translate"]}
{"id": "C78", "title": "Spatial queries on a collection", "statement": "After buildAABBtree on a non-empty collection of bounded entities, a query with boxes or with another collection returns exactly the entities (pairs) whose bounding boxes overlap, so every entity with a point in the box and every pair with a common point is found; buildAABBtree reports an error exactly when some entity is unbounded; intersection(entities, tolerance) gives the intersections of all pairs i <= j.", "quantifier": "every collection of every size, every query box, list of boxes or second collection", "why_tests_cant": "unbounded collections, continuum of positions", "anchors": ["toolbox/src/collection.cc:collection::buildAABBtree", "toolbox/src/collection.cc:collection::intersection", "toolbox/src/AABBtree.cc:AABBtree::intersection"]}
{"id": "C79", "title": "Moving an entity moves its points", "statement": "translate, rotate and transform by a rigid motion move the point set of an entity: a point is in the moved entity exactly when it is the moved position of a point of the entity; rotate turns by the angle about the axis through the origin. An entity in proper condition (unit directions, nonzero sizes) stays so.", "quantifier": "every entity, every rigid motion, every angle, unit axis and vector", "why_tests_cant": "continuum of motions and entities", "anchors": ["toolbox/src/entity.cc:translate", "toolbox/src/entity.cc:rotate", "toolbox/src/entity.cc:transform"]}
{"id": "C80", "title": "clamp gives the bounding box", "statement": "The box given by clamp contains every point of the entity and is the smallest such box; exactly the bounded kinds of entities can be clamped.", "quantifier": "every entity of the nine kinds", "why_tests_cant": "continuum of entities", "anchors": ["toolbox/src/entity.cc:clamp", "toolbox/src/entity.cc:isClampable", "toolbox/src/disk.cc:clamp", "toolbox/src/triangle.cc:clamp", "toolbox/src/segment.cc:clamp", "toolbox/src/ball.cc:clamp"]}
{"id": "C81", "title": "Distance queries on boxes and bounding box trees", "statement": "centerDistance is the distance from a point to the nearest point of a box, exteriorDistance to the farthest. selectMinimumDistance returns exactly the boxes whose nearest distance is at most the smallest farthest distance; so the box around the object nearest to the point is always among the candidates, and there is at least one candidate.", "quantifier": "every tree built from any number of boxes, every point", "why_tests_cant": "unbounded trees, continuum of positions", "anchors": ["toolbox/src/aabb.cc:aabb::centerDistance", "toolbox/src/aabb.cc:aabb::exteriorDistance", "toolbox/src/AABBtree.cc:AABBtree::minimumExteriorDistance", "toolbox/src/AABBtree.cc:AABBtree::selectLessThanDistance", "toolbox/src/AABBtree.cc:AABBtree::selectMinimumDistance"]}
{"id": "C82", "title": "Results do not depend on the frame of reference", "statement": "When both entities are moved by the same rigid motion, IsParallel, IsOrthogonal, IsCollinear and IsCoplanar answer the same, and Intersection gives the moved result: same kind, exceptions in the same cases, coordinates moved.", "quantifier": "every pair of entities of all kinds, every rigid motion, every tolerance", "why_tests_cant": "continuum of motions, 81 pairs of kinds", "anchors": ["toolbox/src/intersection.cc:Intersection(entity,entity)", "toolbox/src/parallel.cc", "toolbox/src/orthogonal.cc", "toolbox/src/collinear.cc", "toolbox/src/coplanar.cc"]}
{"id": "C83", "title": "MATLAB objects are isolated from each other", "statement": "A call of a MEX gateway changes at most the object named by the first handle of a modifying command (or deletes it), whether it returns or raises an error; it makes at most one new object; every handle it returns is new. Over a whole script an object that no modifying command names first keeps its state, and no handle is given out twice.", "quantifier": "every command of the four gateways, every number and kind of values, every heap of objects, every script", "why_tests_cant": "unbounded scripts, all combinations of argument values", "anchors": ["toolbox/src_mex/mex_flat.cc", "toolbox/src_mex/mex_mesh.cc", "toolbox/src_mex/mex_triangleground.cc", "toolbox/src_mex/mex_shell.cc", "toolbox/src_mex/mex_utils.hh"]}
{"id": "C84", "title": "Handles are checked", "statement": "A command given a value that is not a handle, or the handle of an object of another class or of a deleted object, raises an error and changes nothing.", "quantifier": "every command, every value", "why_tests_cant": "all commands with all values", "anchors": ["toolbox/src_mex/mex_utils.hh:convertMat2Handle", "toolbox/src_mex/mex_utils.hh:convertMat2Ptr"]}
{"id": "C85", "title": "Shapes of vectors and poses are checked", "statement": "A 3x1 double vector and a 4x4 double matrix are accepted as the vector and the pose they contain; any value of another shape or type is refused with an error and nothing changes.", "quantifier": "every command taking a vector or pose, every value", "why_tests_cant": "values of every shape and class", "anchors": ["toolbox/src_mex/mex_utils.hh:mex_matrix_pointer", "toolbox/src_mex/mex_flat.cc", "toolbox/src_mex/mex_shell.cc"]}
{"id": "C86", "title": "Gateway commands deliver the results of the C++ members", "statement": "Every query command returns the result of the C++ member it is named after, with ribs and triangles counted from one; constructors build what the C++ constructors build or pass on their errors.", "quantifier": "every query command, every object, every rib and triangle number in every numeric class", "why_tests_cant": "about sixty commands with all objects and numbers", "anchors": ["toolbox/src_mex/mex_shell.cc", "toolbox/src_mex/mex_mesh.cc", "toolbox/src_mex/mex_flat.cc", "toolbox/src_mex/mex_triangleground.cc"]}
{"id": "C87", "title": "The MATLAB classes do what they offer", "statement": "The methods of enve_flat, enve_mesh, enve_triangleground and enve_shell have the effect of the C++ members: copies, setters, default construction, construction of a mesh from a file, and the Vec methods list the value of every rib in order.", "quantifier": "every instance and argument", "why_tests_cant": "unbounded number of ribs, all objects", "anchors": ["toolbox/lib/enve_flat.m", "toolbox/lib/enve_mesh.m", "toolbox/lib/enve_triangleground.m", "toolbox/lib/enve_shell.m"]}
{"id": "C88", "title": "A careful MATLAB script never crashes", "statement": "A script that passes MATLAB values of the documented kinds (handles of live objects, vectors and poses of the right shape, rib and triangle numbers in range, at most 200 ribs, readable files whose elements refer to listed nodes, a mesh ground that was read from a file) runs to its end: every call returns or raises a MATLAB error, whatever the order of the calls and whatever errors occurred before.", "quantifier": "every script of any length over all commands of the four gateways", "why_tests_cant": "unbounded sequences of calls with all combinations of values; undefined behaviour need not show up in a test", "anchors": ["toolbox/src_mex/mex_flat.cc", "toolbox/src_mex/mex_mesh.cc", "toolbox/src_mex/mex_triangleground.cc", "toolbox/src_mex/mex_shell.cc"]}
{"id": "C89", "title": "The contact does not depend on where the scene is", "statement": "Moving ground and wheel together by one rigid motion leaves contact, depth, area, volume, friction and relative angles as they are and moves contact points, normals and contact frames along. For the sampling method, which probes along the vertical, this holds for motions that keep the vertical.", "quantifier": "every rib and tyre, rigid pose and rigid motion, flat ground and mesh", "why_tests_cant": "a continuum of poses and motions; tests use scenes near the origin", "anchors": ["toolbox/src/rib.cc:envelop", "toolbox/src/shell.cc:setup", "toolbox/src/intersection.cc:Intersection(line, triangle, segment)"]}
{"id": "C90", "title": "A ground triangle changed after construction stays consistent", "statement": "A ground triangle built from three points that are not on one line reports an upward unit normal of these points and the smallest box around them, and goes on doing so after translating, turning, transforming, rewriting or copying it, so that contacts with a mesh made of such triangles are those of freshly built ones.", "quantifier": "every ground triangle and every sequence of the public operations that change it", "why_tests_cant": "all sequences of operations with all arguments; the members of the base class that bypass the derived data are easy to overlook", "anchors": ["toolbox/src/triangleground.cc:triangleground::updateNormal", "toolbox/src/triangleground.cc:triangleground::updateBBox", "toolbox/src/triangleground.cc:triangleground::copy", "toolbox/src/triangle.cc:translate", "toolbox/src/triangle.cc:transform", "toolbox/src/triangle.cc:swap", "toolbox/src/entity.cc:rotate"]}
{"id": "C91", "title": "A flat ground changed after construction stays valid", "statement": "A flat ground has nonnegative friction and an upward unit normal, whatever public operations are applied to it after construction; contacts on it never report negative friction or a downward normal.", "quantifier": "every flat ground and every sequence of the public operations that change it", "why_tests_cant": "all sequences of operations with all arguments", "anchors": ["toolbox/src/flat.cc:flat::friction", "toolbox/src/flat.cc:flat::layingPlane", "toolbox/src/flat.cc:flat::copy", "toolbox/src/plane.cc:reverse", "toolbox/src/plane.cc:transform", "toolbox/src/plane.cc:normal"]}
{"id": "C92", "title": "Indices out of range are refused", "statement": "Reading or writing a vertex of a triangle, segment or ground triangle, an edge, a coordinate of a box, or exchanging two vertices, with an index in range accesses exactly that component; with an index out of range it throws and accesses nothing.", "quantifier": "every object, every index of the index type, every value written", "why_tests_cant": "the whole range of the index type; an access outside an array need not show", "anchors": ["toolbox/src/triangle.cc:triangle::vertex", "toolbox/src/triangle.cc:triangle::operator[]", "toolbox/src/triangle.cc:triangle::edge", "toolbox/src/triangle.cc:triangle::swap", "toolbox/src/segment.cc:segment::vertex", "toolbox/src/aabb.cc:aabb::min", "toolbox/src/aabb.cc:aabb::max", "toolbox/src/triangleground.cc:triangleground::vertex"]}
{"id": "C93", "title": "Angle is the angle between two vectors", "statement": "For all vectors that are not zero, Angle(a, b) returns the angle of Euclidean geometry: the number between 0 and pi whose cosine is the scalar product over the product of the lengths; it is symmetric, invariant under positive scaling and rotation, 0 or pi exactly for parallel vectors, and satisfies the triangle inequality. It always returns a number.", "quantifier": "all pairs and triples of vectors", "why_tests_cant": "continuum of vectors; the failing ones depend on the rounding of the last bit", "anchors": ["toolbox/src/math.cc:Angle"]}
{"id": "C94", "title": "isDegenerated finds degenerated entities", "statement": "isDegenerated(tol) tells whether an entity has lost its dimension up to tol: a direction, normal, segment, triangle side or radius shorter than tol, a triangle without area, a ball without points, a box without extension; the answer does not depend on where the entity is.", "quantifier": "all entities, boxes and tolerances", "why_tests_cant": "continuum of shapes and places", "anchors": ["toolbox/src/segment.cc:segment::isDegenerated", "toolbox/src/triangle.cc:triangle::isDegenerated", "toolbox/src/disk.cc:disk::isDegenerated", "toolbox/src/ball.cc:ball::isDegenerated", "toolbox/src/line.cc:line::isDegenerated", "toolbox/src/aabb.cc:aabb::isDegenerated"]}
{"id": "C95", "title": "Contacts are numbers in double arithmetic", "statement": "In the arithmetic of double, for a rib of ordinary radius and width, every contact reported by setup on flat ground (and by the sampling method on any ground) has a nonnegative depth and area, and depth, area and volume are numbers, not NaN; a wheel that is above the ground gets no contact.", "quantifier": "all ribs of ordinary size, all grounds, all poses (even with NaN or infinite entries)", "why_tests_cant": "the failures need positions for which cancellation eats the clearance; they depend on the last bits", "anchors": ["toolbox/src/rib.cc:rib::envelopGeometric", "toolbox/src/rib.cc:rib::envelopSampling", "toolbox/src/intersection.cc:Intersection(line, disk)"]}
{"id": "C96", "title": "Moving a shell moves every point of the tyre", "statement": "translate(v) shifts every point of the tyre by v measured along x(), y(), z() of the shell and keeps the axes; rotate(angle, axis) turns every point by the angle about the given axis of the tyre through its hub; transform(pose) puts the tyre into that pose wherever it was. Movements compose and can be undone, and nothing but the pose changes. (Expected also: translation() grows by the vector given to translate.)", "quantifier": "all shells, poses, vectors, unit axes and angles, every point of the tyre", "why_tests_cant": "all points, poses and movements; a unit test starts from the identity pose, where moving in the tyre frame and in the ground frame are the same", "anchors": ["toolbox/src/shell.cc:shell::translate", "toolbox/src/shell.cc:shell::rotate", "toolbox/src/shell.cc:shell::transform", "toolbox/src/shell.cc:shell::x", "toolbox/src/shell.cc:shell::translation"]}
{"id": "C97", "title": "The search of the ground below the wheel loses nothing to rounding", "statement": "Computed in double precision, setup on a mesh with finite vertices finds every triangle that has a point in the exact cube of half side Rx around the hub, however far from the origin the wheel is and even when the corners of that cube overflow; each found triangle's coordinate ranges reach a cube larger only by the rounding error; with the sampling method every found triangle is a candidate of every rib, and each sampling line takes a hit no other hit is above.", "quantifier": "all meshes loaded from a file with finite vertices, all finite hub positions and radii, all shells reached by any history, all points of all triangles, every rib and sampling line", "why_tests_cant": "rounding of the corners of the wheel box at every magnitude; a test on round numbers near the origin has no rounding error at all", "anchors": ["toolbox/src/shell.cc:shell::setup", "toolbox/src/shell.cc:shell::updateBBox", "toolbox/src/mesh.cc:mesh::intersection", "toolbox/src/aabb.cc:aabb::intersects", "toolbox/src/aabb.cc:aabb::clamp"]}
{"id": "C98", "title": "Small movements of the wheel over flat ground change the contact little", "statement": "On flat ground, two setups of the same tyre at poses that differ by a translation report, for every rib, depths that differ by at most the component of the translation along the ground normal, divided by the sine of the angle between wheel axis and normal (geometric method; plus eps over radius times squared sine, the depth below which that method reports no contact) or by the vertical component of the normal (sampling method, no extra term); the contact volumes differ by at most 2*radius*width times as much. Depth and volume thus have no jumps, also where contact begins and ends.", "quantifier": "all shells reached by any history, all rigid poses and translations, all constructed flat grounds, all ribs, both methods", "why_tests_cant": "a statement about all pairs of nearby poses, including every pose at the boundary between contact and none; a jump can sit between any two sampled poses", "anchors": ["toolbox/src/rib.cc:rib::envelopGeometric(flat)", "toolbox/src/rib.cc:rib::envelopSampling(flat)", "toolbox/src/shell.cc:shell::setup(flat)"]}
{"id": "C99", "title": "The mirror image of a scene has the mirror image of the contact", "statement": "Mirror wheel pose and ground at the plane y = 0. A tyre built or resized on a valid profile is symmetric, so rib n-1-i of the mirrored scene takes the place of rib i: it reports the mirrored contact point and normal and the same depth, area and volume, on flat ground with both methods and on a mesh with the sampling method (there the returned flag is the same, too). For the whole tyre volume and depth are the same, and contact point, normal and contact frame are mirrored; the friction is the same whenever the ribs report the same frictions, as they do on flat ground.", "quantifier": "all reachable shells with symmetric ribs (proved for every valid profile and number of ribs), all rigid poses (sampling rib by rib: all poses), all constructed flat grounds, all built meshes whose triangles are mirrored one by one", "why_tests_cant": "relates the results of two scenes for all poses, grounds and tyres; a left/right slip (a sampling line on the wrong side, a sign in a cross product, an asymmetric rib grid) shows only for scenes that are not themselves symmetric", "anchors": ["toolbox/src/rib.cc:rib::envelopGeometric(flat)", "toolbox/src/rib.cc:rib::envelopSampling", "toolbox/src/shell.cc:shell::setup", "toolbox/src/shell.cc:shell::resize", "toolbox/src/shell.cc:shell::contactPointAffine"]}
{"id": "C100", "title": "Relative angles: no yaw, camber is the inclination of the wheel axis, pitch the turn about the axis", "statement": "For a contact with unit normal n that is not along the wheel axis, the angles of the wheel relative to the contact frame are: yaw 0 (the x axis of the contact frame is at right angles to the wheel axis by construction); camber arcsin(n . axis), the angle between the wheel axis and the ground plane; pitch in [-pi, pi), the angle by which the wheel is turned about its axis, measured from the x axis of the contact frame. These conditions determine the angles. For one rib the angle of the rib is subtracted from the first angle. In the mirrored scene the camber changes its sign and the pitch stays.", "quantifier": "all shells in a rigid pose, all contact points and unit normals not along the wheel axis; doubles: one scene", "why_tests_cant": "the code takes the angles from a general Euler angle routine with a case distinction on the sign of a quantity that is exactly zero; whether rounding makes it positive depends on the pose (about 3 percent of yaw angles of an upright wheel on a level road)", "anchors": ["toolbox/src/shell.cc:shell::relativeAngles", "toolbox/src/shell.cc:shell::contactPointAffine"]}
{"id": "C101", "title": "The printed report of a shell shows what its queries return", "statement": "The report that a shell prints shows, behind the label of each quantity, the value that the corresponding query returns: the parameters of the shape, the largest radius, centre, radius, width and angle of each rib, camber, rotation and yaw of the wheel, contact point, normal, friction, depth, area and volume of the shell and of each rib, the pose and the contact frame, and the angles relative to the contact frame, in the order of the label (camber, rotation, yaw); there is exactly one line per rib for each quantity of the ribs; and the stream writes numbers after the report in the format it had before.", "quantifier": "all shells whose contact records can be read, in any arithmetic", "why_tests_cant": "an inspection of a printout cannot tell values that happen to coincide (a yaw that is 0, an area that happens to equal the friction) from values in the wrong place, nor see the flags left on the stream", "anchors": ["toolbox/src/shell.cc:shell::print", "toolbox/src/shape.cc:shape::print", "toolbox/src/flat.cc:flat::print", "toolbox/src/triangleground.cc:triangleground::print", "toolbox/src/acme/utilities.cc:operator<<"]}
{"id": "C102", "title": "Printed meshes and bounding box trees are complete", "statement": "The file of a mesh shows every triangle of the mesh, with its position, vertices, normal and friction, and as many triangles as the mesh has; two meshes with the same file have the same triangles (vertices, normals, frictions) in the same order. The report on a bounding box tree over n boxes shows the boxes of all its 2 n - 1 nodes, parents before children, among them all the boxes the tree was built from; the report on the empty tree says that it is empty. The output of a single value (point, line, ray, plane, segment, box, triangle, disk, ball) shows its parts in order, so do the reports on a profile, a ground triangle and a flat ground, and that of a pose shows the matrix that maps points to transformed points.", "quantifier": "all meshes, all lists of boxes, any arithmetic", "why_tests_cant": "all sizes and all shapes of trees, including boxes with NaN", "anchors": ["toolbox/src/mesh.cc:mesh::print", "toolbox/src/AABBtree.cc:AABBtree::print", "toolbox/src/utilities.cc:operator<<"]}
{"id": "C103", "title": "The contact volume approximates the volume of the tyre below the ground", "statement": "For a tyre on flat ground the contact volume reported after a setup with the geometric method is, up to an error of order one over the number of ribs and of order of the tolerance, the volume of the part of the tyre that lies below the ground: the solid whose circular sections have the radii of the profile, cut by the plane of the ground.", "quantifier": "all valid profiles, all numbers of ribs, all rigid poses, all flat grounds, exact real arithmetic", "why_tests_cant": "the true volume is an integral over a continuum of sections with no closed form; a test compares with another approximation at a few poses", "anchors": ["toolbox/src/shell.cc:shell::setup", "toolbox/src/shell.cc:shell::contactVolume", "toolbox/src/rib.cc:rib::envelop", "toolbox/src/shell.cc:shell::resize", "toolbox/src/shape.cc:shape::surfaceRadius"]}
{"id": "C104", "title": "A tyre built in double precision has the ribs it should have", "statement": "With the parameters and all the arithmetic in double precision, constructing a tyre from a valid profile and a positive number of ribs succeeds; the ribs have positive radii not larger than the radius of the tyre, centres within its width and at the midpoints of equal strips, and widths equal to the width of a strip, up to rounding errors.", "quantifier": "all valid profiles of doubles, all positive numbers of ribs, IEEE double arithmetic rounded to nearest", "why_tests_cant": "the loop accumulates one rounding error per rib, and the width check compares a rounded position with the half width; whether some profile and rib count overshoots it is a question about all doubles", "anchors": ["toolbox/src/shell.cc:shell::resize", "toolbox/src/shape.cc:shape::surfaceRadius", "toolbox/src/shape.cc:shape::checkWidthBound", "toolbox/src/rib.cc:rib::rib"]}
{"id": "C105", "title": "The sampling method in double precision is accurate", "statement": "On flat ground, with everything in double precision, the sampling method finds contact for every rib that is deeper in the ground than a small error bound, finds none for every rib that is further above it, and the reported depth, normal, point and friction are within small bounds of the values of exact arithmetic. The bounds grow with the ratio of radius and width of the rib only.", "quantifier": "all ribs, rigid poses and planes within a kilometre of the origin, IEEE double arithmetic rounded to nearest, all input errors up to 2^-40", "why_tests_cant": "some two hundred rounded operations with cancellation, over a continuum of scenes; a test sees the errors of a few scenes only", "anchors": ["src/rib.cc:rib::envelopSampling", "src/rib.cc:rib::samplingLine", "src/intersection.cc:Intersection", "src/flat.cc:flat::flat"]}
{"id": "C106", "title": "On sloping ground the sampling depth is how deep the rib is in the ground", "statement": "On flat ground of any slope, with the wheel pointing upwards and the centre of the rib above the ground, the sampling method reports contact exactly when the rib reaches below the ground, and its depth is the depth of the deepest point of the rib at right angles to the ground.", "quantifier": "all ribs of positive width, rigid poses with z axis upwards, planes with normal upwards", "why_tests_cant": "a continuum of slopes and poses; on level ground, where tests are run, the property holds", "anchors": ["src/rib.cc:rib::envelopSampling"]}
{"id": "C107", "title": "Sampling lines measure the height of the road, however it is triangulated", "statement": "Where a vertical sampling line meets the road that a mesh describes, also on an edge or a vertex that triangles share, rib::samplingLine finds the ground, at the height of the road and with the friction of the triangle there. The height does not depend on how the road is divided into triangles, and a plane road given as a mesh gives the same record as the flat ground. Rounding opens no cracks between triangles.", "quantifier": "all meshes of any number of triangles without steps, all sampling lines, exact arithmetic and IEEE double", "why_tests_cant": "lines through shared edges have measure zero and the outcome depends on rounding; triangulations are unboundedly many", "anchors": ["src/rib.cc:rib::samplingLine", "src/rib.cc:rib::envelopSampling", "toolbox/src/intersection.cc:Intersection"]}
{"id": "C108", "title": "A tyre on a mesh of a plane road, computed in doubles, shows the contact with the plane", "statement": "When the triangles of a mesh follow a plane, shell::setup with the sampling method in IEEE doubles gives for every rib the depth under the plane, the normal of the plane and the point of the plane below the centre of the rib, up to stated error bounds, and no contact when the rib is clear of the plane. The friction lies between the smallest and the largest of the triangles.", "quantifier": "all meshes of any number of triangles that follow a plane up to a given distance, all ribs, all poses within a kilometre of the origin and 60 degrees of upright, IEEE double", "why_tests_cant": "the chain search, line/triangle test, cross product, normalisation and depth accumulates rounding errors that depend on every input, and a rounding error in one triangle test may lose the ground altogether", "anchors": ["src/shell.cc:shell::setup", "src/rib.cc:rib::envelopSampling", "src/rib.cc:rib::samplingLine", "toolbox/src/intersection.cc:Intersection"]}
{"id": "C109", "title": "The geometric method on flat ground, computed in doubles, measures the depth in the plane of the rib", "statement": "With the geometric method in IEEE doubles on a flat ground, a rib reports contact when the circle of the rib reaches below the ground by more than a stated bound and none when it stays clear of it by that bound. On contact the depth is the radius less the distance from the centre of the rib to the line where its plane cuts the ground, the contact point is the nearest point of that line, the normal is that of the ground and the friction is that of the ground, up to stated error bounds.", "quantifier": "all flat grounds, all ribs with a radius of 1/8 to 2 m, all poses within a kilometre of the origin with the wheel's axis at 53 degrees or more from the normal of the ground, IEEE double", "why_tests_cant": "the discriminant of the line/disk test subtracts squared distances from the origin, so the error grows with the position and depends on every input; a few positions near the origin show nothing of it", "anchors": ["src/rib.cc:rib::envelopGeometric", "src/shell.cc:shell::setup", "toolbox/src/intersection.cc:Intersection"]}
{"id": "C110", "title": "Evaluating a contact reads only values that were written before", "statement": "rib::envelop never reads a variable that has no value yet, whatever the ground, pose and method; reading one is undefined behaviour by the C++ standard.", "quantifier": "all ribs, all lists of triangles, all flat grounds, all poses, both methods, any arithmetic", "why_tests_cant": "the value read is not used afterwards, so that no test sees a difference; the behaviour is undefined nevertheless, and it depends on the order of the ends of the first section or on a line that misses the ground", "anchors": ["src/rib.cc:rib::envelopGeometric", "src/rib.cc:rib::envelopSampling", "toolbox/src/point.cc:point::point"]}
{"id": "C111", "title": "The work of a query and of building a mesh is bounded, and the tree is balanced", "statement": "A query of a loaded mesh of n triangles makes at most 2n-1 box tests, building the search tree handles at most n(n+1)/2-1 boxes and no recursion is deeper than n; the tree is balanced, so that its height grows like log n.", "quantifier": "all loaded meshes, all query boxes, all lists of boxes of any length, any arithmetic", "why_tests_cant": "a test measures some meshes; the bounds are for all of them, and the worst case is a spread of triangles that no test has", "anchors": ["toolbox/src/AABBtree.cc:AABBtree::build", "toolbox/src/AABBtree.cc:AABBtree::intersection"]}
{"id": "C112", "title": "The averages over the ribs are accurate in double precision", "statement": "Computed in doubles, the total contact volume, friction, point, normal and depth of a shell differ from the exact volume weighted (or, below the threshold, plain) averages of its records by at most a small multiple of the number of ribs times the resolution of doubles, and stay within the range of the records up to that error.", "quantifier": "all shells with 1 to 2^20 ribs and records that are finite doubles of moderate size with volumes that are not negative", "why_tests_cant": "rounding errors depend on all values and on the number of ribs; a test sees some sums", "anchors": ["src/shell.cc:shell::contactVolume", "src/shell.cc:shell::contactFriction", "src/shell.cc:shell::contactPoint", "src/shell.cc:shell::contactNormal", "src/shell.cc:shell::contactDepth"]}
{"id": "C113", "title": "Area and volume of a contact are accurate in double precision", "statement": "Computed in doubles, the contact area of a record is the chord that the ground cuts from the rib times its width up to 2^-49 of it, and the contact volume is the area of the circular segment of the reported depth times the width up to 2^-48 (R/d)^2 of it and up to 2^-24 w R^2 always; so the volume is positive when the depth exceeds 2^-24 radii and has six digits from 2^-14 radii on.", "quantifier": "all ribs with radius and width between 2^-20 and 2^20, all grounds, poses and depths between zero and the radius, both methods on flat ground and the sampling method on meshes", "why_tests_cant": "the error depends on all bits of radius and depth and grows without bound relative to the volume as the depth shrinks; tests check a few depths", "anchors": ["src/rib.cc:rib::envelopGeometric", "src/rib.cc:rib::envelopSampling", "src/rib.cc:361-363", "src/rib.cc:431-433", "src/rib.cc:501-503"]}
{"id": "C114", "title": "The measures of geometric entities are the Euclidean ones", "statement": "The volume of a ball is the volume of its point set and its area the derivative of the volume in the radius; the area of a triangle is half base times height, its perimeter the sum of the sides, its centroid the point where the medians meet, its normal the unit vector about which the vertices run counterclockwise; the length, centroid and unit vector of a segment are those of its end points; plane::distance is the least distance from the plane, signedDistance positive on the side of the normal, squaredDistance its square, and d the constant of the plane's equation.", "quantifier": "all balls with nonnegative radius, all triangles, segments, planes and points", "why_tests_cant": "the values are continuous functions of all coordinates; tests compare a few", "anchors": ["toolbox/src/ball.cc:ball::area", "toolbox/src/ball.cc:ball::volume", "toolbox/src/triangle.cc:triangle::area", "toolbox/src/triangle.cc:triangle::normal", "toolbox/src/triangle.cc:triangle::centroid", "toolbox/src/triangle.cc:triangle::perimeter", "toolbox/src/segment.cc:segment::length", "toolbox/src/plane.cc:plane::signedDistance", "toolbox/src/plane.cc:plane::distance", "toolbox/src/plane.cc:plane::squaredDistance", "toolbox/src/plane.cc:plane::d"]}
{"id": "C115", "title": "Normalising, reversing or swapping vertices does not change the points of an entity", "statement": "Any sequence of normalize, reverse and swap applied to a line, plane, disk, segment or triangle, and of normalize applied to a ray, leaves its set of points unchanged; reversing negates directions, normals, unit vectors and signed distances and keeps distances; exchanging two vertices of a triangle negates its normal and keeps its area; a reversed ray shares only its origin with the ray.", "quantifier": "all entities, all finite sequences of these operations", "why_tests_cant": "point sets are infinite, and the sequences are arbitrary", "anchors": ["toolbox/src/line.cc:line::normalize", "toolbox/src/line.cc:line::reverse", "toolbox/src/ray.cc:ray::normalize", "toolbox/src/ray.cc:ray::reverse", "toolbox/src/plane.cc:plane::normalize", "toolbox/src/plane.cc:plane::reverse", "toolbox/src/disk.cc:disk::normalize", "toolbox/src/disk.cc:disk::reverse", "toolbox/src/segment.cc:segment::swap", "toolbox/src/triangle.cc:triangle::swap"]}
{"id": "C116", "title": "isApprox of two entities does not depend on where they are", "statement": "isApprox tells whether two entities are almost equal: it compares their points and vectors with the given tolerance, obeys reflexivity and symmetry, and gives the same verdict for two entities that are moved together.", "quantifier": "all points, lines, rays, planes, segments, triangles, disks, balls and boxes, all tolerances", "why_tests_cant": "the verdict depends on positions and tolerance together; tests compare entities at a few places", "anchors": ["toolbox/src/line.cc:line::isApprox", "toolbox/src/ray.cc:ray::isApprox", "toolbox/src/plane.cc:plane::isApprox", "toolbox/src/segment.cc:segment::isApprox", "toolbox/src/triangle.cc:triangle::isApprox", "toolbox/src/disk.cc:disk::isApprox", "toolbox/src/ball.cc:ball::isApprox", "toolbox/src/aabb.cc:aabb::isApprox"]}
{"id": "C117", "title": "A whole tyre on flat ground, set up in double precision, reports the true contact", "statement": "After a setup with the sampling method on flat ground, with everything in double precision, the contact volume of the tyre is the sum over its ribs of the width times the area of the circular segment below the ground, and friction and normal are those of the ground, the contact point lies on the ground and the depth between the smallest and the largest true depth of the ribs that touch, all up to small bounds; ribs that do not touch have no influence.", "quantifier": "all tyres of up to 2^20 ribs, rigid poses and planes within a kilometre of the origin, IEEE double arithmetic rounded to nearest, all input errors up to 2^-40", "why_tests_cant": "errors of sampling, of the area formula and of the sums over all ribs add up over a continuum of scenes", "anchors": ["src/rib.cc:rib::envelopSampling", "src/rib.cc:431-433", "src/shell.cc:shell::setup", "src/shell.cc:shell::contactVolume", "src/shell.cc:shell::contactFriction", "src/shell.cc:shell::contactNormal", "src/shell.cc:shell::contactPoint", "src/shell.cc:shell::contactDepth"]}
{"id": "C118", "title": "Data that are not numbers never make a contact", "statement": "If an entry of the pose, of the plane of the ground or of the rib is NaN or infinite, the tyre is reported to have no contact with the ground, and nothing is thrown: a contact is only ever computed from numbers.", "quantifier": "all ribs, tyres, poses, planes, meshes and methods over all values of type double", "why_tests_cant": "any of some twenty entries may be NaN or infinite in any combination with any values of the others, and comparisons with NaN silently take either branch", "anchors": ["src/rib.cc:rib::envelopSampling", "src/rib.cc:rib::envelopGeometric", "src/shell.cc:shell::setup", "toolbox/src/intersection.cc:Intersection", "src/flat.cc:flat::flat"]}
{"id": "C119", "title": "A vertex that is not a number spoils only its own triangles", "statement": "If the file of a mesh holds a vertex that is not a number, the triangles with that vertex may be lost, but all other triangles are found by box queries and touched by the tyre as if the bad triangles were not there.", "quantifier": "all meshes read from RDF or OBJ files, all query boxes, tyres, poses and methods over all values of type double", "why_tests_cant": "depends on where a NaN stands in the order in which the boxes of the tree are merged", "anchors": ["toolbox/src/aabb.cc:aabb::merged", "toolbox/src/aabb.cc:aabb::clamp", "toolbox/src/AABBtree.cc:AABBtree::build", "src/mesh.cc:mesh::intersection", "src/shell.cc:shell::setup"]}
{"id": "C120", "title": "The constructor refuses parameters that make no tyre", "statement": "If the constructor of a shell returns, its five shape parameters are numbers, the largest radius Rx is positive and not exceeded by any rib, and the width is not negative; all other parameters are refused with an exception.", "quantifier": "all rib counts and all five parameters over all values of type double, NaN and infinities included", "why_tests_cant": "five parameters with special values combine with any rib count; pow(1, NaN), pow(x, 0) and pow of negative bases take part in the result", "anchors": ["src/shell.cc:shell::shell", "src/shell.cc:shell::resize", "src/shape.cc:shape::surfaceRadius", "src/shape.cc:shape::surfaceAngle"]}
{"id": "C121", "title": "The contact volume computed in doubles is the volume of the tyre below the ground", "statement": "After setup on flat ground with the geometric method, the contact volume the tyre reports is a number, and it is the volume of the part of the tyre solid that lies below the ground, up to an error that shrinks with the number of ribs and an error of the arithmetic that depends on the size of the scene.", "quantifier": "all shape parameters and rib counts, all flat grounds given by doubles, and all poses; all arithmetic in doubles", "why_tests_cant": "the volume is a sum over any number of ribs of values with cancellation, square roots and pow; whether it is a number depends on the sign of rounding errors when a rib grazes the ground", "anchors": ["src/shell.cc:shell::setup", "src/shell.cc:shell::contactVolume", "src/rib.cc:rib::envelopGeometric", "src/shell.cc:shell::resize"]}
{"id": "C122", "title": "On a road of triangles the geometric method measures the part of the rib below the road", "statement": "For a mesh that a rib cuts in a continuous road below its centre, the geometric method reports contact with the volume of the part of the rib below the road: the width of the rib times the area of the part of its disk below the road, whatever the number, order, shape and size of the triangles and however the road bends. The contact area it reports is the width of the rib times the length of the part of the road inside its disk.", "quantifier": "all ribs, rigid poses, continuous roads below the centre of the rib, and meshes of any number of triangles in any order that are cut in that road", "why_tests_cant": "the reported volume is a sum over any number of triangles of differences between sectors and triangles; that the parts outside the disk and the common edges cancel out is a statement about every subdivision of every road, and the failures need a face turned away from the centre or triangles below a size nobody tests", "anchors": ["src/rib.cc:rib::envelopGeometric", "toolbox/src/intersection.cc:Intersection"]}
{"id": "C123", "title": "Intersection of entities in one plane is what they have in common", "statement": "Intersection of two entities that lie in one plane returns an entity with exactly the points they have in common: a plane and a line, ray, segment, plane, triangle or disk in it give that entity; a line, ray or segment in the plane of a disk or of a triangle gives the part inside; two triangles, two disks, or a triangle and a disk give their overlap; and nothing is returned only if there is no common point.", "quantifier": "all non-degenerate entities that lie in one plane, both orders of the arguments, all positive tolerances", "why_tests_cant": "the coplanar cases are reached only by inputs whose coplanarity is exact, the results of one pair depend on which edges are crossed, and the failures are independent of the numbers tried: two triangles in one plane never have anything in common, two disks in one plane throw", "anchors": ["toolbox/src/intersection.cc:Intersection", "toolbox/src/entity.cc:Intersection"]}
{"id": "C124", "title": "Two triangles or disks that cross have a segment in common, and Intersection finds it", "statement": "Intersection of two triangles, or of two disks, in different planes returns a segment with exactly the points they have in common, and nothing if and only if they have no common point.", "quantifier": "all pairs of non-degenerate triangles and all pairs of disks in planes that cross, all positive tolerances", "why_tests_cant": "the result is the overlap of two sections of the common line of the planes; which edges are crossed, in which order the four ends follow each other and whether an end lies within the tolerance of another gives a large number of cases that only a proof goes through", "anchors": ["toolbox/src/intersection.cc:Intersection", "toolbox/src/entity.cc:Intersection"]}
{"id": "C125", "title": "The contact volume of a tyre on a terrain is the volume of the tyre below it", "statement": "For a tyre set up with the geometric method on a mesh that is a terrain below the wheel axis, the contact volume is the volume of the part of the tyre below the terrain, up to an error that goes to zero with the width of the ribs; and setup reports contact if some rib is below the terrain by more than the tolerance.", "quantifier": "all shells of any number of ribs, all rigid poses, all meshes that the planes of the ribs cut in roads, terrains of any shape with bounded slope along the wheel axis", "why_tests_cant": "a test compares with the volume for a few terrains for which it is known; here the terrain is any continuous function given by any number of triangles, the volume is a Lebesgue measure, and the error bound is for every number of ribs", "anchors": ["src/shell.cc:setup", "src/rib.cc:envelopGeometric", "src/shell.cc:contactVolume"]}
{"id": "C126", "title": "A bounding box is the set of points between its corners under every operation", "statement": "isInside tells whether a point is in the box, up to the tolerance given; translate moves the box with its points and neither loses points nor changes which boxes meet; updateMaxMin puts the corners in order and reports whether they were; a cleared box holds nothing and meets nothing; setting a corner leaves a box of the points between the corners.", "quantifier": "all boxes, points, vectors and tolerances, over the reals and in double precision", "why_tests_cant": "rounding of the corners and of the points can differ for every box and vector; that monotone rounding keeps every point in the box is a statement about all doubles", "anchors": ["toolbox/src/aabb.cc:aabb::isInside", "toolbox/src/aabb.cc:aabb::translate", "toolbox/src/aabb.cc:aabb::updateMaxMin", "toolbox/src/aabb.cc:aabb::clear", "toolbox/src/aabb.cc:aabb::min", "toolbox/src/aabb.cc:aabb::max", "toolbox/src/aabb.cc:aabb::checkMaxMin"]}
{"id": "C127", "title": "isApprox of profiles, ribs and grounds compares every member with the tolerance given", "statement": "isApprox of two tyre profiles, ribs, ground triangles or flat grounds is true exactly when every member that describes the object differs by less than the tolerance given; it is reflexive and symmetric.", "quantifier": "all profiles, ribs, ground triangles, flat grounds and tolerances", "why_tests_cant": "the verdict depends on every member and on the tolerance; a member left out or a tolerance not passed on shows only for particular pairs", "anchors": ["src/shape.cc:shape::isApprox", "src/rib.cc:rib::isApprox", "src/triangleground.cc:triangleground::isApprox", "src/flat.cc:flat::isApprox"]}
{"id": "C128", "title": "A tyre reports the profile it was built with, whatever was done with it since", "statement": "surfaceMaxRadius, surfaceMaxWidth, checkWidthBound, surfaceRadius, surfaceDerivative, surfaceAngle and the bounding box of a tyre describe the superellipse of the five parameters it was built with, after any sequence of moves, setups and changes of the number of ribs, whether these succeed or throw.", "quantifier": "all valid profiles, all numbers of ribs, all finite histories of calls, all lateral positions and tolerances", "why_tests_cant": "histories are unbounded and the position is a real number", "anchors": ["src/shell.cc:shell::surfaceMaxRadius", "src/shell.cc:shell::surfaceMaxWidth", "src/shell.cc:shell::surfaceWidth", "src/shell.cc:shell::checkWidthBound", "src/shell.cc:shell::surfaceRadius", "src/shell.cc:shell::surfaceDerivative", "src/shell.cc:shell::surfaceAngle", "src/shell.cc:shell::bbox", "src/shape.cc:shape::shape"]}
{"id": "C129", "title": "Collections in one program are independent objects", "statement": "A call on one collection changes no other collection: its entities and the answers of its tree stay what they were. A query stores its result in the output collection only, whichever collections are queried; a collection can be queried with itself.", "quantifier": "all programs that create, copy, move, clear, fill, build, query and intersect collections, of any length; all output arguments", "why_tests_cant": "the number of collections, their sharing and the order of the calls are unbounded; a shared tree only shows in particular interleavings", "anchors": ["toolbox/src/collection.cc:collection::collection", "toolbox/src/collection.cc:collection::buildAABBtree", "toolbox/src/collection.cc:collection::intersection", "toolbox/src/collection.cc:collection::clear", "toolbox/src/acme/collection.hxx:collection::collection"]}
{"id": "C130", "title": "The reported contact point is inside the tyre", "statement": "After a setup on any ground, in contact or not, the contact point of every rib is in the disk of the rib (geometric method) or within the rib radius of the rib centre (sampling method), and the depth is not negative and at most what remains to the rim. The contact point of the whole tyre is within Rx of the wheel axis and, with the geometric method, between the two sides of the tyre; its depth is between zero and Rx.", "quantifier": "all valid profiles, all numbers of ribs, all rigid poses, all flat grounds and meshes (of any size), both methods", "why_tests_cant": "it is about averages over unboundedly many triangles and ribs, at all poses; a wrong weight or a wrong clamp only shows on particular meshes", "anchors": ["src/rib.cc:rib::envelopGeometric", "src/rib.cc:rib::envelopSampling", "src/rib.cc:rib::envelop", "src/shell.cc:shell::contactPoint", "src/shell.cc:shell::contactDepth"]}
{"id": "C131", "title": "With the sampling method the depth follows the ride height exactly", "statement": "Over any terrain, moving the wheel straight up or down while the contact point stays below the hub changes the sampled contact of a rib in one way only: the depth grows by exactly the distance the wheel is lowered. Contact point, normal and friction do not change; the contact is lost exactly when the depth would no longer be positive; lowering never reduces contact area or volume. If one of the four sampling lines misses the ground there is no contact at any height. For the whole tyre on a mesh this holds between two setups at heights where the same triangles are near the tyre.", "quantifier": "all ribs, all poses, all displacements up and down, all flat grounds and all meshes (of any size)", "why_tests_cant": "it relates two runs at arbitrary heights over arbitrary terrain; a test compares a few heights on a few meshes", "anchors": ["src/rib.cc:rib::envelopSampling", "src/rib.cc:rib::samplingLine", "toolbox/src/intersection.cc:Intersection", "src/shell.cc:shell::setup"]}
{"id": "C132", "title": "The contact volume follows the terrain: monotone, and without jumps", "statement": "With the geometric method, compare two setups of the same tyre, on two meshes or at two poses. If in the plane of no rib the ground is lower in the second setup, the contact volume is not less. If in the plane of no rib the ground differs by more than \u03b4, the contact volumes differ by at most \u03b4 times the sum over the ribs of diameter times width. Both hold up to the volume below which a rib reports no contact (eps for every rib); so a small change of the terrain, or of the height of the wheel, gives a small change of the volume.", "quantifier": "all tyres in use, all pairs of poses, all pairs of meshes of any size, order and triangulation whose sections are roads, all \u03b4", "why_tests_cant": "it relates two runs on arbitrary terrains and bounds the difference for every size of change; a test compares a few pairs", "anchors": ["src/rib.cc:rib::envelopGeometric", "src/shell.cc:shell::setup", "src/shell.cc:shell::contactVolume"]}
{"id": "C133", "title": "The contact does not depend on the unit of length", "statement": "Describe the same tyre, pose and ground in another unit of length (multiply every length by k > 0). The same ribs are in contact; contact point and depth are multiplied by k, the area by k\u00b2, the volume by k\u00b3; normal and friction are the same.", "quantifier": "all k > 0, all ribs and tyres with any number of ribs, all rigid poses, all flat grounds and meshes, both methods", "why_tests_cant": "a test suite is written in one unit; the tolerances of the code are absolute numbers, so only a proof tells which results depend on the unit", "anchors": ["src/rib.cc:rib::envelopSampling", "src/rib.cc:rib::envelopGeometric", "src/shell.cc:shell::setup", "src/shell.cc:shell::resize", "toolbox/src/intersection.cc:Intersection"]}
{"id": "C134", "title": "The order in which a face lists its vertices does not matter", "statement": "A mesh whose faces list their vertices in another order (another starting vertex, or clockwise instead of counter-clockwise) describes the same surface. Setting the tyre on it gives the same contacts: point, normal, friction, depth, area and volume of every rib, with either method.", "quantifier": "all tyres, all rigid poses, all meshes with any number of faces, any reordering of the vertices of any of the faces", "why_tests_cant": "there are six orders per face and any number of faces; the intersection routines treat the three vertices differently, so the symmetry has to be proved through all of them", "anchors": ["src/triangleground.cc:triangleground::updateNormal", "src/rib.cc:rib::envelopSampling", "src/rib.cc:rib::envelopGeometric", "src/shell.cc:shell::setup", "toolbox/src/intersection.cc:Intersection"]}
{"id": "C135", "title": "Ground that the tyre does not touch does not change the contact", "statement": "Faces of the mesh that no rib touches (a road far below, the far side of a kerb, a bridge over the wheel) have no influence on the contact: leaving them out, or adding them, changes none of the values reported by a setup.", "quantifier": "all tyres, all rigid poses, all meshes, all sets of untouched faces", "why_tests_cant": "the untouched faces are unbounded in number and may lie anywhere, including within the bounding box of the tyre, where the search does not remove them", "anchors": ["src/rib.cc:rib::envelopGeometric", "src/rib.cc:rib::envelopSampling", "src/rib.cc:rib::samplingLine", "src/shell.cc:shell::setup", "src/mesh.cc:mesh::intersection"]}
{"id": "C136", "title": "A face listed several times counts once", "statement": "A mesh that lists some of its faces more than once (tiles joined along a common strip, a file loaded on top of itself) describes the same surface as the mesh with each face once. Setting the tyre on it gives the same contacts.", "quantifier": "all tyres, all poses, all meshes, all ways of listing the same faces, in any order and any number of times each", "why_tests_cant": "the number of repetitions and the order are unbounded, and the search tree, and with it the order in which faces are visited, changes with every repetition", "anchors": ["src/rib.cc:rib::envelopSampling", "src/rib.cc:rib::samplingLine", "src/rib.cc:rib::envelopGeometric", "src/shell.cc:shell::setup"]}
{"id": "C137", "title": "A tyre that meets the ground is in contact", "statement": "Setting a tyre on a mesh reports contact when a rib of the tyre and a face of the mesh have more than a point in common, whatever the direction of the face (road, kerb, wall) and whatever else the mesh contains, and it reports contact only when some rib and some face have a point in common. The section that is computed for a face and a rib consists of all their common points.", "quantifier": "all tyres, all rigid poses, all meshes", "why_tests_cant": "missed contact depends on the direction, size and position of a face relative to each rib; a test fixes finitely many of them", "anchors": ["toolbox/src/intersection.cc:Intersection(triangle,disk,segment)", "src/rib.cc:rib::envelopGeometric", "src/rib.cc:rib::envelopSampling", "src/shell.cc:shell::setup"]}
{"id": "C138", "title": "Rolling steadily over flat ground keeps the contact steady", "statement": "When a tyre on a flat ground is slid along the ground, turned about the normal of the ground and spun about its axis, setup returns the same flag; depth, friction, area and volume of every rib stay the same, and its contact point and normal, and the values of the whole tyre, move along with the wheel.", "quantifier": "all tyres, all flat grounds, all rigid poses, all motions that keep the plane of the ground, all spin angles", "why_tests_cant": "a test drives along a few paths; a dependence on the position along the road, on the heading or on the rotation of the wheel shows only at particular poses", "anchors": ["src/rib.cc:rib::envelopGeometric", "src/rib.cc:rib::envelopSampling", "src/shell.cc:shell::setup"]}
{"id": "C139", "title": "The friction of the ground changes the reported friction only", "statement": "Two grounds of the same shape whose faces have different frictions give the same outcome of setup and the same flag, and all reported values but the friction are the same, for each rib and for the tyre. The reported friction is a linear function of the frictions of the faces, and rougher faces never give a smaller friction.", "quantifier": "all tyres, all poses, all meshes and flat grounds, all frictions, both methods", "why_tests_cant": "a dependence of a geometric value on a friction shows only for particular pairs of grounds; tests compare values on a few grounds", "anchors": ["src/rib.cc:rib::envelopGeometric", "src/rib.cc:rib::envelopSampling", "src/rib.cc:rib::samplingLine", "src/shell.cc:shell::setup", "src/shell.cc:shell::contactFriction", "src/shell.cc:shell::contactArea"]}
{"id": "C140", "title": "A file loaded at another place", "statement": "Whether a file loads, with which message it fails, and how many faces with which numbers and frictions it gives do not depend on the pose it is loaded at. Loading at a pose is loading where the file was drawn and placing the vertices by the pose. Loading at a pose moved by a rigid motion that keeps the vertical gives the moved mesh, and a tyre moved along has the moved contacts.", "quantifier": "all texts, readable or not, RDF and OBJ, all number readers, all poses, all such motions, all tyres", "why_tests_cant": "tests load a few well formed files at the identity; equivariance speaks of two loads and two setups for all files and all motions", "anchors": ["src/mesh.cc:mesh::load", "src/mesh.cc:mesh::mesh", "src/triangleground.cc:triangleground::updateNormal", "src/shell.cc:shell::setup"]}
{"id": "C141", "title": "Elements of an RDF file refer to nodes by their numbers", "statement": "Each vertex of a face loaded from an RDF file is the node whose number, in the id column of the NODES section, the element lists.", "quantifier": "all RDF texts, all number readers, all poses", "why_tests_cant": "sample files number their nodes by position from zero, where numbers and positions are the same thing", "anchors": ["src/mesh.cc:mesh::load", "files_rdf/sample.rdf"]}
{"id": "C142", "title": "Comments in a mesh file change nothing", "statement": "A comment may be added to or removed from a mesh file at any place without any effect on the outcome of loading or on the mesh: lines that start with {, % or # in an RDF file, lines that are neither vertices nor faces in an OBJ file, and in an RDF file a comment from { to } over several lines.", "quantifier": "all texts, readable or not, all places in them, all number readers, all poses", "why_tests_cant": "the effect of a comment depends on the section and the lines around it; tests load a few files", "anchors": ["src/mesh.cc:mesh::load", "src/mesh.cc:mesh::firstToken"]}
{"id": "C143", "title": "A wheel has no front side", "statement": "A wheel that is turned round by half a turn about its own vertical axis and set up again on the same ground reports the same contact: the same answer whether there is contact, the records of the ribs in the opposite order, the same contact volume, area, depth, point, normal and friction of the tyre, and contact frames turned round with the wheel.", "quantifier": "all tyres built on a valid profile, all numbers of ribs, all rigid poses, all flat grounds and meshes, both methods", "why_tests_cant": "the identity of all reports in two poses for all grounds and rib numbers, with exact equality including the order of the samples and sections", "anchors": ["src/rib.cc:rib::envelopGeometric", "src/rib.cc:rib::envelopSampling", "src/shell.cc:shell::setup", "src/shell.cc:shell::refineIntersection", "toolbox/src/intersection.cc:Intersection"]}
{"id": "C144", "title": "A larger tyre is deeper in the ground", "statement": "Of two tyres with the same number of ribs at the same places and of the same widths, one with larger radii, set up at the same pose on the same ground, the larger one is in contact wherever the smaller one is, and its ribs report no less depth, area and volume and the tyre no less contact volume. Two tyres made with the same profile but for the radius are such tyres.", "quantifier": "all pairs of radii, all profiles, numbers of ribs, rigid poses and grounds, both methods", "why_tests_cant": "an inequality between two runs for all pairs of tyres, poses and grounds", "anchors": ["src/rib.cc:rib::envelopGeometric", "src/rib.cc:rib::envelopSampling", "src/shell.cc:shell::setup", "src/shell.cc:shell::resize", "src/shape.cc:shape::surfaceRadius"]}
{"id": "C145", "title": "How the ground is divided into triangles does not matter", "statement": "Two meshes that describe the same ground with different triangles give the same contact: the geometric method reports contact for both or for none, with the same area, volume, friction, point, normal and depth.", "quantifier": "all pairs of triangulations of the same ground, all ribs, tyres and rigid poses", "why_tests_cant": "a relation between runs on any two triangulations, whose number is not bounded", "anchors": ["src/rib.cc:rib::envelopGeometric", "src/shell.cc:shell::setup", "toolbox/src/intersection.cc:Intersection", "src/mesh.cc:mesh::intersection"]}
{"id": "C146", "title": "The reported normal points away from the ground, towards the wheel", "statement": "The normal of a contact does not point into the ground: for a wheel above the ground, the normal reported for every rib and the contact normal of the tyre point up, to the side of the wheel.", "quantifier": "all grounds, tyres and rigid poses with the wheel above the ground, both methods", "why_tests_cant": "a sign that must hold on every terrain, at every pose and for every number of ribs", "anchors": ["src/rib.cc:rib::envelopGeometric", "src/rib.cc:rib::envelopSampling", "src/rib.cc:rib::envelop", "src/shell.cc:shell::contactNormal"]}
{"id": "C147", "title": "On ground of one friction the tyre reports that friction", "statement": "If every part of the ground has a friction between two values, the friction reported for a touching rib and the friction reported for the tyre lie between them; in particular, on ground of one friction, that friction is reported.", "quantifier": "all meshes and flat grounds, tyres, rigid poses and both methods", "why_tests_cant": "the claim is about every mixture of ribs on and off the ground, every mesh and every volume of contact", "anchors": ["src/shell.cc:shell::contactFriction", "src/rib.cc:rib::envelopGeometric", "src/rib.cc:rib::envelopSampling", "src/shell.cc:shell::setup"]}
{"id": "C148", "title": "The reported contact fits into the tyre", "statement": "The depth of a contact is at most the radius of the rib, its area at most the area of the section of the rib through the axis, and its volume at most half the volume of the rib; the contact volume of the tyre is at most half the volume of the cylinder around the tyre.", "quantifier": "all grounds, tyres, rigid poses and both methods", "why_tests_cant": "bounds over every ground and pose; the grounds that break them are unusual ones", "anchors": ["src/rib.cc:rib::envelopGeometric", "src/rib.cc:rib::envelopSampling", "src/shell.cc:shell::contactVolume"]}
{"id": "C149", "title": "On flat ground the contact point of the tyre lies on the ground, on level ground straight below the wheel", "statement": "The contact point that a tyre reports on flat ground is a point of the ground plane; if the ground is level and the axis of the wheel is level, it is the point straight below the centre of the wheel.", "quantifier": "all flat grounds, tyres, numbers of ribs, rigid poses and both methods", "why_tests_cant": "a mean over any number of ribs, some of which touch the ground and some of which do not", "anchors": ["src/shell.cc:shell::contactPoint", "src/rib.cc:rib::envelopGeometric", "src/rib.cc:rib::envelopSampling", "src/shell.cc:shell::setup"]}
{"id": "C150", "title": "The contact areas of the ribs add up to the area of the footprint", "statement": "On flat ground the areas that the ribs of a tyre report add up to the area of the part of the ground plane inside the tyre, up to an error that goes to zero as the number of ribs grows and the threshold below which a rib reports no contact.", "quantifier": "all profiles, numbers of ribs, rigid poses, flat grounds and both methods", "why_tests_cant": "an area of a curved figure against a sum over any number of ribs; a test has no independent value to compare with", "anchors": ["src/shell.cc:shell::contactArea", "src/rib.cc:rib::envelopGeometric", "src/rib.cc:rib::envelopSampling", "src/shell.cc:shell::setup"]}
{"id": "C151", "title": "A leaning tyre carries on its lower side", "statement": "When a new tyre is set up on flat ground with the geometric method and the whole axis of the tyre is above the ground, then of two ribs at the same distance from the middle the one on the lower side reports no less depth, area and volume than the other, and a contact if the other does; if the total contact volume reaches the threshold of the code, the contact point of the tyre is not on the upper side of the middle plane of the wheel.", "quantifier": "all profiles, numbers of ribs, flat grounds, policies and rigid poses with the axis above the ground", "why_tests_cant": "a comparison between ribs for every profile, number of ribs and lean angle; a swapped sign of the axis is not seen on an upright wheel", "anchors": ["src/rib.cc:rib::envelopGeometric", "src/shell.cc:shell::setup", "src/shell.cc:shell::contactPoint", "src/shell.cc:shell::contactVolume"]}
{"id": "C152", "title": "Ribs nearer the middle and nearer the ground carry no less", "statement": "When a new tyre is set up on flat ground with the geometric method and the whole axis of the tyre is above the ground, a rib that is no farther from the middle of the tyre and no higher above the ground than another rib reports no less depth, area and volume than it, and a contact if the other does. If the axis is parallel to the ground, depth, area and volume do not increase from the middle to the sides.", "quantifier": "all profiles, numbers of ribs, pairs of ribs, flat grounds, policies and rigid poses with the axis above the ground", "why_tests_cant": "an order between all pairs of ribs for every profile and pose; a test sees the numbers of a few ribs", "anchors": ["src/rib.cc:rib::envelopGeometric", "src/shell.cc:shell::setup", "src/shell.cc:shell::shell", "src/shape.cc:shape::surfaceRadius"]}
