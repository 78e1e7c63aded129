# Formal model of ENVE in Lean 4 — design

Source: `/repo` (StoccoDavide/enve, C++). `src/*.cc` are the ENVE sources; the ACME geometry
library they call is in `toolbox/src/*.cc` (the ENVE files there are identical to `src/`).
The code is never run; the model is written by reading the text.

## 1. How the code is modelled

* **Scalars.** `real` is `double`. All functions are written once, polymorphic over a scalar
  type class `Scalar α` whose operations (`+. -. *. /.`, `sqrt`, `pow`, `atan2`, …, Boolean
  comparisons `<.`, `<=.`) carry *no laws*. There are three uses of it:
  1. *law-free theorems* — control flow, guards, memory safety, history independence: proved
     for every `Scalar α`, hence valid for IEEE doubles with rounding, infinities and NaN;
  2. *order-only theorems* — box tree, candidate filtering, highest sample: proved for every
     `Scalar α` under explicit order laws on the numbers involved (true of non-NaN doubles);
  3. *exact-real theorems* — geometry and analysis: proved for the instance `Scalar ℝ`
     (Mathlib reals). Rounding is **not** modelled there; this is stated per claim.
  A fourth instance, `XR` (`Base/Special.lean`), is exact arithmetic with the infinities and NaN of
  IEEE 754; it is used where a division by zero decides the outcome (C36, C81, C93).
  A fifth instance, `B64` (`Base/Binary64.lean`), is the arithmetic of `double`: every operation rounds the
  exact result to the nearest number with 53 bits, ties to even, with underflow and overflow. It is
  used where rounding decides the outcome (C93, C95); `OrderOn.b64` shows that the order-only theorems hold
  for it on all values but NaN. Special values of `pow` and `atan2` follow annex F of the C standard.
  Simplifications: one zero, correctly rounded elementary functions, no contraction to fused multiply-add,
  and sums of three products (`dot`, matrix times vector) are added from left to right; Eigen's order depends on the
  instruction set it is compiled for. Error bounds and witnesses in `B64` are proved for this order.
  There is also an instance for Lean's `Float`, which makes the model executable for sanity
  runs (it is not used in any theorem).
* **Outcomes.** Functions that can fail return `Res β = ok b | throw msg | ub why`:
  `throw` is a C++ exception (`ENVE_ERROR`, `ENVE_ASSERT`, `ACME_ERROR`, `std::out_of_range`),
  `ub` is undefined behaviour (out-of-bounds `operator[]`, null dereference), never assumed away.
* **State.** Member functions that mutate `*this` become functions returning the new state.
  Loops become structural recursions / folds over lists, recursion on trees is structural,
  the tree construction is by well-founded recursion on the list length.
* **Text.** A file is the list of its lines (`std::getline`), a line is a list of characters.
  `std::stod` / `std::stoi` are parameters of the model (`NumParse`), with the assumed
  behaviour stated where used.
* **Storage of contact records.** `std::vector<output> m_out` is modelled as size + capacity +
  cell contents. Access policy is a parameter: `strict` (the C++ standard: index ≥ size is UB)
  and `raw` (what a typical allocator gives: index < capacity reads/writes raw storage).

## 2. Trusted base

Lean 4 kernel; axioms at most `propext`, `Classical.choice`, `Quot.sound` (checked for
every declaration by `Verif/Audit.lean`); the reading of the C++ text into the model;
the meaning of Eigen calls (`cross`, `dot`, `norm`, `normalized` – returns the vector itself if
its squared norm is not > 0 –, `isApprox` – relative –, `Transform::translate/rotate`,
`AngleAxis::toRotationMatrix`, `eulerAngles`) and of the C++ standard library as described in the
comments of the corresponding definitions.

The `acme::entity*` hierarchy is modelled as a sum type (`Model/Entity.lean`); the generic dispatch of
`Intersection`, `IsParallel`, … is in `Model/Predicates.lean` and `Model/IntersectionMore.lean`, the
collection (a vector of shared pointers with its box tree) in `Model/Collection.lean`, and several
collections that may share trees in `Model/CollectionStore.lean`.

The MEX gateways (`toolbox/src_mex`) are functions on a heap of objects and MATLAB values
(`Model/Mex.lean`), the classes of `toolbox/lib` call them (`Model/Matlab.lean`); their simplifications
are listed at the top of these files. The behaviour of MATLAB's own functions (`mxGetScalar`,
`mxGetPr`, `mexErrMsgTxt`, outputs that are not assigned) is as described in the comments there.

Printed reports (`Model/Print.lean`) are lists of tokens; the text of a number is not modelled.

Declared but nowhere defined, hence not modelled: `shell(size, shape)` and `rotate(angle, string)` of `shell.hxx`.

Not modelled: plotting in `toolbox/lib`, CMake/Rake build files, timing, allocation failure,
threads (the library has none), integer overflow of `integer` ids (meshes below 2^31 triangles).

## 3. Plan per property

`L` = law-free theorem, `O` = order-only, `R` = exact reals. "Refuted" means the property is
false of the code: the negation is proved with a concrete witness and the part that does hold is
proved as `…_partial`.

| id | model | proof |
|----|-------|-------|
| C01 | `Shape.surfaceRadius` | R: rpow monotonicity |
| C02 | `Shape.surfaceDerivative`, `surfaceAngle` | R: `HasDerivAt` via chain rule for rpow; the centre band returns 0 (refuted inside the band, partial outside) |
| C03 | guards of `Shape` | L: iff on the comparison, incl. NaN |
| C04 | `Shell.resize` loop | R: induction on rib count |
| C05 | `Shell.resize` | L |
| C06 | `Shell.resize` + record storage | L: refuted (strict: every access is UB; raw: UB iff n>200) |
| C07 | `Shell.transform`, `checkTransformation` | L/R: refuted; the check itself accepts exactly det≈1 |
| C08 | `Shell.translate/rotate/transform` | R: invariant by induction over the operation list |
| C09 | `Shell.updateBBox` | R: refuted with a cambered tyre; partial when r_i²+y_i² ≤ Rx² |
| C10 | `Shell.*` | L: refuted for translate/transform; partial after setup |
| C11 | `Mesh.intersection`, `Tree.build`, `Tree.intersection` | O: list permutation with brute force |
| C12 | `Tree.build` | L/O: well-founded recursion, leaves permutation, enclosing boxes |
| C13 | + `TriangleGround.updateBBox` | R: convexity |
| C14 | `Aabb.intersects/merged/…` | R/O |
| C15 | `Mesh` default constructor | L: refuted (UB for every box); loaded meshes safe for every box |
| C16 | `Mesh.clear/copy` | L: refuted |
| C17 | `Mesh.ofTriangles` | O: refuted; partial when ids are positions |
| C18 | `Shell.refineIntersection` | O + R |
| C19–C24 | `Mesh.loadRdf/loadObj`, tokenizer | L: induction over lines; C22–C24 refuted |
| C25,C26,C27 | `TriangleGround`, `Flat` constructors | L/R |
| C28,C29 | `Rib.samplingLine`, `envelopSampling` | O |
| C30 | `Rib.envelop*` | L: case analysis of every branch |
| C31 | depth → area/volume formulas | R: derivative + fundamental theorem of calculus |
| C32,C33,C60 | `Rib.envelopFlat`, and the records after `Shell.setupFlat` (`TyreProps`) | R; C33 refuted beyond the centre |
| C34 | `Rib.envelopGeometric` | R: refuted (`break`); partial: no degenerate section ⇒ permutation invariant |
| C35 | both methods | R: proved for flat; on a mesh proved for sections away from the seam where the angles jump, refuted across it; refuted for sampling |
| C36 | `Rib.envelopGeometric` | R: invariant of the accumulation loop; the volume is positive when no triangle plane contains the rib centre (`OffAxisProps`) |
| C37 | `lineTriangleSegment` | R: refuted with a near-vertex section |
| C38 | `Shell.setup*` | L: mesh proved; flat refuted |
| C39 | `Shell.setup*` | L: refuted for mesh without local triangles; exact characterisation |
| C40 | `Shell.setup*` | L: two-run theorem over arbitrary prior states |
| C41–C45 | aggregate getters | L/R: C41 and C44 refuted; normals and frames of geometric setups on meshes below the wheel axis in `NormalUpProps` |
| C46,C56 | `contactPointAffine`, `relativeAngles` | R |
| C47 | vector getters | L: refuted for frames/angles |
| C48 | `copy`/`isApprox` | R: refuted for rib and ground triangle |
| C49–C53 | `Intersection(…)` | R |
| C54 | `Sfun.out` | L |
| C55 | `Disk.area/perimeter` | R: refuted |
| C57 | `Shell.resize` failing | L/R: refuted (partial rib list) |
| C58 | `split/firstToken/tail` | L |
| C59,C60 | `Rib` on flat/mesh | R |
| C61,C62 | `Shell.setupMesh` against brute force | R: candidates dropped by the search contribute nothing; refuted where an outer rib leaves the bounding box, and by a distant triangle that changes the order of the triangles found |
| C63 | `Sfun.init` | L/R: composition of the loader, ground and shell theorems |
| C64 | `Spec.run` over `Sfun.out` | L: induction over the inputs with the invariant "same shape and ribs" |
| C65 | `Spec.run` over `Sfun.out` | R: partial; refuted by the witness of C37 |
| C66–C69 | `Rel.parallel/orthogonal/collinear/coplanar` on `Entity` | R: all pairs of kinds against angles and point sets; C67 refuted for line/plane, C68 for two rays |
| C71 | `Inter.cross`, `Inter.entity` | R: Cramer's rule; refuted for skew entities |
| C72,C73 | `Inter.*Ball`, `threePlanes` | R: discriminant; segment/ball refuted unless the length is 1 |
| C74 | `*.isInside`, `Inter.punctual` | R: limit of all tolerances against the point sets of `Spec.Has` |
| C70 | `Inter.entity` | L: symmetry and dimension by cases on the kinds; refuted for plane/triangle and plane/disk |
| C75 | `Inter.general` | R: piercing point against `Spec.Has`; refuted for rays starting on a plane |
| C76 | `Inter.onLine`, `segSegSeg` | R: coordinates on the common line; refuted for diverging rays and nearly collinear segments |
| C77 | `Coll.*` | L: induction over the entries against the list of entities `Spec.Holds`; several members refuted |
| C78 | `Coll.buildTree/intersect*` | R: tree traversal equals brute force, `clamp` contains the entity; refuted for stale trees |
| C79 | `Entity.translate/rotate/transform` | R: image of the point set `Spec.Has`; Rodrigues' formula |
| C80 | `Entity.clamp` | R: containment, minimality; refuted for disks |
| C81 | `Tree.selectMin`, `Box.*Distance` | R: nearest and farthest distance as least and greatest element; pruning is sound; refuted (NaN) for flat boxes |
| C82 | `Rel.*`, `Inter.entity` under `Entity.transform` | R: equivariance of every overload; refuted for two points |
| C83 | `Mex.call` | L: every command has one of six effects on the heap; induction over the script |
| C84,C85 | `Mex.call` | L: by cases on the commands; refuted for deleted objects and for wrong shapes |
| C86 | `Mex.call` | L: tables command/member in `Spec/Gateway.lean`; five commands refuted |
| C87 | `Matlab.*` | L: composition of gateway calls; refuted for several methods |
| C88 | `Mex.call`, `Spec/Script.lean` | L: invariant "every shell is reachable and has at most 200 ribs" over the script; refuted by the C++ standard through C06 |
| C89 | `Rib.envelop…`, `Shell.setup…`, all aggregates, `Spec/Moved.lean` | R: geometric flat by the closed form of the section, sampling by moving the probe lines, mesh sections by `ShiftProps`, tyre by the rib loop; refuted for vertices nearly on a rib plane |
| C90 | `TriangleGround.edit`, `Spec/Edit.lean` | L: only `copy` writes normal and box (induction over the operations); R: swap and copy keep consistency, no nonzero translation does; refuted through the mesh search and a setup |
| C91 | `Flat.edit`, `Spec/Edit.lean` | R: one equivalence per operation, induction over sequences, reversed planes by reversing the section; refuted by `friction()` and `reverse()` |
| C92 | `Model/Access.lean` | L: case analysis on the index; refuted for negative, unchecked and wrapped indices |
| C93 | `Model/Access.lean` (`V3.angle`), `Base/Binary64.lean` | R: equals Mathlib's angle of Euclidean space; refuted for a zero vector (special values) and for the rounding of double |
| C94 | `Model/Entity.lean`, `Model/Geometry.lean`, `Model/Access.lean` | R: a list of sizes compared with the tolerance; refuted for collinear triangles, negative radii and boxes |
| C95 | `Model/Rib.lean` over `Base/Binary64.lean` | B64: bounds preserved by rounding; refuted by an evaluation far from the origin |
| C96 | `Model/ShellPose.lean`, `Model/Shell.lean` | R: the pose applied to every point, composition and inverse; refuted for translations meant in the ground frame |
| C97 | `Model/Aabb.lean`, `Model/AabbTree.lean`, `Model/Mesh.lean`, `Model/Shell.lean` over `Base/Binary64.lean` | B64: triangle corners are doubles and rounding is monotone on doubles, so the rounded box of the wheel keeps every overlap; error bound of rounding |
| C98 | `Model/Rib.lean`, `Model/Intersection.lean`, `Model/Shell.lean` | R: closed form of the section depth is Lipschitz in the height; threshold cases bounded by the tolerance; the four sampled points move together; mean value theorem for the volume |
| C99 | `Spec/Mirror.lean`, `Model/Rib.lean`, `Model/Intersection.lean`, `Model/Shell.lean` | R: mirroring commutes with every step of a rib evaluation up to exchanging the two lateral sampling lines; closed form on flat ground; tree query and order independence (C29) on meshes; sums over the ribs reflected |
| C100 | `Model/Shell.lean` (`eulerAngles`), `Lemmas/YawedWheel.lean` | R: the second column of the relative orientation has x component 0, rest by uniqueness; refuted for doubles by evaluating one scene operation by operation (`Lemmas/YawedWheel.lean` is generated: one lemma per rounded operation) |
| C101 | `Model/Print.lean`, `Spec/Report.lean` | L: the output is a list of tokens, every block shown is a member of the list of statements; a label that occurs once determines what stands behind it. Refuted for the relative angles, the total area and the format of the stream |
| C102 | `Model/Print.lean`, `Spec/Report.lean` | L: blocks of constant length for meshes; induction over `build` for trees |
| C103 | `Spec/Volume.lean`, `Lemmas/Riemann.lean` | R: Lebesgue measure of the solid as an integral of sections, midpoint sums of functions of bounded variation; refuted below the ground |
| C104 | `Spec.IsDouble`, `Spec.PlainProfile` | B64: induction over the rib loop with an accumulated rounding error; the relative error of each radius through the two powers (`Verif/Lemmas/Radius.lean`); refuted for sharp profiles (underflow of a radius) |
| C105 | `Spec/Close.lean`, `Spec/Calm.lean`, `Lemmas/Rounding.lean` | B64: error bounds for sums, products, quotients, lengths and normalisation, composed along the method; the depth depends on the sampled normal through a length that is 1-Lipschitz in it; refuted far from the origin |
| C106 | `Spec/Calm.lean`, `Spec.IsDeepest` | R: closed form of the method on inclined planes (`C60_inclined`), deepest point of a circle; refuted on a slope |
| C107 | `Spec/Road.lean` | R and B64: barycentric clamping and a Lipschitz bound; rounding analysis of the line/triangle test (`Crack`); refuted for too fine meshes |
| C108 | `Spec/Road.lean`, `Spec/Calm.lean` | B64: the samples of the mesh are close to the plane (`RoadContact.sample`), then the error analysis of C105 (`Accurate.core`); the search by C97; refuted for too fine meshes |
| C109 | `Spec/Cut.lean`, `Spec/Calm.lean` | B64: plane/plane line by the error bounds of `Lemmas/Rounding.lean` (`Cut.line`), its discriminant against `R² − h²` (`Cut.disk`, `Cut.quad`), the chord and its middle (`Cut.chord`), all bounds in terms of the size `M` of the scene; NaN segments when the discriminant is just below zero; refuted far from the origin |
| C110 | `RunsBack` in `Props/UninitProps.lean` | any α: `Model/Uninit.lean` repeats the evaluation with variables that may have no value; induction over the triangles; refuted by two scenes |
| C111 | `Spec/Cost.lean` (height of a tree) | any α: `Model/Cost.lean` counts the box tests of a query and the boxes handled by `build`; induction over the boxes; balance refuted for every n by points at distances 4^k |
| C112 | `Spec/Mean.lean` (`total`, `mean`) | B64: induction over the ribs for the error of a sum (`Mean.sum_close`), then the quotient (`Mean.quotient`); records are arbitrary finite doubles |
| C113 | `Spec/Segment.lean`, `Spec/SegmentRecord.lean` | B64: the chain of roundings (`Lemmas/SegmentRound.lean`); `acos` is Hölder continuous and, away from one, Lipschitz (`arccos_holder`, `arccos_lip`); the segment is at least `d √(R d)` (monotonicity of a difference); refuted for positive volumes at tiny depths |
| C114 | `Spec/Geometry.lean`, `InBall` of `Spec/Entity.lean`, Lebesgue measure | R: volume of Euclidean balls from Mathlib; Lagrange's identity for triangles; Cauchy-Schwarz for planes; refuted for normals that are not unit vectors |
| C115 | `Has` of `Spec/Entity.lean`, `Turned` in `Props/SameSetProps.lean` | R: induction over the sequence of operations |
| C116 | `RelClose` in `Props/SameSetProps.lean` | R: Eigen's `isApprox` as an inequality of lengths; refuted as a comparison independent of the place |
| C117 | `Spec/CalmTyre.lean` (`CalmTyre`, `depthError`), `Spec/Segment.lean`, `Spec/Mean.lean` | B64: composition of C105, C112 and C113; the segment area is Lipschitz in the depth (`Whole.seg_lip`); weighted means only see ribs in contact (`Whole.mean_in`); the demo is in `Props/WholeTyreDemo.lean` |
| C118 | `Spec/Finite.lean` (`IsNumber`, `NotNaN`, `AllPose`, …), `Model/Rib.lean`, `Model/Shell.lean` over `Base/Binary64.lean` | B64: operands of an operation with a number (not NaN) as result are numbers (not NaN), applied backwards from the reported depth to the data (`Hered`); refuted for the geometric method on a mesh, which throws; demo in `Props/NaNMeshDemo.lean` |
| C119 | `Spec/Finite.lean`, `Model/Aabb.lean`, `Model/AabbTree.lean`, `Model/Mesh.lean` over `Base/Binary64.lean` | B64: a NaN in the first box survives `merged`, so the root of the tree meets nothing; demo with a file that holds the word `nan` |
| C120 | `Model/Shell.lean` (`make`, `resizeLoop`), `Model/Shape.lean` over `Base/Binary64.lean` | B64: inversion of the checks of the loop with the special values of `pow` (C11 annex F); witnesses with NaN, infinite and negative parameters |
| C121 | `Model/Shell.lean`, `Model/Rib.lean` over `Base/Binary64.lean` | B64 end to end: rib radii (C104), cut depth (C109), volume of a cut (C113), a Riemann sum with perturbed tags (`Lemmas/Riemann.lean`) against the Lebesgue measure of `sunkPart`; witness of a NaN volume far from the origin |
| C122 | `Model/Rib.lean` (`envelopGeometricMesh`), `Model/Intersection.lean` | ℝ: the section of a triangle by the plane of a rib and its clipping to the disk determined exactly (`Lemmas/TriangleCut.lean`); the sum of the sector differences as an integral by the fundamental theorem of calculus piece by piece (`Lemmas/RoadArea.lean`) against the Lebesgue measure of `belowRoad`; the lengths likewise against `roadLength` (`Lemmas/RoadLength.lean`); witnesses with a kerb and with small triangles |
| C123 | `Model/Intersection.lean`, `Model/IntersectionMore.lean`, `Spec/InPlane.lean` | ℝ: coplanarity through C69; the line/triangle section by signed distances from the line (`Lemmas/LineCut.lean`, `Lemmas/LineTouch.lean`, sharing `Lemmas/TriangleCut.lean` with C122), the line/disk section by the quadratic; witnesses for tangents, stars, coplanar triangles and disks |
| C124 | `Model/IntersectionMore.lean` (`triTriSeg`, `diskDiskSeg`), `Spec/InPlane.lean` | ℝ: each body is cut by the plane of the other in a segment of the common line (C123's lemmas), the two segments are merged by the collinear segment/segment overload (C53) |
| C125 | `Model/Shell.lean` (`setupMesh`, `contactVolume`), `Model/Rib.lean`, `Spec/Terrain.lean` | ℝ: C61 (the search finds all triangles of a rib) and C122 (volume of one rib) for every rib, C42 (sum), then Fubini for the volume below the terrain and a midpoint sum with a bound on the variation of the slices (`Lemmas/Riemann.lean`); counterexample with short sections |
| C126 | `Model/Aabb.lean` | ℝ for membership, translation and order; B64 for translation (rounding to nearest even is monotone: `Lemmas/NearMono.lean`) and for `clear`; counterexamples for the tolerance, the setters and the converse in doubles |
| C127 | `Shape.isApprox`, `Rib.isApprox`, `TriangleGround.isApprox`, `Flat.isApprox` | ℝ: equivalences member by member, on top of C116; counterexamples for every tolerance but the default |
| C128 | `Model/ShellPose.lean`, `Model/Shape.lean` | ℝ: induction over histories (`Spec.BuiltFrom`), then C01–C03; B64 for the default profile |
| C129 | `Model/CollectionStore.lean` | any scalar: induction over programs (`Separate`: no two collections have one tree), refinement of the operations on values of `Model/Collection.lean`; counterexamples for copies, aliased outputs and moved objects |
| C130 | `Rib.envelop*`, `Shell.contactPoint`, `Shell.contactDepth` | R: invariant of the accumulation loop (weighted sums stay in the disk), convexity for the average over the ribs; XR for the contact without volume |
| C131 | `Rib.envelopSampling*`, `Inter.lineTriangle`, `Inter.linePlane`, `Shell.setupMesh` | R: the intersection of a line does not depend on its origin; the record as a function of the height; two setups by the order independence of C29 |
| C132 | `Shell.setupMesh`, `Rib.envelopGeometricMesh`, `Shell.contactVolume` | R: the volume of a rib is the area below its road (C122), which is monotone and Lipschitz in the road; summed over the ribs for two setups |
| C133 | `Rib.envelopSampling`, `Rib.envelopGeometricFlat`, `Rib.envelopGeometricMesh`, `Shell.make`, `Shell.setupFlat`, `Inter.*` | R: every function commutes with the change of unit except the comparisons with `eps`; these keep their outcome towards smaller units above the tolerance, and refute the claim towards larger ones |
| C134 | `TriangleGround.updateNormal`, `Inter.lineTriangle`, `Inter.planeTriangle`, `Inter.triangleDisk`, `Rib.envelopSamplingMesh`, `Rib.envelopGeometricMesh`, `Shell.setupMesh` | R: every routine is symmetric in the vertices away from the tolerances; exact form for vertical faces; counterexamples for vertical faces and for lines beside a corner |
| C135 | `Rib.envelopGeometricMesh`, `Rib.samplingLineMesh`, `Rib.envelopSamplingMesh`, `Shell.setupMesh` | R: an untouched face has no section with the disk; on a line only the highest hit counts; counterexample: a deck over the wheel with the sampling method |
| C136 | `Rib.samplingLineMesh`, `Rib.geomLoop`, `Rib.geomFinish`, `Shell.setupMesh` | R: the highest hit depends on the set of faces only; the sums of the geometric method are multiplied, the quotients kept; counterexample: every geometric contact |
| C137 | `Inter.triangleDisk`, `Rib.geomLoop`, `Rib.geomFinish`, `Rib.samplingLineMesh`, `Shell.setupMesh` | R: completeness of the section, then non-negative areas add up; counterexample: a wall through the wheel, by sampling |
| C138 | `Rib.envelopGeometricFlat`, `Rib.envelopSamplingFlat`, `Shell.setupFlat` | R: the evaluation depends on the plane of the ground only, not on its origin; then C89 and C35 |
| C139 | `Rib.envelopMesh`, `Rib.envelopFlat`, `Shell.setupMesh`, `Shell.setupFlat`, `Mesh.intersection`, getters of `Shell` | any arithmetic: logical relation between runs on painted grounds; R: linear relation, then positivity; counterexample: total area |
| C140 | `Mesh.loadRdf`, `Mesh.loadObj`, `Mesh.lineLoop`, `TriangleGround.make`, `Shell.setupMesh` | any arithmetic: simulation between two runs of the loader on any lines; R: faces built at moved vertices are moved, then C89; counterexample: loaded upside down |
| C141 | `Mesh.loadRdf`, `Mesh.parseNode`, `Mesh.parseRdfElement` | any arithmetic: C19 with a specification of numbered nodes; counterexample: two nodes with exchanged numbers |
| C142 | `Mesh.rdfLine`, `Mesh.objLine`, `Mesh.lineLoop`, `Text.firstToken` | any arithmetic: skipped lines leave the state of the loop alone; counterexample: a node commented out by `{` … `}` |
| C143 | `Rib.envelopGeometricFlat`, `Rib.envelopGeometricMesh`, `Rib.envelopSampling`, `Inter.triangleDisk`, `Shell.setupFlat`, `Shell.setupMesh`, `Shell.isCandidate` | ℝ: intersections are even in the normal of the disk, sums are reflected; counterexamples: section across the seam, flag of a leaning wheel |
| C144 | `Rib.envelopGeometricFlat`, `Rib.envelopSampling`, `Shell.make`, `Shape.surfaceRadius`, `Shell.setupFlat`, `Shell.setupMesh` | ℝ: scaling to the larger radius and monotonicity in the depth, measure of the part below a road; counterexample: sampling lines beyond the ground |
| C145 | `Rib.contrib`, `Rib.geomLoop`, `Rib.envelopGeometricMesh`, `Shell.setupMesh` | ℝ: area and length of the part below a road (C122), bisector of the section; counterexample: a flat road in one triangle and in two |
| C146 | `Rib.envelopSampling`, `Rib.lineXp` …, `Rib.contrib`, `Rib.geomLoop`, `Shell.contactNormal` | ℝ: the four sampling lines fix one coordinate of the normal; sections below the axis; counterexample: a wheel turned half round |
| C147 | `Shell.contactFriction`, `Rib.envelopFlat`, `Rib.envelopMesh`, `Shell.setupFlat`, `Shell.setupMesh` | ℝ: the records of all ribs after a setup, then the weighted mean; counterexample: two ribs, one lightly on the road |
| C148 | `Rib.envelopFlat`, `Rib.envelopSampling`, `Rib.depthArea`, `Rib.depthVolume`, `Shell.contactVolume` | ℝ: area and volume are monotone in the depth, which is at most the radius; counterexample: one face many times (C136) |
| C149 | `Shell.contactPoint`, `Shell.setupFlat`, `Rib.envelopFlat`, `Shell.make` | ℝ: weighted mean of points of a plane; the ribs of a new tyre are symmetric, so the moments of their volumes cancel; counterexample: a leaning tyre of two ribs |
| C150 | `Shell.contactAreaAt`, `Shell.setupFlat`, `Rib.envelopFlat`, `Shell.make` | ℝ: footprint as a measurable set, its area by Fubini the integral of the chords; midpoint sums of a function that rises and falls, for leaning wheels of one that changes like a root (Cauchy–Schwarz over the cells); counterexample: a leaning tyre of any number of ribs |
| C151 | `Shell.contactPoint`, `Shell.setupFlat`, `Rib.envelopGeometricFlat`, `Shell.make` | ℝ: depth, area and volume of equal ribs against their height; reflection of the sum of the moments about the middle plane |
| C152 | `Shell.setupFlat`, `Rib.envelopGeometricFlat`, `Shell.make`, `Shape.surfaceRadius` | ℝ: a rib of the one radius at the other place between the two, then C144 and the comparison of C151; the profile falls from the middle to the sides |

## 4. Observations about the code made on the way

Each of these is either proved (the theorem is named), or a fact outside the model that limits it.

* `shell::resize` calls `m_out.reserve(200)` and then indexes: `m_out` has size 0, so every access is
  outside the vector (C06). 200 ribs is the practical limit.
* `shell::setup` on a flat ground returns the flag of the last rib only (C38); with no local triangle
  a wrong method name goes unnoticed (C39).
* `contactArea` sums the friction coefficients (C41). Below the threshold `contactDepth` returns
  volume over size (C44). `contactPointAffine(vec)` and `relativeAngles(vec)` do not resize (C47).
* The contact frame has a zero column when the normal is parallel to the wheel axis (C46); the yaw of
  `eulerAngles` is in [0, π], as in Eigen 3.3/3.4; the per-rib `relativeAngles` subtracts the rib angle
  from `x()`, which is the yaw.
* A triangle cut in a segment shorter than eps ends the loop over the triangles (`break`), so the order
  of triangles matters (C34); a vertex within eps of a rib plane makes the section routine throw (C37,
  C65); a contact with area above the threshold and zero volume divides by zero (C36).
* The constructor of a tyre accepts some parameters that make no tyre: NaN or negative `Mx`, infinite or negative `Rx`,
  NaN `Ly` (C120).
* The volume of a mesh contact wraps at the cut of `atan2` (C35).
* The outer ribs of a wide shell stick out of the bounding box, so ground under them is missed (C61).
* Thresholds differ between flat and mesh ground, and the normal differs when the rib centre is below
  the plane (C59).
* OBJ: the face index −2147483648 overflows `stoi(…) - 1` (C21). RDF/OBJ: an index beyond the nodes is an
  out-of-bounds access (C22). Loading twice throws (C23). Loader theorems with an "exactly" are about
  lines without the characters that `split` and `firstToken` treat differently (`Clean`).
* RDF: elements refer to nodes by position, the id column is skipped (C141); a comment from `{` to `}` over several
  lines is read as data after its first line (C142); normals of faces loaded upside down point upwards (C140).
* `lineDisk`/`segmentDisk` with a discriminant in `[−tol, 0)` take the square root of a negative number
  (0 for Mathlib reals, NaN for doubles); C50 excludes tolerance 0 with a parallel line (division by
  zero); `planePlane` combines un-normalised distances with normalised normals (C51).
* `IsOrthogonal(line, plane)` tests the wrong product (C67); `IsCollinear(ray, ray)` tests the offset twice
  and never the directions (C68); the crossing of lines, rays and segments is computed for skew ones as
  well (C71); segment/ball mixes the normalised parameter with the length (C72); directions are never
  checked to have length 1 (C66). `Intersection` of a point and a ball throws (C74).
  Plane/disk binds a reference to a null pointer, triangle/plane in one plane is empty (C70). A ray that
  starts on a plane misses it (C75). Diverging rays on a line, perpendicular rays from one point, and
  some nearly collinear segments make `Intersection` throw (C76).
* The box of a disk is a cube whatever the orientation of the disk (C80). Points are compared with Eigen's
  relative `isApprox`, so whether two points are the same depends on the origin of the axes (C82).
* `collection`: `areSegment` tests for balls, `containDegenerated` asks for all, `countNonClampable` counts
  the clampable entities, `remove…` never erases, shared objects are moved twice (C77); the tree is neither
  updated by `translate`/`rotate`/`transform` nor dropped by `clear` (C78).
* `aabb::centerDistance` of a flat box is ∞/∞, so `selectMinimumDistance` drops flat boxes (C81).
* MEX gateways: `new` of `mex_flat` accepts seven further values and ignores them; `setOrigin` does not
  check the number of values; `setNormal` stores the vector without normalising it; `setFriction` accepts
  negative numbers; `new` of `mex_mesh` with a wrong extension gives an empty mesh; deleted handles are
  not recognised (C84); the tests on shapes use "or" (C85); `rotation` is transposed, `load` and
  `checkTransformation` never return (C86). MATLAB classes: see C87.
* `rib.cc:266` swaps uninitialised doubles; the sampling method adds uninitialised points when a line
  misses. `Model/Rib.lean` leaves these reads out, `Model/Uninit.lean` has them (C110).
* Default constructed points and vectors are uninitialised memory in C++; the model has NaN there, no
  theorem depends on it.
* `shell.hxx` declares `shell(size, shape)`, `rotate(angle, string)` and `transform(mat4)` without
  definition; they cannot be called. `shell::bbox()` hands out the shared box, mutable.
* The hub matrix of the S-function is assumed to have the last row 0 0 0 1; the conversion of the
  `double` number of ribs to `size_t` is left to the caller; the three global pointers are arguments.

## 5. Layout

`Verif/Base` (scalars, outcomes, vectors), `Verif/Model` (the code), `Verif/Spec` (small
independent specifications), `Verif/Lemmas` (helpers), `Verif/Props` (property theorems with
non-vacuity examples beside them), `Verif/Audit.lean` (fails to build if any
declaration of the development depends on an axiom other than the three of section 2).
