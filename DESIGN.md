# Formal model of slam-envire (Lean 4)

Source: /repo (rock-slam/slam-envire), read as text only; never built, never run, not modified.

## Trusted base

* Lean 4.33.0 kernel. Allowed axioms: `propext`, `Classical.choice`, `Quot.sound`. Each property
  module ends with `#print axioms` of its property theorems (visible in the build log).
* No own axioms, no `sorry`, no `native_decide`, no `bv_decide`.
* The only tie between the theorems and the C++ code is the reading of the code: every definition
  of a model cites file and lines. Everything below under "not modelled" is assumed away.

## Conventions of the models

* C++ objects are addresses (`Nat`); `std::map`/`std::multimap` are association lists ordered by key,
  equal keys of a multimap in insertion order, iteration in list order.
* Undefined behaviour, failed `assert`s and divergence are a distinct outcome (`Res.fault`), exceptions
  are `Res.throw` and carry the state at the throw (C++ does not roll back).
* Floating point numbers are rationals or reals: rounding, NaN and infinity are not modelled unless
  a definition says so. Integers are unbounded unless a property is about wrap-around.
* Single threaded: mutexes and threads are not modelled (the environment is not thread safe by design).
* File system, YAML library, GDAL, CGAL, Box2D, Eigen internals: not modelled; where a property
  crosses them (round trips), the part of the data path in this repo is modelled and the library is
  assumed to give back what was put in (stated in the module).

## Layout

* `Verif/Core/*`     environment, items, relations, events, synchronisation, serialization
* `Verif/Grid/*`     grid coordinates, list grid, MLS grid, traversability grid
* `Verif/Tools/*`    Bresenham, lookup tables, numeric tools
* `Verif/Ops/*`      operators
* files named `*Model.lean` hold the model, `*Lemmas.lean` helper lemmas, `*Props.lean` the property
  theorems with their examples and axioms listing.

## Properties: plan (what is modelled, how it is proved)

Core state machine (`Core/EnvModel`): one environment with all item objects it can meet; every public
call of Environment that changes state is an `Op`; `step : Env → Op → Res`; other environments and the
owner of references are modelled as interference ops. Reachable states by induction on histories.

* C01 invariant by induction over all ops.
* C02 the id search loop with fuel; proof that fuel = number of items + 1 always suffices (injectivity of
  decimal printing + pigeonhole); freshness.
* C03 decision logic of attachItem.
* C04 C10 invariant (unique keys) + functional specification of each call.
* C05 C06 functional specification of detachItem: relations are filtered by "does not mention x".
* C07 deep detach: induction on the height of the node in an acyclic forest.
* C08 violated by the code (no cycle check): witness; `_partial`: histories in which addChild is never
  called with a parent that is a descendant of the child stay acyclic.
* C09 transforms are elements of an arbitrary group; induction over chains.
* C11 C14 violated (duplicate check looks at one entry): witness + `_partial` (single parent / first input).
* C12 C13 invariant and functional specification.
* C15 violated (removes input instead of output): witness + `_partial` (what it does guarantee).
* C16 picture reconstructed by folding the event log = state, invariant over all histories.
* C17 C18 violated for layer links / orphan trees / maps on the root: witness + `_partial`.
* C19 event source with handlers: induction over interleavings.
* C20 C21 event queue: per key alternation argument; C21 violated: witness + `_partial`.
* C22 simulation relation between source and replica by ids.
* C23 C24 save/load on the level of ids, classes, relations; YAML text is not modelled.
* C25 row-major index maps.
* C26 C27 string lemmas; C27 violated: witness + `_partial`.
* C28 violated (use after free / lost on throw): witness + `_partial` with outside reference and free id.
* C29 C30 C31 rational arithmetic with floor; C31 violated (one cell too large): witness + `_partial`.
* C32 integer invariant of the error term.
* C33 C34 heap of nodes with next / back pointers refining lists per cell; C34 violated: witness + `_partial`.
* C35 C36 MLS grid on top of the sequence-per-cell specification.
* C37 C38 C39 real/rational algebra; C39 violated (containment): witness + `_partial`.
* C40 C41 C42 traversability grid: tables over 8 bit ids.
* C59 C60 metadata: heap with arbitrary allocator, refinement to one finite map per layer; the array pointer of TraversabilityGrid on
  top of it. C61 to C64 class table and probabilities, with the model of C40 to C42 (Verif/Maps).
* C43 breadth first search with visited marks over an arbitrary drivability oracle (Verif/Ops/GrassfireModel): invariant of
  the queue and the list of evaluations, the amount of work left decreases. C65 the climbing loop strictly raises the patch.
* C44, C66, C67 (Verif/Ops/GrowModel) fold over all cells equals pointwise maximum of a strict weak order. C45 index bounds; violated (off by one): witness.
* C68, C69, C71 (Verif/Ops/SimpleModel) rounding is monotone; class table by induction on the class count. C70 (NarrowProps) the parent of a table entry is one ring nearer to the centre and inside the rectangle; the marked cells are collected as lists while the set of obstacles stays the same.
* C72, C76 (Verif/Serial/SyncModel, SyncProps) invariant: delivered ++ buffer ++ compress of the current batch, for some cutting of the reported events. C74 (ContextProps, LenientLemmas) `lenient` is a specification of what an arbitrary event, fitting or not, does to the facts of a receiver; the walk up the frame tree is an induction on the height.
* C73 (Verif/Serial/BinaryModel, BinaryProps) last-write-wins specification of properties and streams, induction over the batch; truncation by the pigeonhole principle. C75 (PullProps) every queued message is true in the current state (`Says`); announcements behind it; a receiver of true messages only gains facts.
* C46, C47 invariants `Closed` and `Safe` over histories. C48 TU (transform, covariance, flag) over a group with symbolic
  Jacobians; forgetting the covariance is a homomorphism; PSD is closed under congruence and sum. C49 matrix algebra.
* C77, C78, C79 (Verif/Core/JacobianModel, JacobianLemmas, JacobianProps, ComposeProps) over the real numbers: rotation of a vector by the formula of Rodrigues and the quaternion of a rotation vector as independent specification, `HasDerivAt` along every direction, Taylor bounds for sin and cos from Mathlib.
* C80 (Verif/Tools/KMeansModel, KMeansProps): one iteration of the loop as a function on states, for any search that returns a nearest centre; termination because the weighted sum of squared distances falls strictly while samples switch, and there are only k^N assignments.
* C81, C82, C83 (Verif/Tools/MixtureModel, MixtureProps) over the real numbers: density of the multivariate normal distribution as specification (in one dimension linked to Mathlib's `gaussianPDFReal`), weighted sums for the fit of a component, intervals of the uniform random number for sampling.
* C84 (Verif/Maps/SegmentModel, SegmentProps): histories of addPart and update; specification by the list of added hypotheses; the statistics of `numeric::Stats` are a parameter.
* C85, C86 (Verif/Tools/LookupModel, LookupProps, BoxProps) over the real numbers: distance to a box as the minimum over all points of the box; the table has the maximum over the ticks in a cell, the distance is Lipschitz.
* C87, C88 (Verif/Ops/CloudModel, CloudProps): filtered and concatenated lists as specification, metadata compared through `zip` with the vertices; box histories by the last call about each box.
* C89 (Verif/Ops/SlopeModel, SlopeProps): the loops as a list of comparisons of two cells; every slot of a cell with a surface has the step to its neighbour after the comparison, the count is a sum of indicator functions over the visited cells.
* C90, C91 (Verif/Maps/MapSetModel, MapSetProps) over the real numbers with 3x3 matrices: reachable states of a map as an inductive predicate, contents of the grids as a function that may differ in every query; invariant: the cached grid is one of the grids, with its current transform.
* C92 (Verif/Tools/AccessModel, AccessProps): the same for the cached grid of GridAccess and MLSAccess; specification: the resulting point is on the surface of the grid.
* C93, C94, C95 (Verif/Ops/ConvertModel, ConvertProps): loops over cells with the update of a cell as a parameter; specification by the region of a cell (`InCell`) and the list of the patches that belong to it; lemmas on loops that change one cell per step.
* C96 (Verif/Grid/RectModel, RectLemmas, RectGeom, RectRows, RectProps) over the real numbers: the sides are Bresenham lines (C32, extended by the direction of the steps) between the corners in a grid ten times finer; both sides go down row by row, the loop visits the rows between them; a point of a side is less than 1.5 fine cells from the edge of the rectangle; edges of both sides are on opposite sides of a point inside of the rectangle, by the sign of a determinant. Specification by the coordinates along and across the rectangle.
* C97 (Verif/Grid/RectsModel, RectsProps): the loop over both rectangles finds the rows of the loop for the outer one, each with the row of the loop for the inner one; then as C96.
* C98 (Verif/Maps/TravRectModel, TravRectProps): C96 gives the cells, C85 the distances (a cell that touches the rectangle is less than 0.7072 M + 1.15 cells away in each axis, M the longer side); induction over the cells for the statistic.
* C99 (same files): C98 and C41 for the class, C96 and C63 for the probability.
* C100 (Verif/Tools/VoxelModel, VoxelLemmas, VoxelProps): the crossings in each axis are increasing sequences of parameters; after n steps the numbers of steps in x and y are those of the n least crossings (merge of two sequences); induction over the steps. NaN is a value of its own.
* C101 (Verif/Ops/IlluminationModel, IlluminationProps): C100 for a ray from the middle of the cell; the loop ends at the cell of the light or at the border; greatest element of a fold.
* C102 (Verif/Core/CloneModel, CloneProps): on top of the environment model of C01-C20; the chain of frames is an inductive relation, bounded by the number of links because it has no repetitions; each added frame leaves everything else as it is (structure Kept, composed along the loop); the pose is a fold over the transforms of the chain.
* C103 (Verif/Ops/MeshModel, MeshLemmas, MeshProps): invariant of both loops: the vertices are those of the readings so far, the index lines hold their numbers, the faces are those chosen in the quads so far; the four triangles of a quad by cases. The surface: a directed edge determines its quad, so that no two chosen triangles have one in common.
* C104 (Verif/Ops/ScanModel, ScanProps): closed form of the loop over the readings; the filter is an angle in a triangle (law of cosines, against the angle of Mathlib); the tilt as a rotation.
* C105 (Verif/Maps/NormalModel, NormalProps): a fold of assignments, the last one for each vertex remains; the normal of a face is characterised by its geometry, and unique.
* C106 (Verif/Maps/ScanFileModel, ScanFileProps): the file as a list of characters, with the stream operators (whitespace, end of file, failure) and the number format as a parameter with laws; induction over the lines and the numbers of a line.
* C107 (Verif/Ops/ElevationModel, ElevationProps): invariant of the loops: each band holds the highest and lowest of the points so far (extended reals).
* C108 (same files): the triangulation of CGAL is a parameter with laws (a located triangle is made of inserted points and contains the position); the linear system is solved by the inverse matrix, so the value is the barycentric combination.
* C109 (Verif/Maps/ElevationGridModel, ElevationGridProps): closed forms; the normal characterised by orthogonality, length and direction, and unique.
* C110, C111 (Verif/Maps/QueryModel, QueryProps): the gap as least difference of two heights; `get` by induction over the cell.
* C112 (same files): the counters of the loop are the sizes of two sets of cells, by induction over the index from its end.
* C113 (same files): the nearest patch is characterised as the first with the least gap, unique; the sums as finite sums over the cells.
* C114 (same files): each height is determined by the one before; induction over the path.
* C115 (Verif/Maps/PlyModel, PlyProps): each element of the file is read back by induction over its items; the parser of the library ply is modelled by its documented behaviour (an assumption).
* C116 (Verif/Ops/ToCloudModel, ToCloudProps): the loop over heights is a list of equidistant values, with a proof that it has ended (`loop_ends`); then membership over cells and patches, and the number of points as a sum.
* C117 (same files): the loop adds to three lists at once; they are images of one list of cells, characterised by its members and order.
* C118 (Verif/Ops/ProjectionModel, ProjectionProps): the set of cells is iterated in its order with the next larger element, so that insertions on the way are modelled; the number of cells after the current one decreases. If the target is another grid the whole projection is one list of calls of updateCell, and a cell depends on those for it only (`fold_cells`).
* C119 (Verif/Maps/CloudTextModel, CloudTextProps): the stream with its end and error bits; one lemma for a line that is used and one for a line that is not, then induction over the lines.
* C120 (Verif/Maps/CloudCopyModel, CloudCopyProps): the test for the identity bounds the error of a point (Cauchy-Schwarz); extents as a fold of minima and maxima.
* C121 (Verif/Icp/PairsModel, PairsLemmas, PairsProps): the eigenvalue decomposition is any correct one; the selected vector maximises the quadratic form of the matrix; the error of a rotation is a constant minus twice the trace form, so the form of the code is compared with the right one.
* C122 (same files): invariant that all indices are in range; trim through a sorted permutation.
* C123 (Verif/Icp/AlignModel, AlignProps): the iterator visits floor(k / d); floors and ceilings.
* C124 (same files): induction over the rounds; for shifts the offsets of all pairs are equal in every round; applyTransform in the model of the frame tree.
* C125 (Verif/Icp/GoldenModel, GoldenProps): invariant that the best tried value is kept; for the witness a box that the points never leave; the corrected search keeps the minimum between its outer points. That the loop ends (Verif/Icp/GoldenEnds) is proved on the points alone, for every sequence of the two cases: by a finite check five rounds that keep both a largest and a smallest point begin with two different cases, so either the distance of the points shrinks by a fixed factor or the cases alternate, and then the outer points meet.
* C126 (Verif/Icp/RansacModel, RansacProps): the random picks are an arbitrary sequence; induction over the rounds keeps the best model among those tried; shifts by C121_shift.
* C127 (Verif/Icp/HistogramModel, HistogramProps): induction over the ascending list, with the bin and the count as generalised state.
* C128 (Verif/Icp/StabilityModel, StabilityProps): induction over the removals; Euler angle wrapping and Cholesky factor are parameters.
* C129 (same files): the bounds column by column; induction over the calls of getSigmaOffset.
* C130 C131 C132 (Verif/Icp/LocalizationModel, LocalizationProps): induction over the calls; rigid transforms as matrices with a proof of orthogonality; C132 on top of C124.
* C133 C134 (Verif/Maps/PolygonModel, PolygonProps): convex hulls of Mathlib; an invariant over the calls says that a stored result that would be used is the right one.
* C135 C136 C137 (Verif/Maps/RasterModel, RasterLemmas, RasterProps): arrays with their memory, so that the reversed lines and the additional line of readGridData are real; induction over the pixels and the bands; the result is compared with the pixels of the file and the affine map of its geotransform.
* C138 C139 C140 (Verif/Maps/AlignedModel, AlignedProps): the two comparisons over real numbers, against the places of all cells; `rint` with halves to even; the class projection by induction over the cells, with the state after an exception.
* C141 C142 (Verif/Maps/GridSaveModel, GridSaveProps): scene directory as a map from file names to raster files of C135; induction over the items and their bands, with the invariant that the files of all items saved so far hold their bands. Names as lists of characters; two names are compared by their first underscore.
* C143 C144 (Verif/Maps/ImageModel, ImageProps): the loops over the memory of the arrays, with accesses outside of them as undefined behaviour; induction over the pixels.
* C145 C146 C147 (Verif/Viz/ViewModel, ViewProps): the listener on top of the event stream of C16; invariant `Follows` between the listener, a fold over the actions (`Sight`) and the picture of the events (`Pic`), preserved by every event that makes sense, by redraws, property changes and visualizers; then the picture is replaced by the queries of the environment with the theorem behind C16. Nodes: invariant `NodeOk`.
* C148 (Verif/Viz/TreeModel, TreeProps): the tree listener on the event stream of C16; invariant `Inv` between the tree, the picture of the events and the typing of the items; the core `Mirrors` says what the tree shows for a relation (child, parent) and is kept by making, linking, unlinking and dropping single entries. Orders of events that break the tree are given as witnesses from histories of the environment.
* C149 (Verif/Tools/DotModel, DotProps): the text of the graph writer over the environment model; the specification is a lexer and parser for the part of the DOT language in use (`readDot`), written as state machines that run over a text piece by piece. The reader gets back `graphOf`, and the API queries are read off its nodes and edges. The digits of the pose are an input that must not disturb strings.
* C150, C151 (Verif/Tools/GridArgsModel, GridArgsProps): the two argument parsers over lists of words, with the null pointer behind the last word as a crash. The specification is the documented usage as a predicate on lists of words; lexical_cast and the items of the environment are inputs.
* C152 (Verif/Tools/DeleteModel, DeleteProps): the loop over the ids on top of the environment model; C07 gives one step, and `Restrict.subtree` shows that the subtrees seen later are those of the loaded environment up to what is gone.
* C153 (Verif/Tools/SlamModel, SlamProps): directory as a list of named files, names with digits, the regular expression as a matcher on lists of characters, the matrix read entry by entry. The specification is the renaming of the axes (`toSlam`) and the line of 16 numbers by columns (`lineOf`).
* C154 (Verif/Ops/SimplifyModel, SimplifyProps): tuples of index and point; the functions of CGAL are inputs of which only the documentation is assumed (selection, or moving points); indices of the result by induction over the loop that copies back.
* C155 (Verif/Maps/CloudFilesModel, CloudFilesProps): directory as a map from names to files, PLY content from PlyModel; scene by induction over its items with distinct file names.
* C156 (Verif/Ops/SettingsModel, SettingsProps): an operator class is a table of defaults, written and read keys; the keyed document takes the last entry; lost settings by a general lemma on the keys read and a finite table of classes.
* C157, C158, C159 (Verif/Viz/PatchModel, PatchProps, PatchBoxProps): patches as they are drawn. The polygon is a list of vertices made by a step for each corner; a lemma per edge shows that the ends of its part in the range are vertices. The specification of a box is given by its faces (corners, outer normal, neighbours along the edges). Normals: the sums over the neighbours are computed in closed form for present and missing neighbours, with the wrap around of the index 0.
* C160, C161 (Verif/Tools/MlsToolModel, MlsToolProps): boxes in other frames and the grid of env_mls. A box is its two corners, the empty one has the greatest number as smallest corner, as in Eigen. An affine function on a box is between its values at two corners (choose the end of each interval by the sign of the coefficient), so the box of the transformed corners contains everything; the corners are in the box, so it is the smallest. For the grid: the number of cells is the floor of the size, so all but the last partial cell is covered; the last point along x has exactly the cell number that is the size.
* C162, C163 (Verif/Tools/ToolArgsModel, ToolArgsProps): command lines as lists of words; an element behind the end is undefined behaviour. The streams of env_mls_trajectory have words and state bits; the loop has fuel, `none` for all fuel means that it does not end.
* C164 (Verif/Tools/NoiseModel, NoiseProps): the loop variable runs over start + k * scale; the cell numbers of these places are consecutive, so each cell of the window has exactly one. Fold over the places with distinct cells.
* C165, C166 (Verif/Tools/ToolMapsModel, ToolMapsProps): the cloud of a multi-level surface grid, with the round trip of C29; the geometry of the grids that tools make.
* C167 (Verif/Viz/DispatchModel, DispatchProps): the classes of items as a chain of names, the registered visualizers as a list, later ones first; case analysis over the list.
* C168, C169 (Verif/Viz/GridViewModel, GridViewProps): pictures of grids as lists of pixels; colours and places by induction over the cells, the place of a pixel with the conversion of C30.
* C170 (Verif/Viz/HeightViewModel, HeightViewProps): the height field of elevation grids; smallest and largest height by induction over the cells.
* C171, C172 (Verif/Tools/RubyMapModel, RubyMapProps): the Ruby raster map view and pack/unpack of bands; induction over rows and over the list of values, numbers as bytes modulo 256^n.
* C173 (Verif/Viz/ScanViewModel, ScanViewProps): the drawing of laser scans, compared with the vertices of ScanMeshing; induction over the ranges, real sine and cosine.
* C174, C175 (Verif/Viz/CloudViewModel, CloudViewProps): the drawing of clouds, meshes and trajectories; what is seen of a geometry is specified by inductive relations. Circles of key points are not modelled.
* C175 (Verif/Viz/HighlightModel, HighlightProps): activation of items with the two groups of an item (seen and being updated); invariants over sequences of events.
* C176 (Verif/Viz/RemoveModel, RemoveProps): removal of the selection with the model of the environment; induction over the selection as for C152.
* C177 (Verif/Viz/RemoveModel, RemoveProps): the group of a frame; poses as elements of a group.
* C178 (Verif/Viz/ShownModel, ShownProps): environments of the visualization as a state machine with owners, scene and handlers; invariants by induction over histories.
* C179 (Verif/Viz/HandlesModel, HandlesProps): handles of frames as a state machine with a graph of references; invariants by induction.
* C180 (Verif/Maps/CombinedModel, CombinedProps): boxes with limits in the extended reals; folds over the parts.
* C181 (Verif/Core/BodyModel, BodyProps): blocks of matrices; the conversions of the base library are parameters.
* C182 (Verif/Maps/DeepModel, DeepProps): cloneDeep and operator= with the model of the environment; induction over the grids, multiplicities of links as for C11.
* C183 (Verif/Tools/IcpToolModel, IcpToolProps): the growth of the tree as a loop over the model of the environment; invariant: the frames above a mesh of the tree belong to the tree; poses by the relation `InRoot` of C09; the matrix of pairs is a parameter.
* C184 (Verif/Viz/WindowModel, WindowProps): the window on top of the model of C178; induction over the actions.
* C185 (Verif/Core/ReentryModel, ReentryProps): the loop over the vector of handlers with an index that may become invalid; flush with the three outcomes of a message.
* C186 (Verif/Maps/DecimalModel, DecimalProps, KeyPointModel, KeyPointProps): numbers are printed with six digits as `%.6g` does and read digit by digit, for any ordered field with a floor (real numbers, no overflow; that numbers with six digits survive the conversion to `float` and `double` is a property of these types that is assumed). Reading the printed text gives the nearest number with six digits; the stream of C119 is used for the rest, and C119 gets its version with six digits here.
* C187 (Verif/Tools/NearCloudModel, NearCloudProps): the tree of PointcloudAccess is any function that returns a nearest point, or the points of the square, of the points it was built from; real numbers. Both meanings of the unqualified `abs` are modelled.
* C188 (Verif/Maps/ImportModel, ImportProps): importScanFile with the event model of the environment (C01 to C30), the file as a list of pose lines (or missing, or broken); addScanLine on its own.
* C189 (Verif/Ops/SurfaceModel, SurfaceProps): updateAll with the reconstruction of CGAL as an arbitrary function to a polyhedron or failure; running off the end of the function without return is an outcome of its own.
* C190 (Verif/Icp/EdgeModel, EdgeProps): adapter, filter and findPairs over the real numbers with a value for NaN; the tree as in Verif/Icp/AlignModel. The angle between normals is specified by its cosine.
* C191 (Verif/Grid/FitModel, FitProps): patches with slope over the real numbers. The external numeric::PlaneFitting is specified: weighted sums, getCoeffs solves the normal equations if they have one solution. Trees of merges are folded to lists of measurements; the least squares follow from the quadratic form of the normal equations, whose determinant is not zero if three measurements are not on a line.
* C192 (Verif/Ops/InclineModel, InclineProps): the band mean_slope of MLSSlope and the classes of TraversabilityGrassfire with the plane fit of C191. The specification uses finite sets of offsets; five of the eight neighbours never are in a line with the cell.
* C193 (Verif/Viz/BoxModel, BoxProps): the tree of C148 with the states of the boxes and the masks of the nodes. The specification follows only what the user asked for (`wish`) and the links (`Pic`).
* C194 (Verif/Tools/OpToolModel, OpToolProps): the tools as sequences of calls of the model of the core. The specification `Added` compares the environments before and after by lookups of ids, inputs and outputs of all operators and the three relations. Whether the operator itself succeeds is the parameter `runs`; what it writes into the maps is the matter of the properties of the operators.
* C195 (Verif/Viz/AddModel, AddProps): the actions as calls of the model of the core; the member `selected` is an address that nothing resets. The specification compares the environments with `Clone.Kept`; for picked points it is the place in the scene, which vizkit3d is assumed to pass.
* C196 (Verif/Tools/CreateModel, CreateProps): the document that GridBase::create writes is a list of pairs, read back key by key; the texts of numbers are a pair of functions, assumed lossless. The tool is the command line of C150 followed by calls of the model of the core; the specification is `Documented` of C150 together with `Clone.Kept`.
* C197 (Verif/Viz/DialModel, DialProps): members and setters one by one; the specification is the last value of a history. Rounding to float and double is a pair of functions with the bounds of IEEE 754 as assumption (`Rounding.Sound`); the error bounds add up to less than one half of a step of a component.
* C198 (Verif/Viz/ScanAddModel, ScanAddProps): adding a scan in enview. Composition of the import of C188 and of the calls of C194; the specification `Extended` lists the new items, the input and output of the operator and all that is kept. The check of ScanMeshing::updateAll is in the model and is proved to succeed. Addresses for the new objects are given and not in use.
* C199 (Verif/Viz/DraggerModel, DraggerProps): matrices of the handles of a frame over the reals, as OSG stores them. Invariant over all histories of events, drags and drawings: the outer matrix is a scale and the place of the frame, the inner one 0.6 times its rotation. Assumptions: new draggers have the identity, and CullVisitor::pixelSize is the size with the scale 1.
* C200 (Verif/Tools/DeriveModel, DeriveProps): tools that make a map of another one. `Meant` specifies the map by its id or as the only one of its class, `Extended` (C198) and `Kept` what is written. Calls of the core as in C194 and C198; whether operators run without exception is a parameter.
* C201 (Verif/Ops/InitModel, InitProps): members are a partial map, constructors and setters write into it; the value after any history is the one written last (induction). Then class by class which of the members that updateAll reads are written. The effect of a missing value is shown with the model of MLSSlope of C192.
* C202 (Verif/Ops/KindleModel, KindleProps): the rounds around the start are lists of offsets; membership is the number of steps, the fold takes the smallest difference, induction over the rounds. The search itself is C43, the patch of a cell C65, the byte of a probability C42; here they are put together to updateAll.
* C203 (Verif/Maps/PolyLifeModel, PolyLifeProps): histories over sets, their data and polygons, with deleted memory as an outcome of its own; invariant: each set owns data of its own and there is no other data.
* C204 (Verif/Maps/HandleModel, HandleProps): the readers and writers of Verif/Maps/RasterModel and the streams of scenes with the number of open files and a limit for it; C204_same ties the results to those of RasterModel; induction over histories.
* C205 (Verif/Ops/UpdateModel, UpdateProps): the loop over the operators in the order of the map; for one call an invariant over the rest of the list, for several calls induction over the rank in the graph.
* C206 (Verif/Ops/DirtyModel, DirtyProps): histories over the flags and contents of layers with the operators of Verif/Ops/UpdateModel; what isDirty tells is compared with the last call of the user by induction over the history.
* C207 (Verif/Core/FilterModel, FilterProps): filters of event handlers. The pointers are those of the list of calls (invariant `Good`), hence the effect of one message; projection of a run to the calls of one handler (simulation `Same`).
* C208 (Verif/Core/TypedModel, TypedProps): queries for one class on top of the environment model of C01-C16. The loop finds the only element of a list without duplicates (induction); the items have none by the invariant of C01.
* C209 (Verif/Serial/ClassModel, ClassProps): the registry as a list, later registrations overwrite; with different names a permutation of the registrations does not matter, so the lookups of the names of the library are computed once for all orders. The rule for namespaces is proved for all registries and names.
* C210 (Verif/Maps/TravCellModel, TravCellProps): the state after a list of calls is what the list says was written last (invariant `Good`, one step each), with cached pointers to the bands; undefined calls are characterised exactly (`Fits`).
* C50 same refinement as C33; the memory pool pointer is part of the model state.
* C56 C57 C58 updateCell as two passes over the list of the cell for an arbitrary merge function; sums are conserved by induction.
* C51 to C55 patches: `Holds p l` relates the sums of a patch to the list of its measurements; the rest is interval arithmetic.

## Deviations between code and documented behaviour

Each has a witness theorem (a concrete history evaluated by the kernel) or a general refutation.

* C01 `detachItem` of an item that is not attached here erases whatever item has its id (`C01_detach_of_unattached_corrupts`).
* C07 deep detach of a frame on a cycle recurses without end (`C07_deep_detach_diverges_on_cycle`).
* C08 `addChild` has no cycle check (`C08_cycle_possible`).
* C11 a second addChild of a layer below its second parent duplicates the link (`C11_duplicate_layer_link`).
* C14 the same for the second input/output of an operator (`C14_duplicate_input`).
* C15 `Layer::detachFromOperator` removes an input link; the layer stays generated in every state (`C15_layer_stays_generated`).
* C28 moving an item between environments uses it after deletion when nobody else holds it, and loses it
  when its id is taken (`C28_transfer_use_after_free`, `C28_transfer_loses_item`).
* C46 `addChild(parent, child)` does not attach the parent; the link survives the parent (`C46_link_to_deleted_parent`),
  later calls use the deleted object (`C47_unattached_parent_use_after_free`).
* C17 `addEventHandler` announces no layer links and only frame links below the root (`C17_snapshot_incomplete`).
* C18 `removeEventHandler` retracts neither maps on the root itself nor layer links nor frame links outside the tree of
  the root (`C18_root_maps_not_retracted`).
* C20 a `removeChild` of a layer link that does not exist emits an event; with a following `addChild` in the same batch the
  queue cancels both and the link is lost (`C20_link_lost`).
* C21 removal and re-attachment of an item in one batch cancel each other, its new content is not sent (`C21_stale_content`).
* C22 `ApplyEventHelper` never removes the root node of the receiver; a source that drops its root leaves the replica with an
  extra item (`C22_root_kept`). Batched delivery inherits C20. The class of the object made by the receiver is a free
  parameter of the message (`Msg.kind`): the static casts of the helper are taken to be right.
* C23 a saved environment without item "/0" is loaded with a dangling root node (`C23_dangling_root`); a layer called "/0" makes
  the file unreadable (`C23_root_id_of_layer`).
* C24 an id suffix of 2^63-1 overflows `last_id` on loading (`C24_counter_overflow`).
* C25 holds; outside of the claim: more than n*n numbers are written out of bounds, a missing key "transform" dereferences
  NULL (`C25_too_many_elements`); a used node keeps its covariance (`C25_stale_covariance`).
* C27 '/' and '_' are not distinguished in file names (`C27_files_clash`).
* C29 C30 the conversion of a cell number to size_t is undefined for points left of the grid (gcc/x86-64 wraps, which is then rejected)
  and gives 0 for very far points, which are accepted (`C30_far_point_accepted`).
* C31 `getExtents` is one cell too large in both directions, for every grid (`C31_extents_too_large`).
* C32 holds; outside of the claim: int overflow for lines longer than about 2^30 (`C32_overflow`). The overload for Position copies
  uninitialised numbers when the line is exhausted (not modelled).
* C34 `ListGrid::move` does not update the back pointers of the first items; erasing such an item writes to the cell where it was
  before and leaves a dangling pointer in its own cell (`C34_erase_after_move`).
* C50 the copy constructor of ListGrid (used by the one of MLSGrid) deletes an uninitialised pointer (`C50_copy_constructor_undefined`).
* C39 `overlap` misses the case that the first interval lies inside of the second (`C39_overlap_misses_containment`), so the SUM
  model does not merge such patches (`C39_contained_not_merged`).
* C52 the variance formula of `updateSum` depends on the height above the origin (`C52_deviation_depends_on_height`).
* C53 `MLSGrid::merge` moves only `mean`, not the sums, min and max; the SUM model merges at the old height (`C53_offset_ignored`).
* C54 cutting an older patch can enlarge it or give it a negative height (`C54_cut_grows`).
* C55 `scaleWeight` changes the standard deviation that is calculated next (`C55_scale_changes_deviation`).
* C35 assignment keeps the index of the target (`C35_stale_after_assign`), `move` keeps count and extents (`C35_wrong_after_move`),
  `unserialize` does not reset the count (`C35_wrong_after_loading`).
* C36 trusted: SurfacePatchStore (written) and SurfacePatchStore13 (read) have the same layout.
* C58 a measurement that is near to several patches is added to each of them; if these are then joined it is counted several
  times (`C58_counted_twice`).
* C41 class 255 is counted outside of an array of 255 elements (`C41_class_255`); a registration can return it
  (`C41_class_255_registered`).
* C59 `getData` with a wrong type dereferences NULL, the check is commented out (`C59_wrong_type`).
* C60 a clone of a used TraversabilityGrid writes to the array of the original (`C60_clone_shares_array`).
* C61 `isSet` is inverted (`C61_isSet_inverted`).
* C62 placeholders of the class table are loaded as defined classes (`C62_placeholder_defined`).
* C64 registration skips every second id (`C64_half_of_the_ids`).
* C43 `determineDrivePlane` ignores whether the start patch is an obstacle, so that the start cell counts as drivable.
* C65 with a negative standard deviation the climbing loop does not end (`C65_negative_deviation`).
* C44 the policy table has `maxValue` rows, so that the value `maxValue` reads outside of it (`C44_maxValue`). Also, with an
  empty band name the input is the default band but the output is a band named "" (not modelled).
* C45 the border check allows the column and row after the last one (`C45_out_of_bounds`).
* C67 growObstacles writes the probability of the source cell instead of the target (`C67_new_obstacle_improbable`).
* C68 flat terrain gets the class 2 + class_count, the documentation ends one below (`C68_flat_terrain`); without a slope layer
  cells keep an old class (`C68_stale`).
* C69 with less than five classes updateAll throws (`C69_few_classes`).
* C71 obstacle_clearance is not saved (`C71_clearance_lost`).
* C72 `SynchronizationEventQueue::flush` and `useEventQueue(false)` drop events, the callback is empty (`C72_flush_drops_events`).
* C74 with allowMultithreading(true) and a queue, context updates of a map fail an assertion: the event holds a clone without environment (`C74_async_assertion`).
* C76 an update of an unknown item is reported to the handlers of the receiver as an update of NULL (`C76_null_event`).
* C73 the YAML buffer of a binary event has 10000 bytes and the failure of the emitter is ignored (`C73_truncation`); streams are not cleaned up after an exception (`C73_stale_stream`); an exception at the receiver drops the rest of the batch (`C73_batch_lost`).
* C75 pullEvents(all) announces items behind pending layer links, which the receiver then ignores (`C75_layer_link_lost`).
* C77 `drx_by_dr` (Transform.cpp l.129) has the wrong sign in gamma: errors of the angle are enlarged instead of rotated with the point (`C77_angle_error_wrong`, `C77_quarter_turn_wrong`).
* C78 `inverse` (Transform.cpp l.272-287) uses I and R^T where -I and -R^T belong: covariances between rotation and translation have the wrong sign (`C78_inverse_wrong`).
* C79 `sign(0)` is -1 (Transform.cpp l.50-53): at a half turn composition with the identity changes the sign of covariances (`C79_half_turn_wrong`).
* C80 a class of KMeans may lose all its samples; `calcMeans` then divides 0 by 0 (`C80_class_lost`, `C80_equal_samples`).
* C81 `Gaussian::eval` multiplies by the square root of the determinant instead of dividing (`C81_not_density`); `GaussianMixture::eval` ignores the weights (`C81_weights_ignored`).
* C82 components that are removed leave the weights unnormalised (`C82_unnormalised`); the likelihood may fall (`C82_likelihood_falls`).
* C83 `sample` throws for such mixtures (`C83_throws`).
* C84 `getBestMap` ignores hypotheses with weight 0 (`C84_no_best_map`); `getMapForPose` returns the trajectory size of an earlier candidate (`C84_stale_size`).
* C85, C86 the lookup tables have no room for their upper borders (`C85_border`, `C86_border_undefined`), and the last cells of the box table may have no ticks (`C86_border_inside`).
* C87 CutPointcloud l.125 tests the variance array before it copies attributes (`C87_attributes_without_variance`, `C87_attributes_lost`).
* C88 MergePointcloud drops variances and attributes (`C88_variance_lost`), and appends normals and colours without regard to the number of points (`C88_normals_shifted`).
* C89 MLSSlope l.132 starts at row 1 and ends before the last one, so that comparisons with the rows at the border are missing for the right hand side neighbours (`C89_wall_missed`); l.76 uses `&&` where `||` belongs (`C89_size_unchecked`); the corrected step depends on the direction (`C89_corrected_asymmetric`). Not modelled: two constructors leave `window_size` and `required_measurements_per_patch` uninitialised (MLSSlope.hpp l.35-42).
* C90 `MLSMap::getPatch` asks the cached grid first, although newer grids take precedence (`C90_newer_ignored`), with the transform of the time when it was cached, and also after an assignment of another map (`C90_stale_cache`).
* C91 `selectActiveGrid` dereferences NULL without grids (`C91_select_empty`) and ignores its parameter `aligned` (`C91_aligned_ignored`).
* C92 GridAccess and MLSAccess use only one grid after the first call (`C92_other_grid_ignored`, l.46-49 of the source mentions it), MLSAccess does not convert the height to the root frame (`C92_mls_height`), tilted grids give points that are not on the surface (`C92_tilted`).
* C93 `MLSToGrid::updateAll` rejects outputs only if both width and height (or both scales) differ; otherwise it writes outside of the output (`C93_size_unchecked`, `C93_scale_unchecked`).
* C94 `GridFloatToMLS` transforms the points of the output with the transform from the grid to the output (`C94_wrong_direction`), and uses the corner of the cell (`C94_corner`).
* C95 the reverse case of MergeMLS adds the height of the output in the frame of the input to the patches, instead of subtracting it (`C95_reverse_height`).
* C97 `forEachInRectangles` l.140 decides by the corners of the inner rectangle in the fine grid how to split the outlines of both; if the corners of the inner one are in the same fine row and those of the outer one are not, cells of the outer rectangle are missed (`C97_rectangles_missed`, a rectangle of 4 x 2 cells with a border of 2 cells, turned by 1.1 degrees).
* C98 `StatisticHelper` sizes the lookup table by the longer side of the rectangle, which does not suffice for rectangles of few cells (`C98_small`, read outside of the array for a rectangle of one cell); the table has one scale, that of x (`C98_scale`).
* C99 `getWorstProbabilityInRectangle` ignores the result of forEachInRectangle and returns 1 for rectangles that are not inside of the grid (`C99_outside`); `getWorstTraversabilityClassInRectangle` throws for these.
* C100 `VoxelTraversal::init` multiplies the parameter of a whole cell by the distance from the lower border, not by the part of the cell that lies ahead (`C100_direction`, `C100_size`); for a direction parallel to an axis the parameter of the other axis is NaN, so that all comparisons fail and all steps are in y (`C100_axis`).
* C101 the same NaN lets `GridIllumination` look downwards for lights in the row of the cell (`C101_row`); the test for the cell of the light comes after the first step (`C101_light_cell`), and a light on a corner can be passed (`C101_corner`).
* C102 `CartesianMap::cloneTo` goes up from the frame of the map until it meets the root node: for a map without a frame (`C102_no_frame`) or a frame that is not below the root node (`C102_outside`) it dereferences NULL.
* C103 `ScanMeshing::updateAll` requires indices greater than 0, so that the first vertex is in no face (`C103_first_vertex`); the index lines have `points_per_line` entries, which are neither checked nor initialised (`C103_long_line`, `C103_uninitialised`, `C103_stale`); the assertion on the number of colours fails if remissions are missing in some lines (`C103_colours`).
* C104 the offset of the scanner is rotated about the x axis also if x is forward (`C104_x_forward`); the filter for edges uses `2*delta_psi` for the angle between neighbouring rays (`C104_filter`).
* C105 `calcVertexNormals` overwrites the normal of a vertex with that of each of its faces in turn (`C105_edge`).
* C106 `writeScan` does not save `x_forward` (`C106_forward`); ranges are read as `int`, so that one from 2^31 on is clamped or, if others follow, the loop goes on with uninitialised values without end (`C106_large_range`); `readScan` appends to the lines (`C106_append_partial`). Remissions are read as `float` (exact up to 2^24).
* C107 `updateElevationMap` multiplies the points with the transform of the root node, though they are already in the frame of the grid (`C107_root`).
* C108 `interpolateMap` leaves out the last row and column of the measured cells (`C108_last_example`), and does not check for infinite faces, whose third vertex has no initialised position (`C108_not_in_hull`; that CGAL leaves it uninitialised is an assumption that could not be checked here).
* C109 `ElevationGrid::getNormal` accesses cells outside of the grid for cells at its border (`C109_border`).
* C110 `SurfacePatch::distance` is zero for two patches that are not horizontal (`C110_vertical`); C111: therefore `get` returns any vertical patch for a vertical one (`C111_vertical`). The comparison is strict: without deviations nothing is found (`C111_exact`).
* C112 `MLSGrid::match` ignores the height of the transformed position, which `merge` adds (`C112_shift`), and counts cells although the ratio of patches is documented (`C112_cells`); sampling 0 is a division by zero (`C112_errors`).
* C113 `matchHeight` adds distances, not differences: the sign of the result is always positive (`C113_sign`); without common cells it is NaN (`C113_nothing`). The sizes of the grids are only compared by an assertion, which is a precondition of the model.
* C114 negative patches are taken for surfaces (`C114_negative`); `projectSplineOnSurface` samples with a quarter of getCellSizeX, which is the number of cells (`C114_step`).
* C115 `PlyFile::unserialize` appends to the object (`C115_append`); variances are not written (`C115_variance`); a color outside of 0..1 is converted to `unsigned char` out of range (`C115_colour_range`); a point is taken when its z is read, so that another order of the properties gives wrong points (`C115_order`); a face with four corners loses one, with a message on std::cerr only (`C115_quad`).
* C116 `MLSToPointCloud` steps from the bottom of a vertical patch and may miss its top (`C116_top`), uses the root frame whatever the frame of the cloud (`C116_frame`) and adds heights along z of the root node (`C116_tilted`). The model has no frame of the cloud, as the code does not use it.
* C116, C117 `Pointcloud::clear` reads VERTEX_ATTRIBUTES as `attr_flag`, ScanMeshing stores `int`: NULL is dereferenced (`C116_undefined`, `C117_undefined`). It keeps empty data of normals and colors, so that the refilled cloud is rejected by PlyFile (`C116_save`, `C117_save`), and the faces of a mesh (`C116_faces`).
* C117 negative distances are used (`C117_negative`); an image smaller than the grid is read out of range (`C117_image`); without a distance grid NULL is dereferenced (`C117_no_grid`, which holds by definition of the model).
* C118 `MLSProjection` uses the target itself as the temporary grid if it is empty. Negative patches then extend the set of cells that is iterated, and are handled like patches of the cloud (`C118_feedback`); with the uncertainty of the transform they are widened as well. The negative patch in the cell of the origin has deviation 0 (`C118_origin_deviation`; its weight is infinite in the code). Not modelled: the colors; projectPointcloud also creates empty data of variances in its input.
* C119 `readText` with its default format XYZR reads the first number of the next line as a remission if there is none (`C119_default_format`, `C119_default_single`); at the end of the text, after an empty line and after errors variables without a value are used (`C119_empty`, `C119_blank_line`, `C119_comma`). In practice the stream then stays in its error state and the loop appends points for ever. `Eigen::Vector3d::Identity()` is (1, 0, 0) (`C119_red`). Assumption: `Numbers`, how numbers are printed and read.
* C120 `copyFrom` copies points only (`C120_data`) and clears the source if it is the target (`C120_self`); copying a sample always creates data of colors (`C120_sample_save`). Transforms within 2e-12 of the identity are not applied (bounded in `C120_copy_partial`).
* C121 `getTransform` builds the lower block of the matrix of Horn's method from `A - I*trace` with the antisymmetric A = S - S^T (icp.cpp l.76-81) instead of S + S^T - I*trace. The result is right for shifts (`C121_shift`) and for level points that are not turned by half a turn (`C121_level_partial`, `C121_plane`); for points of differing heights that are turned about the z axis it is always wrong (`C121_wrong_in_space`, `C121_not_minimal`, `C121_half_turn`). The mean square error is that of the distances given to add. Assumption: `EigOf`, a complete decomposition of the symmetric matrix by the solver of Eigen.
* C122 `add` takes the number of pairs as index of the new points (icp.cpp l.15); after a trim this is the index of an older point (`C122_add_after_trim`).
* C123 `size()` rounds n d down, a pass over the points rounds it up (`C123_size`).
* C124 The error and the distances of a result are those before the last step (`C124_stale_error`). `FrameNode::setTransform(Transform)` drops the uncertainty of the frame (FrameNode.cpp l.95-102), so the alignment does so as well; this is not modelled. The transform is modelled in exact real arithmetic, hence a matching measurement is not moved at all (`C124_fixed`).
* C125 SHIFT3 is a function where Numerical Recipes has a macro: the new argument is calculated from the variables before they are shifted (icp.hpp l.308-316). The minimum then may leave the interval (`C125_missed`, `C125_not_accurate`); `goodSearch_accurate` shows that the claim holds for the search with the arguments calculated after the shift. With eps <= 0 the loop does not end unless its interval collapses, and with the lower end 0 it does not end for increasing functions (`C125_endless_deviation`; with `double` it ends when the points underflow to 0, after thousands of calls).
* C126 `ransacSingleModel` returns true without a model if hardIterLimit is 0 (`C126_no_round`); it returns false after hardIterLimit failing fits in a row even if the last fit succeeded, and p_bestModel may be set although the result is false. Because of C121 exactly rotated samples are rejected (`C126_rejected`). FitTransformUncertain is not modelled.
* C127 Inner bins are divided by conf.area, the last one by its width (`C127_not_density`); no distances: front() of an empty vector (`C127_empty`); calculateNotNormalizedHistogram ignores the distances (`C127_not_normalized`); the value of the support vector machine needs seven bins (`C127_svm`). number_bins is a double in the code and a natural number in the model.
* C128 calcVariance uses points.at(0) for every yaw (stability.cpp l.47, `C128_yaw`); defOutlinerRegion passes cov_position twice (l.100, `C128_orientation`) and multiplies the factor by itself instead of its transpose (`C128_limit_correlated`); removeOutliers compares norms of positions instead of distances from the mean (`C128_keeps_outlier`). Euler angles of Eigen are modelled by an arbitrary function `wrap`.
* C129 calcSigmaPoints replaces a column that is out of bounds by one along a coordinate axis (`C129_direction`); last_sigma_sample is not initialised (`C129_no_region`).
* C130 addScanLineToPointCloud takes the y axis of the last scan and the translation of scan i for the head direction (icpLocalization.cpp l.69, `C130_same_scan`); hasNewPointCloud compares with `>` although the configuration documents minimal numbers (`C130_late`). Rounding of acos arguments above 1 (NaN) is not modelled.
* C131 lines_per_point_cloud 0 leaves the window empty: back() of an empty deque (`C131_no_lines`).
* C132 Without pairs ICPResult is not initialised (`C132_no_pairs`). With one or two pairs the pose is unchanged and the error infinite. The raw pointers of ICPInputData dangle after the detach of l.247-248; lifetimes are not modelled here.
* C133 Box2D is modelled by its specification: b2PolygonShape::Set takes the convex hull, so concave polygons are filled; more than 8 or fewer than 3 points fail an assertion and are not modelled. doQuery keeps the result while the polygon of the query is not moved (PolygonMap.cpp l.128): moves of and additions to the set are not seen (`C133_stale_move`, `C133_stale_add`), nor a new area (`C133_stale_area`); the mark is shared by all sets (`C133_stale_set`); move does not call MoveProxy (`C133_old_place`).
* C134 isInside tests vertices that are not placed against the pose of the wrong polygon (l.164, `C134_moved`), and only the polygon of the first collision (`C134_touching`).
* C135 GDAL is modelled by its specification: a dataset is a size, an optional geotransform, bands of a type and one value for no data, which GeoTIFF stores once per file (`C135_nodata_shared`). The rounding of values for no data through double, the projection, and failures of SetGeoTransform and RasterIO, which the code ignores, are not modelled. A band without a value for no data does not clear the one of the target (`C135_nodata_stale`). On an exception the dataset is not closed and the grid keeps the size of the file.
* C136 The test for rotated files (Grid.hpp l.625) multiplies the shear of columns by the number of rows and the shear of rows by nothing, so that a file is accepted although its last row is shifted by any number of cells (`C136_sheared`). GetRasterBand of a number below 1 is NULL and used (`C136_band`).
* C137 copyBandFrom does not clear the value for no data (`C137_nodata`), and assigns arrays of other sizes, which boost::multi_array asserts (`C137_size`). getMinMaxValues starts with numeric_limits<T>::min(), which is positive for floating point types (`C137_negative`). NaN is not modelled.
* C138 isAlignedWith moves the point (number of cells in x, number of cells in y), taken as metres, and compares the result rounded to integers: scales are not compared (`C138_scale`), small cells are accepted although they are moved by many cells (`C138_small`), large ones are rejected (`C138_large`), a half turn about the point is accepted (`C138_turned`), and offsets that the frames make up for are rejected (`C138_offset`). A misalignment of exactly half a metre is accepted or not, depending on the parity of the number of cells.
* C139 isCellAlignedWith compares the difference of the first cells along the axes of the root frame, so that grids in one turned frame are rejected (`C139_turned`) and grids turned against each other are accepted (`C139_differently_turned`); the conversion to int truncates, so that a shift just below a whole number of cells is rejected (`C139_tolerance`), and is undefined for large distances (`C139_far`). A scale of 0 is not treated.
* C140 Only isAlignedWith is asked, so grids of different scale are accepted (`C140_place`). After an unknown class the cells before it are changed. A grid without bands: front() of an empty vector, not modelled (the names of the bands are given). itemModified is not called.
* C141 In a single file the bands share one value for no data (`C141_nodata_image`); binary streams have none (`C141_nodata_stream`); an image without bands, or bands without cells, make GDAL fail and with it the whole scene (`C141_empty`). Not modelled: names of bands with a slash, the old format without map_count, the position in a stream that is read twice. The values of the properties are exact here (see C25, C71).
* C142 The id with slashes replaced by underscores, an underscore and the name of the band make up the file name, so that band b_c of /a and band c of /a_b share a file, and the first one is loaded with the cells of the second (`C142_clash`).
* C143 copyFromFrame writes all bytes of the frame whatever the size of the grid (`C143_larger`, `C143_smaller`, `C143_shape`); copyFromDistanceImage reads with the width of the grid (`C143_distance_small`, `C143_distance_shape`) and does not call itemModified (the flag is false in `C143_distance_partial`). The constructor of DistanceGrid from an image copies no values (`C143_new_partial`).
* C144 copyGridToGrid uses indices only (`C144_place`); the order of the conversion and the product with the scale is abstracted to one function.
* C145 A link is ignored when one of its ends is not attached yet, and is not added later (`C145_link_lost`). For a root that no visualizer handles `environmentToNode[root]` inserts a null pointer, which the next redraw dereferences (`C145_root_not_handled`); a root that is handled but not known yet makes setRootNode lock its mutex twice (`C145_root_deadlock`). Not modelled: threads other than a node that is locked during a redraw; visualizers that throw. A handler that subscribes late inherits C17.
* C146 `setEnable` without a following `update` hides but does not show again (`C146_enable_alone`); the listener always calls both.
* C147 The documentation of getNodeForItem promises the node that visualizes the item; the back group is returned, which is never displayed (`C147_never_displayed`).
* C148: TreeViewListener::childRemoved (l.86-97) deletes the entry of a frame and thereby all entries below it, but nodeToWidget and widgetToNode keep those; a frame moved with its children (Environment::addChild removes the old link first) loses its children in the tree, and taking one of them away later deletes a deleted entry (`C148_moved`, `C148_moved_crash`). childAdded (l.30-36) puts an unknown parent at the top of the tree, from where addChild does not take it away (`C148_top_level`).
* C149: dot_id (GraphViz.cpp l.9-14) maps `/a/b` and `/a_b` to the same node (`C149_same_node`); ids with dashes, labels with quotes and items of no known class give a text that is no graph, ids with blanks make up nodes (`C149_no_graph`).
* C150: env_create_grid.cpp l.99 asks for 11 words also where no offsets are given (`C150_frame_rejected`); l.92 compares argv[argc] where only offsets are given (`C150_offsets_crash`); l.126 uses the frame of a map that has none (`C150_map_crash`). Words behind the frame id that do not start with -bands are ignored.
* C151: env_add_grid.cpp l.56 compares with next_idx + 2 although next_idx already stands behind the option, and l.29 allows too few words, so that -frame and -map never take effect (`C151_options_rejected`, `C151_no_option`); an option without its value and a sixth word are ignored (`C151_ignored`).
* C153: the regular expression of env_slam6d.cpp l.133 takes three digits, `scan%03d` writes four from 1000 on (`C153_thousand`); create_symlink throws on existing names (`C153_again`). The poses are those relative to the parent frames, which agree with the world only below the root; the model follows the code.
* C154 SimplifyPointcloud appends to its output (`C154_append`, `C154_stale`), ignores the number of neighbours (`C154_neighbours`) and leaves a partial output when normals are missing (`C154_short`).
* C155 A feature cloud is saved without content and cannot be loaded (`C155_features`); ids that differ in `/` and `_` share a file (`C155_collision`); the text fallback of Pointcloud is never reached (`C155_text`).
* C156 Most settings of operators are not saved (`C156_lost`); ScanMeshing stores the length of edges under the key of the remission scale (`C156_remission`); SurfaceReconstruction is not registered (`C156_not_registered`); inputs of SimpleTraversability with an unnamed band are lost (`C156_unnamed_band`).
* C157 (MLSVisualization.cpp l.157): the loop over the corners runs four times, so the edge from the last corner back to the first is never cut. A patch that leaves its range on this edge is drawn without the vertices there; one that is cut on this and on the opposite edge is drawn as a line (`C157_gap`, and the example beside it).
* C158 (MLSVisualization.cpp l.287-291, l.441): with the colours by height each vertex sets the colour again, so the colours for vertical and negative patches have no effect (`C158_cycle`). With slopes negative patches are not drawn, though showNegative is set (`C158_negative`). The side faces and the bottom of a box are wound the other way round than their normals; nothing in the code depends on it and it is not part of the property.
* C160 (Core.hpp l.131): for maps of dimension 2 the third coordinate of the corners is never set, but multiplied with the transform. If the transform tilts the map the box is arbitrary (`C160_flat_deviation`); otherwise it is right, unless the memory is a NaN (not modelled).
* C160, C161 (Core.hpp l.128-138, env_mls.cpp l.85-97): the corners of the empty box are the greatest and the smallest number, so a map without content gets a box that is not empty, in its own frame everything (`C160_empty_deviation`); one empty cloud in the environment makes env_mls ask for a grid of this size (`C161_empty_deviation`).
* C161 (env_mls.cpp l.113, env_dem.cpp l.55): the number of cells is truncated, so the points in the last partial cell are not projected; the last point along x never is, not even if the size is a multiple of the resolution (`C161_last_deviation`). A last word of the area that is not a number is 0 (`C161_area_deviation`).
* C162 (env_simplify.cpp l.24, env_traversability.cpp l.13, l.43-51, env_mls_trajectory.cpp l.17): the conditions in front of the optional arguments are off by one, so argv[argc] is read (`C162_simplify_deviation`, `C162_trav_deviation`, `C162_trajectory`).
* C163 (env_mls_trajectory.cpp l.30-33): the loop asks for the end of the file before it reads, and never for a failure (`C163_newline_deviation`, `C163_missing_deviation`, `C163_word_deviation`).
* C164 (env_grid_add_noise.cpp l.98-125): without options the window is centred at the origin of the frame, not of the grid (`C164_default_deviation`). `sigma` has no default but is used in any case (`C164_sigma_deviation`); `--fractal` is asked for but not declared.
* C166 (env_traversability.cpp l.35-37, env_mls_slopes.cpp l.43-45): the offset of the input is not used for the result (`C166_offset_deviation`).
* C167 (EnvireVisualization.cpp l.35-54): the visualizer for point clouds is registered after that for meshes and takes all meshes (`C167_mesh_deviation`); all grids of bytes go to the visualizer for traversability grids, whose assertion fails for others (`C167_byte_deviation`).
* C168 (GridVisualizationBase.cpp, TraversabilityGridVisualization.cpp): grids with more than 1600 columns abort (`C168_large_deviation`); the gradient for classes without an entry in the table is negative for all of them, so its conversion is undefined (`C168_legacy_deviation`); the first class that a user registers has the number of the obstacle (`C168_first_class_deviation`).
* C169 (GridVisualization.cpp l.46-120): the transparency of a cell is taken from the next one, and for the last one from behind the grid (`C169_next_cell_deviation`, `C169_hidden_deviation`); the division by the largest value and the conversion to bytes are undefined for grids of zeros and for negative values (`C169_zero_deviation`, `C169_negative_deviation`).
* C170 (ElevationGridVisualization.cpp): the height field starts at the corner of the first cell instead of its centre (`C170_position_deviation`); the largest height starts at the smallest positive number (`C170_negative_deviation`).
* C171 (raster_map_view.rb l.24-59): `update` always reads band 1 (`C171_band_deviation`), divides by the maximum (`C171_zero_deviation`), packs negative values modulo 256 (`C171_negative_deviation`); `viewToMap` mirrors the coordinate and not the row (`C171_whole_deviation`).
* C172 (gdal.rb l.18-43): the types of GDAL are mapped to three types of Ruby and back to three of GDAL (`C172_types_deviation`, `C172_copy_deviation`).
* C173 (LaserScanVisualization.cpp l.20-92, l.121-124): `x_forward` is not used (`C173_forward_deviation`); `updateNode` does nothing (`C173_update_deviation`).
* C174 (PointcloudVisualization.cpp l.46-62, l.64-195): the number of normals is not checked (`C174_short_deviation`); colours are taken from the lowest bits of the address (`C174_cycle_deviation`).
* C175 (ItemManipulator.cpp l.30-61, EnvireEventListener.cpp l.53-134, PointcloudVisualization.cpp l.64-110): see `C175_colour_deviation`, `C175_normals_deviation`, `C175_unseen_deviation`, `C175_stuck_deviation`, `C175_cross_deviation`, `C175_removed_deviation`.
* C176 (ItemManipulator.cpp l.145-155): not only the root but every frame without a parent stays, although the comment only names the root; the statement of the property takes this as intended.
* C177 (FrameNodeVisualization.cpp l.52-80): the group of the uncertainty is never removed (`C177_stale_deviation`).
* C178 (EnvireVisualization.cpp l.158-174, EnvireEventListener.cpp l.127-152): the node that is removed is not the one that was added, so former environments stay (`C178_both_deviation`); see also `C178_again_deviation`, `C178_freed_deviation`.
* C179 (FrameNodeManipulator.cpp l.8-81): the callback and the draggers hold each other, the event handler is never removed (`C179_leak_deviation`); setTransform drops the uncertainty (`C179_uncertainty_deviation`).
* C180 (MapSegment.cpp l.18-48, MLSMap.cpp l.7-24): only the translation of a part is used (`C180_rotated_deviation`); flat parts alone give an empty box (`C180_flat_deviation`); dynamic_cast is not checked (`C180_child_deviation`).
* C181 (Transform.cpp l.289-301): operator= always sets `uncertain` (`C181_certain_deviation`), the blocks beside the diagonal are set to zero (`C181_correlation_deviation`).
* C182 (MLSMap.cpp l.173-202): the frame of the map is not given to the copy (`C182_frame_deviation`); `active` is not checked (`C182_active_deviation`); operator= does not check the environment of the other map (`C182_foreign_deviation`).
* C183 (env_icp.cpp l.37-56, l.70-73): the counting of pairs is commented out, the matrix stays zero (`C183_zero_deviation`); the transform of the first frame is not set when it is moved (`C183_first_deviation`); see also `C183_shared_deviation`, `C183_root_deviation`.
* C184 (ApplicationWindow.cpp l.51-55, l.150-156): the shared pointer frees the environment before the visualization lets it go (`C184_load_deviation`); the result of the dialog is not checked (`C184_cancel_deviation`); one try block for all numbers (ICPHandler.cpp l.80-88, `C184_form_deviation`).
* C185 (EventSource.cpp l.10-29, EventHandler.cpp l.109-117): the loop over the vector allows no changes (`C185_self_deviation`, `C185_add_deviation`); the queue is cleared after the loop only and the mutex is held while messages are processed (`C185_throw_deviation`, `C185_block_deviation`).
* C186 (Features.hpp l.29-51): store uses the default precision, so 1234567 becomes 1234570 (`C186_digits_deviation`); `nan` and `inf` are written but cannot be read, all key points after them have coordinates from variables without a value (`C186_nan_deviation`, `C186_end_deviation`).
* C187 (GridAccess.cpp l.150-188): `abs` is called without `std::`, it is the one for `int` unless <cmath> brings the others into scope (`C187_integer_deviation`); find_within_range of libkdtree++ uses a box (`C187_square_deviation`); the tree is filled in the constructor (`C187_later`).
* C188 (LaserScan.cpp l.44-134): no deletion before the exception for a missing file (`C188_leak_deviation`); Quaterniond from the file is used without normalisation (`C188_stretch_deviation`); addScanLine warns only (`C188_shape_deviation`).
* C189 (SurfaceReconstruction.cpp l.70-221): no return at the end (`C189_return_deviation`); the output is not cleared and indices start at 0 (`C189_again_deviation`); normals are not checked (`C189_normals_deviation`); see also `C189_facet_deviation`.
* C190 (icp.hpp l.173-264): std::min(1.0, NaN) is 1.0 (`C190_nan_deviation`), normals are taken as unit vectors (`C190_length_deviation`), getVertexData makes empty vectors (`C190_missing_deviation`), the filter is asked after the search (`C190_lost_deviation`).
* C191 (MLSPatch.hpp l.94-105): updatePlane takes the height of the plane at the corner of the cell as mean (`C191_corner_deviation`); its factor n/(n²-3 Σw²) may be negative (`C191_weights_deviation`); MLSGrid::merge changes the mean, which the next updatePlane computes anew (`C191_offset_deviation`); MLSGrid::update makes a new patch of mean and stdev (`C191_update_deviation`).
* C192 (MLSSlope.cpp l.160-200): the count of five does not exclude a line (`C192_line_deviation`), the number of measurements of neighbours is tested in updateGradient only (`C192_required_deviation`); TraversabilityGrassfire.cpp l.149 divides by maxSlope, which is 0 by default (`C192_flat_deviation`).
* C193 (TreeViewListener.cpp l.86-97, l.47-53): a frame that is moved gets a new line with a checked box, its node keeps the mask (`C193_moved_deviation`); hideItem looks at frames only, though the action is offered for maps (`C193_maps_deviation`).
* C194 (env_mls_to_grid.cpp l.33-38, env_grid_illumination.cpp l.39-44): getItem gives a null pointer for wrong ids, which Environment::addInput and addOutput use (`C194_null_deviation`); the tools do not look for an operator with the same output (`C194_again_deviation`).
* C195 (ApplicationWindow.cpp l.126-132): the frame is added before the file is opened (`C195_frame_deviation`); TreeViewListener::selected is a plain pointer (`C195_gone_deviation`); l.176 adds the coordinates of the scene to the vertices, which are relative to the frame, and extends no other data (`C195_pick_deviation`, `C195_color_deviation`).
* C196 (env_create_grid.cpp l.73-74, l.122-155): `lexical_cast<int>` gives an int that is passed as size_t (`C196_negative_deviation`); the result of GridBase::create is used without a test (`C196_class_deviation`).
* C197 (MLSVisualization.cpp l.468-469): the lines for the uncertainty have a fixed colour, `uncertainty_color` is stored but not used (`C197_uncertainty_deviation`).
* C199 (FrameNodeManipulator.cpp l.124, l.79): if the size without scale is exactly that asked for the old scale stays (`C199_stale_deviation`); the scale of a frame multiplies the inner handle at each event (`C199_grow_deviation`).
* C200 (env_mls_slopes.cpp l.43, MLSSlope.cpp l.73): the tool makes a Grid<double> and the operator asks for a Grid<float>, so that getOutput throws for all environments and the tool never writes (`C200_slopes_deviation`). env_mls_slopes.cpp l.28 and env_mls_to_pointcloud.cpp l.29 test argc == 3, so that further words turn off the id (`C200_words_deviation`).
* C201 (C201_missing_deviation): MLSSlope( threshold, stddev ) and the constructor with three arguments do not initialise window_size (the first nor the required measurements), MLSSlope.hpp l.34-41; TraversabilityGrowClasses has no constructor, so radius is garbage until setRadius; TraversabilityGrassfire likewise with its start.
* C202: TraversabilityGrassfire.cpp l.271 computes |z - mean + stdev| where the surface is mean + stdev (C202_surface_deviation); l.226 takes the start to the frame of the map for the cell only, l.268 uses startPos.z() of the root (C202_height_deviation); l.468 returns Operator::updateAll(), which is false (C202_result_deviation); l.233 resizes the band of the classes only (C202_size_deviation).
* C203 (PolygonMap.hpp l.17-66, PolygonMap.cpp l.58-61, l.99-118): polygons, sets and maps have no copy constructor or assignment, although `clone` and `set` of every item use them; copies share the data, which is deleted once per copy. Sets keep the addresses of polygons that are destroyed.
* C204 (GridBase.cpp l.505-565; Grid.hpp l.505-691; Serialization.cpp l.321-345, l.347-648): readGridFromGdal has no GDALClose at all; exceptions in readGridData, writeGridData (no path to the root frame), writeToFile and readFromFile skip the close; a scene with more binary streams than files may be open cannot be saved. readFromFile does not look at the result of fopen.
* C205 (Environment.cpp l.729-742): chains of operators are not handled; the order is that of the ids as texts, so that a chain made in order is out of date once the ids reach 10. The result of updateAll is ignored.
* C206 (Layer.cpp l.31-43, l.76-124; Layer.hpp l.43-90): updateFromOperator never resets the flag that its documentation guarantees to be reset; nothing sets the flag when sources change; immutable layers can be changed and be made mutable by an assignment.
* C207 (EventHandler.cpp l.24-28): setFilter(NULL) sets the handler through a null pointer, so a filter cannot be taken away; a filter that is set on two handlers hands messages to the one set last, although the other one received them; a replaced filter keeps its handler.
* C208 (Environment.hpp l.181-236, Environment.cpp l.608-640, Layer.cpp l.114-118): a link that was added twice makes getInput<T> throw although one layer of the class is linked; nothing prevents two operators from having the same output, contrary to the note on getGenerator; Layer::getGenerator is documented to raise runtime_error and returns NULL.
* C209 (SerializationFactory.cpp l.30): rfind returns npos for a name without "::", npos + 2 is 1, so the first letter is dropped and a wrong name may give another class; SurfaceReconstruction and ClassGridProjection are not registered, and the latter is saved as envire::EnvironmentItem.
* C210 (TraversabilityGrid.cpp l.167-171, l.201-218): getTraversability does not check that the number of the cell has a class, so all cells of a grid without classes are undefined; the pointers to the arrays are kept after removeData.
