{"id": "C01", "title": "Attached items are indexed by their own unique id", "statement": "After any sequence of API calls on an Environment, an item is stored under exactly one id, that id equals the item's getUniqueId(), getItem(id) returns precisely the item attached with that id, no two attached items share an id, every stored id starts with '/' and does not end with '/', and an item reports being attached to the environment iff the environment stores it.", "quantifier": "for every finite history of attach/detach/link/unlink/prefix/id-change calls on any set of items with any ids, where detachItem is called only for items attached to the environment (its documented use)", "why_tests_cant": "histories are unbounded and the id rewriting in attachItem depends on the whole past (prefix, last numeric id, ids in use); tests sample a few histories", "anchors": ["src/core/Environment.cpp: Environment::attachItem, detachItem, setEnvironmentPrefix, EnvironmentItem::setUniqueId"]}
{"id": "C02", "title": "Automatic ids never collide", "statement": "Attaching an unattached item whose id is empty or ends in '/' always terminates, succeeds (never throws), gives the item an id formed by the requested prefix followed by a decimal number, which no attached item had before, and changes no other item.", "quantifier": "for every environment state (any set of ids in use, any last numeric id, any prefix)", "why_tests_cant": "the search loop runs over arbitrarily many taken ids; termination and freshness cannot be established by sampling", "anchors": ["src/core/Environment.cpp: Environment::attachItem l.263-307"]}
{"id": "C03", "title": "Attaching under a taken id fails without side effects", "statement": "Attaching an item whose final id is already used by an attached item throws, emits no event and leaves every observable of the environment (items, relations, root) unchanged; conversely attachItem throws only in that case.", "quantifier": "for every state and item not attached to another environment", "why_tests_cant": "needs all states; the interesting ones (id taken by an automatic id, re-attach of the same item) are data dependent", "anchors": ["src/core/Environment.cpp: Environment::attachItem l.296-300"]}
{"id": "C04", "title": "Frame tree is a consistent forest relation", "statement": "Every frame node has at most one parent, c is listed in getChildren(p) exactly once iff getParent(c) = p, addChild(p,c) makes p the only parent of c (removing it from the old parent's children) and leaves the parents of all other nodes alone, and removeChild(p,c) removes the link iff it exists.", "quantifier": "for every history of calls and every pair of nodes", "why_tests_cant": "the forward and the reverse query are computed from one map with two different traversals; agreement must hold in all reachable states", "anchors": ["src/core/Environment.cpp: addChild(FrameNode), removeChild(FrameNode), getParent, getChildren"]}
{"id": "C05", "title": "Detaching leaves no dangling relation", "statement": "After detachItem(x) returns, x is in no relation: it has no parent and no children (frame or layer), no map is attached to it, it is attached to no frame, no operator has it as input or output and as an operator it has no inputs or outputs; x is not attached.", "quantifier": "for every state reachable by API calls and every attached item x of any kind", "why_tests_cant": "x may take part in arbitrarily many links in five relations at once", "anchors": ["src/core/Environment.cpp: detachItem l.319-397, findMapItem l.309-317"]}
{"id": "C06", "title": "Detaching affects only the detached item", "statement": "detachItem(x) (not deep) keeps every other item attached under the same id and keeps every relation between two items other than x unchanged, in the same order.", "quantifier": "for every reachable state and item x", "why_tests_cant": "a frame condition over the entire state; a test checks selected links only", "anchors": ["src/core/Environment.cpp: detachItem l.319-397"]}
{"id": "C07", "title": "Deep detach removes exactly the subtree", "statement": "On an acyclic frame tree detachItem(node, deep=true) detaches exactly the node, all its frame descendants and all maps attached to any of those frames, and nothing else; all relations among the remaining items are unchanged.", "quantifier": "for every finite acyclic frame forest of any depth and branching, any assignment of maps to frames", "why_tests_cant": "recursion over unbounded trees with the relation being modified while recursing", "anchors": ["src/core/Environment.cpp: detachItem deep l.324-346"]}
{"id": "C08", "title": "The frame tree never becomes cyclic", "statement": "No sequence of API calls makes a frame node its own ancestor; getRoot() and relativeTransform() therefore always terminate.", "quantifier": "for every history of addChild/removeChild/attach/detach calls", "why_tests_cant": "a cycle makes the library hang; tests cannot show absence over all histories", "anchors": ["src/core/Environment.cpp: addChild(FrameNode) l.404-424, relativeFrameNodeRoot l.750-762", "src/core/FrameNode.cpp: getRoot"]}
{"id": "C09", "title": "relativeTransform is a consistent change of frame", "statement": "For frames of one tree: relativeTransform(a,a) is the identity, relativeTransform(b,a) is the inverse of relativeTransform(a,b), relativeTransform(b,c)*relativeTransform(a,b) = relativeTransform(a,c), and for a child c of p relativeTransform(c,p) is c's own transform; for frames of different trees it throws and only then.", "quantifier": "for every acyclic frame forest of any depth and all invertible frame transforms", "why_tests_cant": "holds for all tree shapes and all transforms; tests check fixed chains with fixed numbers", "anchors": ["src/core/Environment.cpp: relativeFrameNodeRoot l.750-762, relativeTransform l.764-797"]}
{"id": "C10", "title": "A map has at most one frame, consistently reported", "statement": "Every cartesian map is attached to at most one frame node, m is listed exactly once in getMaps(f) iff getFrameNode(m) = f, setFrameNode(m,f) makes f the only frame of m without touching other maps, detachFrameNode(m,f) removes the link iff it exists; attachItem(map,node) gives the map a frame (node, or the root) if it had none.", "quantifier": "for every history and every map/frame pair", "why_tests_cant": "two query directions over a mutable relation, all reachable states", "anchors": ["src/core/Environment.cpp: setFrameNode l.550-578, detachFrameNode l.580-588, getFrameNode, getMaps, attachItem(CartesianMap*,FrameNode*) l.251-261"]}
{"id": "C11", "title": "Adding an existing layer child is a no-op", "statement": "addChild(parent, child) for layers is idempotent: the child is listed once in getChildren(parent) no matter how often the link is added, and one removeChild makes it disappear.", "quantifier": "for every history of layer addChild/removeChild calls with several parents per child", "why_tests_cant": "the duplicate check depends on multimap order among several parents of one child", "anchors": ["src/core/Environment.cpp: addChild(Layer) l.426-448, removeChild(Layer) l.460-478, getParents, getChildren(Layer)"]}
{"id": "C12", "title": "Operator arity limits are never exceeded", "statement": "If an operator declares an input (output) arity k > 0 and its links are only made through Operator::addInput/setInput (addOutput/setOutput), it never has more than k inputs (outputs); an attempt to exceed the limit throws and changes nothing; arity 0 means unlimited.", "quantifier": "for every history of operator link calls on any number of operators and layers, interleaved with detaches", "why_tests_cant": "all histories; interaction with duplicates and detached layers", "anchors": ["src/core/Operator.cpp: addInput, setInput, addOutput, setOutput", "src/core/Environment.cpp: addInput l.609-625, addOutput l.627-643"]}
{"id": "C13", "title": "Operator inputs and outputs behave as sets of links", "statement": "addInput(op,l) makes l one of getInputs(op) and changes the inputs of no other operator; removeInput(op,l) makes l no longer an input; setInput(op,l) makes [l] the exact list of inputs; the same for outputs; getLayersGeneratedFrom(l) lists exactly the outputs of operators having l as input; getGenerator(l) is an operator with l as output, or NULL iff there is none.", "quantifier": "for every reachable state, operator and layer", "why_tests_cant": "queries traverse global multimaps, correctness depends on every other link in the environment", "anchors": ["src/core/Environment.cpp: addInput..getGenerator l.609-727", "src/core/Operator.cpp"]}
{"id": "C14", "title": "Adding an existing operator input twice keeps one link", "statement": "addInput(op,l)/addOutput(op,l) for an existing link does nothing and reports false ('don't do anything if relationship already present').", "quantifier": "for every history with any number of inputs per operator", "why_tests_cant": "depends on the position of the link among all links of the operator", "anchors": ["src/core/Environment.cpp: addInput l.609-625, addOutput l.627-643"]}
{"id": "C15", "title": "detachFromOperator makes a layer non-generated", "statement": "After Layer::detachFromOperator() returns, isGenerated() is false and the layer is no output of any operator.", "quantifier": "for every environment state and every generated layer", "why_tests_cant": "documented guarantee over all graphs of operators and layers", "anchors": ["src/core/Layer.cpp: detachFromOperator l.101-107, isGenerated", "src/core/Layer.hpp"]}
{"id": "C16", "title": "Event stream is a complete description of structural changes", "statement": "A handler that was registered on the fresh environment can reconstruct from the received ITEM, FRAMENODE_TREE, LAYER_TREE and FRAMENODE events alone exactly the set of attached items, the frame tree, the multiset of layer links and the map-to-frame relation, at every moment.", "quantifier": "for every history of API calls, at every point of the history", "why_tests_cant": "every code path that changes a relation must emit exactly the right event; only an induction over histories covers all paths", "anchors": ["src/core/Environment.cpp: all handle(Event(...)) calls", "src/core/EventTypes.hpp"]}
{"id": "C17", "title": "A late subscriber gets the same picture", "statement": "addEventHandler on an environment in any state sends events from which the handler reconstructs the attached items, the frame tree, the layer tree and the map-to-frame relation as they are at that moment.", "quantifier": "for every reachable state at registration time", "why_tests_cant": "the snapshot code traverses the frame tree recursively from the root; coverage depends on the shape of the forest", "anchors": ["src/core/Environment.cpp: addEventHandler l.177-199, publishChilds l.160-169"]}
{"id": "C18", "title": "Unsubscribing retracts everything that was announced", "statement": "The events sent by removeEventHandler retract exactly the state the handler has reconstructed: afterwards its picture is empty (no items, no frame links, no map links).", "quantifier": "for every reachable state at unsubscription time", "why_tests_cant": "recursion over arbitrary trees", "anchors": ["src/core/Environment.cpp: removeEventHandler l.225-240, detachChilds l.201-223"]}
{"id": "C19", "title": "Every handler receives every event once, in order", "statement": "Between its registration and removal a handler receives each emitted event that passes its filter exactly once and in emission order, regardless of other handlers being registered or removed; after removal it receives nothing.", "quantifier": "for every interleaving of registrations, removals and events with any number of handlers", "why_tests_cant": "unbounded interleavings", "anchors": ["src/core/EventSource.cpp", "src/core/EventHandler.cpp: receive l.14-22"]}
{"id": "C20", "title": "Event queue compression preserves the net effect", "statement": "Flushing an EventQueue yields a sequence of events which, applied to the state at the previous flush, produces the same set of items and the same relations as applying all original events in order; never longer than the original sequence.", "quantifier": "for every sequence of events an environment can emit between two flushes", "why_tests_cant": "merge rules act pairwise on arbitrary long queues; the claim is about all sequences", "anchors": ["src/core/EventHandler.cpp: EventQueue::handle l.75-107, flush l.109-117", "src/core/Event.cpp: Event::merge l.60-78"]}
{"id": "C21", "title": "Event queue never loses an item's last content", "statement": "After flushing an EventQueue into a receiver, the receiver holds for each attached item the content the item had when it was last attached or modified.", "quantifier": "for every sequence of attach/modify/detach between two flushes, any contents", "why_tests_cant": "depends on how cancelling pairs of events interact with content changes", "anchors": ["src/core/EventHandler.cpp: EventQueue::handle", "src/core/Event.cpp: Event::merge"]}
{"id": "C22", "title": "A replica fed with all events converges to the source", "statement": "Applying (Event::apply) every event emitted by a source environment, in order and in any batching, to a replica gives a replica with the same item ids, the same frame tree, map-frame relation and layer links as the source.", "quantifier": "for every history of the source and every batching", "why_tests_cant": "product of two state machines over unbounded histories", "anchors": ["src/core/Event.cpp: ApplyEventHelper l.103-249, Event::apply l.251", "src/core/Environment.cpp: applyEvents, pullEvents"]}
{"id": "C23", "title": "Saving and loading an environment preserves its structure", "statement": "readFromFile(writeToFile(env)) yields an environment with the same ids, classes and the same five relations between ids, in the same per-item order, and the root node is the item '/0'.", "quantifier": "for every environment whose links join attached items (any number of items and links)", "why_tests_cant": "round trip over arbitrary relation graphs", "anchors": ["src/core/Serialization.cpp: FileSerialization::writeToFile l.347-479, readFromFile l.494-648"]}
{"id": "C24", "title": "Ids assigned after loading are fresh", "statement": "After loading an environment, attaching further items with automatic ids never collides with a loaded id and never throws, and the numeric counter is above every numeric id suffix that was loaded.", "quantifier": "for every saved environment", "why_tests_cant": "all possible sets of loaded ids", "anchors": ["src/core/Serialization.cpp: readFromFile l.494-648", "src/core/Environment.cpp: attachItem"]}
{"id": "C25", "title": "Transform and covariance serialization is a lossless inverse", "statement": "Reading a written 4x4 transform or 6x6 covariance returns the same matrix (row major in both directions), and a frame node's uncertainty flag survives; a stored sequence with too few elements is rejected.", "quantifier": "for all matrices", "why_tests_cant": "index permutations must be right for all entries at once", "anchors": ["src/core/Serialization.cpp: writers/readers of Transform, Covariance", "src/core/FrameNode.cpp: serialize/unserialize"]}
{"id": "C26", "title": "Unique id splits into prefix and suffix losslessly", "statement": "For an item whose id contains '/', prefix + '/' + suffix is the id, the suffix contains no '/', and ids with equal prefix and suffix are equal; an id generated automatically has the requested prefix and its numeric suffix is the number used.", "quantifier": "for all ids (strings)", "why_tests_cant": "all strings", "anchors": ["src/core/Environment.cpp: getUniqueIdPrefix l.71-80, getUniqueIdSuffix l.82-96"]}
{"id": "C27", "title": "Different layers are stored in different files", "statement": "Two attached layers of one class with different unique ids use different map file names, so that saving never overwrites one layer's data with another's.", "quantifier": "for all pairs of ids", "why_tests_cant": "injectivity over all strings", "anchors": ["src/core/Layer.cpp: getMapFileName l.131-136"]}
{"id": "C28", "title": "Copies and moves of an attached item between environments are safe", "statement": "Attaching an item that is attached to another environment detaches it there (leaving no link in the old one) and attaches it here, and the item object stays alive; if attaching fails the item is still attached to the old environment.", "quantifier": "for every pair of environments and every item, with any number of outside references", "why_tests_cant": "depends on reference counts and on which ids exist in the target", "anchors": ["src/core/Environment.cpp: attachItem l.289-300, detachItem, intrusive_ptr_release l.25"]}
{"id": "C29", "title": "Grid coordinates round trip", "statement": "For every cell (xi,yi) of a grid with positive scales, toGrid(fromGrid(xi,yi)) succeeds and returns (xi,yi); conversely if toGrid(p) = cell then p lies in the half open square of side scale of that cell, and the returned in-cell position is in [0,scale). toGridTimesX with m x m subcells per cell finds the subcell that contains the point, and it belongs to the cell that toGrid finds.", "quantifier": "for all grid sizes, positive scales, offsets and points", "why_tests_cant": "real/rational arithmetic with floor over all parameters", "anchors": ["src/maps/GridBase.cpp: toGrid l.392-450, fromGrid l.451-472, contains"]}
{"id": "C30", "title": "toGrid accepts exactly the points of the grid area", "statement": "toGrid(x,y) returns true iff offset <= x < offset + cells*scale and the same for y. contains(xi,yi) is true iff (xi,yi) is the cell of some point.", "quantifier": "for all grids with positive scale and all points", "why_tests_cant": "all real points including those left of the origin, where the result of floor is negative", "anchors": ["src/maps/GridBase.cpp: toGrid l.392-408"]}
{"id": "C31", "title": "Grid extents are the covered area", "statement": "getExtents() is exactly the box of all points covered by cells of the grid.", "quantifier": "for all grids", "why_tests_cant": "all sizes, scales and offsets", "anchors": ["src/maps/GridBase.cpp: getExtents l.480-490, getCellExtents l.492-495"]}
{"id": "C32", "title": "Bresenham line is complete and connected", "statement": "BresenhamLine from a to b terminates, starts with a, ends with b, has max(|dx|,|dy|)+1 points without repetition, consecutive points are 8-neighbours, every step goes towards b in x and y, every point lies in the bounding box of a and b and within half a cell of the ideal line.", "quantifier": "for all pairs of integer end points", "why_tests_cant": "infinitely many lines in all octants", "anchors": ["src/tools/BresenhamLine.cpp: init l.18-28, getNextPoint l.44-63, getLine l.65"]}
{"id": "C33", "title": "Multi level list grid behaves like a grid of sequences", "statement": "ListGrid operations (insertHead, insertTail, erase, clear, iteration) behave exactly like the same operations on an independent sequence per cell; erasing through an iterator removes exactly that element and the links of the remaining elements stay consistent.", "quantifier": "for every history of operations on any number of cells", "why_tests_cant": "pointer structure with back pointers; all histories", "anchors": ["src/tools/ListGrid.hpp"]}
{"id": "C34", "title": "Moving a list grid keeps it usable", "statement": "ListGrid::move(x,y) shifts the content by whole cells, drops what leaves the grid, and afterwards all operations (including erasing any element) behave as on a grid of sequences with the shifted content.", "quantifier": "for every content, every shift and every later history", "why_tests_cant": "the back pointers are only used by later erases", "anchors": ["src/tools/ListGrid.hpp: move l.125-168, erase l.250"]}
{"id": "C35", "title": "MLS grid bookkeeping is exact", "statement": "The cell count of an MLSGrid equals the number of patches stored, the index (if enabled) lists every non-empty cell, and the cell extents contain every non-empty cell, after every operation. After clear the map has no patches and its bookkeeping is that of a new map.", "quantifier": "for every history of insert/erase/update/clear/merge", "why_tests_cant": "all histories", "anchors": ["src/maps/MLSGrid.hpp", "src/maps/MLSGrid.cpp"]}
{"id": "C36", "title": "MLS write/read round trip keeps patches and their order", "statement": "Writing an MLS grid and reading it back yields in every cell the same patches in the same order.", "quantifier": "for all contents", "why_tests_cant": "arbitrary many patches per cell", "anchors": ["src/maps/MLSGrid.cpp: writeMap/readMap l.299-377"]}
{"id": "C37", "title": "Gaussian merge of two height estimates is a proper fusion", "statement": "The Kalman update used to merge two patches gives a mean between the two means and a variance not larger than either, is symmetric in its arguments, and merging any number of measurements is independent of their order.", "quantifier": "for all means and positive deviations and all sequences of measurements", "why_tests_cant": "algebraic law over all reals", "anchors": ["src/tools/Numeric.hpp: kalman_update", "src/maps/MLSPatch.hpp: mergeMLS l.266-360"]}
{"id": "C38", "title": "Merging patches never loses covered height", "statement": "When mergeMLS reports success for two non negative-type patches and the result is vertical, the resulting interval [mean-height, mean] is the smallest interval containing both patches' intervals; when it reports failure for non-negative types, neither patch has changed. The same holds for two patches of free space, whose result is free space. The update index of a merged patch is the newest of both.", "quantifier": "for all patches, thickness and gap sizes", "why_tests_cant": "case analysis over reals with many branches", "anchors": ["src/maps/MLSPatch.hpp: mergeMLS l.266-360"]}
{"id": "C39", "title": "Overlap test detects every overlap", "statement": "overlap(a1,a2,b1,b2) is true whenever the open intervals (a1,a2) and (b1,b2) have a common point.", "quantifier": "for all intervals", "why_tests_cant": "all relative positions incl. containment", "anchors": ["src/maps/MLSPatch.hpp: overlap l.11-17"]}
{"id": "C40", "title": "Traversability class registration returns usable distinct ids", "statement": "Each successful registerNewTraversabilityClass returns an id not returned before, for which getTraversabilityClass returns the registered class until it is overwritten; it reports failure instead of reusing an id when the 8 bit id space is exhausted.", "quantifier": "for every history of registrations and explicit class settings", "why_tests_cant": "all histories up to and beyond the capacity", "anchors": ["src/maps/TraversabilityGrid.cpp: registerNewTraversabilityClass l.173-181, setTraversabilityClass l.183-189, getTraversabilityClass l.191"]}
{"id": "C41", "title": "Worst class query returns the least drivable class", "statement": "getWorstTraversabilityClassInRectangle returns a class that occurs in the rectangle and whose drivability is minimal among the classes occurring there; it terminates for all cell contents.", "quantifier": "for all cell contents, class tables and rectangles", "why_tests_cant": "all histograms over 256 classes", "anchors": ["src/maps/TraversabilityGrid.cpp: getWorstTraversabilityClassInRectangle l.97-139", "src/maps/TraversabilityGrid.hpp: TraversabilityStatistic l.66-124"]}
{"id": "C42", "title": "Stored probability is accurate", "statement": "setProbability(p) then getProbability returns a value within 1/255 below p, exactly p for 0 and 1, monotone in p.", "quantifier": "for all p in [0,1]", "why_tests_cant": "all reals", "anchors": ["src/maps/TraversabilityGrid.cpp: setProbability l.233-240, getProbability l.242"]}
{"id": "C43", "title": "Grassfire visits every cell at most once and terminates", "statement": "The grassfire search terminates for every MLS content, evaluates each cell at most once, only reaches cells connected to the start cell through 8-neighbour steps over drivable cells, and reaches all of those.", "quantifier": "for all grids, start cells and drivability outcomes", "why_tests_cant": "graph search over unbounded grids", "anchors": ["src/operators/TraversabilityGrassfire.cpp: checkRecursive l.167-197, addNeightboursToSearchList l.199-219, updateAll l.419-469"]}
{"id": "C44", "title": "Object growing yields the dominating value in the radius", "statement": "growObjects writes to every cell the biggest (w.r.t. the policy order) of the input values of all cells within the radius, for any total order policy.", "quantifier": "for all grids, radii and total-order policies", "why_tests_cant": "sequential overwriting must equal a pointwise maximum for all inputs", "anchors": ["src/operators/ObjectGrowing.hpp"]}
{"id": "C45", "title": "Neighbourhood fold stays inside the grid", "statement": "Fold reads only cells inside the input grid and combines, for each output cell, exactly the existing cells of the window.", "quantifier": "for all grid sizes and window sizes", "why_tests_cant": "off-by-one behaviour at the border for all sizes", "anchors": ["src/operators/Fold.hpp l.24-50"]}
{"id": "C46", "title": "Links only join attached items", "statement": "Every parent/child link, map/frame link and operator link an Environment reports joins two items that are attached to that Environment, so no query ever returns a pointer to an item that was deleted.", "quantifier": "for every finite history of API calls", "why_tests_cant": "depends on all interleavings of attach, detach and link calls and on outside references", "anchors": ["src/core/Environment.cpp: addChild l.404-448, setFrameNode l.550-578, addInput l.609-643, detachItem l.319-397"]}
{"id": "C47", "title": "Well-used calls have a defined outcome", "statement": "If every pointer argument of a call is alive and satisfies the rules of use of the API (attached where the call needs it), the call either returns or throws; it never fails an assertion, dereferences a deleted item or runs forever.", "quantifier": "for every state reachable by well-used calls and every further call", "why_tests_cant": "a crash needs a particular history", "anchors": ["src/core/Environment.cpp (all public calls)", "src/core/Operator.cpp", "src/core/Layer.cpp"]}
{"id": "C48", "title": "Uncertain relative transforms are consistent", "statement": "relativeTransformWithUncertainty(a,b) yields the same transform (and the same exceptions) as relativeTransform(a,b); if all frames carry symmetric positive semidefinite covariances so does the result; for a ≠ b the result is marked uncertain exactly if some frame on the way of a or b to the root is; the covariances of inverses and products follow from first order error propagation through their Jacobian blocks, variances of independent errors add up.", "quantifier": "for every frame forest, all transforms, covariances and frames", "why_tests_cant": "depends on all chains and matrices", "anchors": ["src/core/Environment.cpp: relativeTransformWithUncertainty l.744-797", "src/core/Transform.cpp l.223-300"]}
{"id": "C49", "title": "Inverse compositions undo composition", "statement": "compositionInv and preCompositionInv solve result*trans = this and trans*result = this, for the transform and, where the Jacobian is invertible, for the covariance.", "quantifier": "for all transforms and covariances", "why_tests_cant": "real matrices", "anchors": ["src/core/Transform.cpp: compositionInv, preCompositionInv"]}
{"id": "C50", "title": "Copying a list grid gives an equal, independent grid", "statement": "Copy construction and assignment of a ListGrid (and so of an MLSGrid) give a grid with the same sequence in every cell, and later calls on one of the two do not affect the other.", "quantifier": "for all grids with arbitrary histories", "why_tests_cant": "uninitialised memory may happen to work in a test; all contents and later histories", "anchors": ["src/tools/ListGrid.hpp: copy constructor l.79-83, operator= l.85-117, clear l.264-272", "src/maps/MLSGrid.cpp: MLSGrid( const MLSGrid& ) l.40-47"]}
{"id": "C51", "title": "The SUM patch model keeps the weighted mean and extremes", "statement": "After any sequence and nesting of successful SUM merges the mean of a patch is the inverse variance weighted mean of all measurements that went into it, min and max are their extremes, and none of this depends on the order of merging.", "quantifier": "for all measurements and all merge trees", "why_tests_cant": "unbounded number of measurements and merge orders", "anchors": ["src/maps/MLSPatch.hpp: constructor l.51-64, updateSum l.79-92, mergeSum l.219-243"]}
{"id": "C52", "title": "Patch statistics do not depend on the height origin", "statement": "Shifting all measurements of a SUM patch by the same height shifts its mean, min and max by that height and leaves its standard deviation as it was.", "quantifier": "for all measurements and shifts", "why_tests_cant": "a test uses a few heights; an error in the formula may vanish near the origin", "anchors": ["src/maps/MLSPatch.hpp: updateSum l.79-92"]}
{"id": "C53", "title": "Merging maps applies the height offset", "statement": "MLSGrid::merge with a transform and an offset merges every patch of the other map at its height plus the offset, for every update model.", "quantifier": "for all patches, offsets and update models", "why_tests_cant": "all combinations of patch kinds and update models", "anchors": ["src/maps/MLSGrid.cpp: merge l.570-624", "src/maps/MLSPatch.hpp: mergeSum l.219-243, mergeMLS l.266-360"]}
{"id": "C54", "title": "Newer free or occupied space cuts older patches", "statement": "If a newer patch of the opposite kind (free/occupied) does not swallow an older one, the older one afterwards covers exactly the part of its interval that the newer one does not cover; its height never gets negative.", "quantifier": "for all pairs of patches", "why_tests_cant": "all relative positions of two intervals", "anchors": ["src/maps/MLSPatch.hpp: mergeMLS l.299-336"]}
{"id": "C55", "title": "Scaling the weight keeps the estimate", "statement": "scaleWeight multiplies the weight of a patch and affects neither the mean nor the standard deviation that are calculated from the sums: the sums are those of the same measurements with all weights multiplied by the factor.", "quantifier": "for all patches and factors", "why_tests_cant": "all sums", "anchors": ["src/maps/MLSPatch.hpp: scaleWeight l.410-414, updateSum l.79-92"]}
{"id": "C56", "title": "Updating a cell changes only that cell", "statement": "MLSGrid::updateCell changes only the given cell, never leaves it empty and adds at most one patch; if no patch of the cell takes the measurement then it becomes the new first patch and the others stay.", "quantifier": "for all grids, merge outcomes and measurements", "why_tests_cant": "all combinations of merge results of arbitrarily many patches", "anchors": ["src/maps/MLSGrid.cpp: updateCell l.482-521"]}
{"id": "C57", "title": "Merging maps visits every patch exactly once", "statement": "MLSGrid::merge updates this grid once for every patch of the other map whose cell lies in this grid, and for nothing else, whether the other map has an index or not.", "quantifier": "for all maps with arbitrary histories and all transforms", "why_tests_cant": "all histories of the index", "anchors": ["src/maps/MLSGrid.cpp: merge l.570-624, generateIndex l.742-756, addCell l.732-740"]}
{"id": "C58", "title": "A measurement is counted once", "statement": "With the SUM model, updating a cell with a measurement adds its weight, its height and a count of one to the sums of the patches of the cell, exactly once, and keeps all earlier measurements.", "quantifier": "for all cells and measurements", "why_tests_cant": "all constellations of patches and all orders of joining", "anchors": ["src/maps/MLSGrid.cpp: updateCell l.482-521", "src/maps/MLSPatch.hpp: mergeSum l.219-243"]}
{"id": "C59", "title": "Layer metadata is an independent typed map per layer", "statement": "Every layer has its own map from keys to typed values: getData creates a missing entry with the default value, returns a reference that stays valid until the entry is removed, and throws if the type does not match; hasData and the const getData report exactly the entries; copies and assigned layers have equal entries and are independent of the source afterwards.", "quantifier": "for all histories of calls, keys, types and layers, and all allocators", "why_tests_cant": "aliasing and lifetime errors appear only in particular histories", "anchors": ["src/core/Layer.hpp l.119-195", "src/core/Layer.cpp l.21-43, l.147-167", "src/core/Holder.hpp l.12-74"]}
{"id": "C60", "title": "Copies of a traversability grid are independent", "statement": "After clone() or assignment, the copy of a TraversabilityGrid has the same cells as the source, and changing or destroying one of them does not affect the other.", "quantifier": "for all histories of creating, setting, reading, cloning, assigning and destroying grids", "why_tests_cant": "the cached array pointers make the behaviour depend on the history", "anchors": ["src/maps/TraversabilityGrid.cpp l.161-171, l.211-218, l.272-285", "src/core/EnvironmentItem.hpp l.27-30"]}
{"id": "C61", "title": "isSet tells whether a traversability class is defined", "statement": "isSet of a TraversabilityClass is true if it was constructed with a drivability and false for the empty placeholder.", "quantifier": "for all drivabilities", "why_tests_cant": "all reals", "anchors": ["src/maps/TraversabilityGrid.hpp: isSet l.31-37"]}
{"id": "C62", "title": "The class table survives saving and loading", "statement": "After serialize and unserialize of a TraversabilityGrid into a new grid, getTraversabilityClass returns the same class for every id, and fails for the same ids.", "quantifier": "for all class tables", "why_tests_cant": "all tables with gaps", "anchors": ["src/maps/TraversabilityGrid.cpp: serialize l.249-257, unserialize l.259-270"]}
{"id": "C63", "title": "Worst probability query returns the minimum", "statement": "getWorstProbabilityInRectangle returns the smallest probability of the cells of the rectangle, 1 if there is none.", "quantifier": "for all cell contents", "why_tests_cant": "all lists of cells", "anchors": ["src/maps/TraversabilityGrid.cpp: l.141-153"]}
{"id": "C64", "title": "Class registration succeeds while an id is free", "statement": "registerNewTraversabilityClass succeeds as long as one of the 8 bit ids has not been used.", "quantifier": "for all class tables", "why_tests_cant": "up to the capacity", "anchors": ["src/maps/TraversabilityGrid.cpp: registerNewTraversabilityClass l.173-181"]}
{"id": "C65", "title": "The patch search of the grassfire ends and the robot fits", "statement": "getNearestPatchWhereRobotFits ends for every cell; a patch returned as no obstacle can be stepped on from the given height, nothing blocks the step, and no patch hangs less than the robot height above it; a patch returned as an obstacle really blocks; if nothing is returned there is no patch below the robot.", "quantifier": "for all cells with arbitrarily many patches", "why_tests_cant": "all stacks of patches of arbitrary height", "anchors": ["src/operators/TraversabilityGrassfire.cpp: getNearestPatchWhereRobotFits l.300-394"]}
{"id": "C66", "title": "Growing classes gives every cell the worst class in the radius", "statement": "TraversabilityGrowClasses gives every cell the class and probability of the known cell within the radius that has the lowest drivability; without any known cell within the radius it stays as it is.", "quantifier": "for all grids, radii and class tables", "why_tests_cant": "sequential overwriting must equal a pointwise minimum for all inputs", "anchors": ["src/operators/TraversabilityGrowClasses.cpp: growTerrains l.17-89"]}
{"id": "C67", "title": "Obstacle growing marks exactly the clearance with full probability", "statement": "growObstacles makes every cell an obstacle that lies within the clearance of an obstacle, gives every obstacle the full probability and keeps all other cells.", "quantifier": "for all grids, obstacles and clearances", "why_tests_cant": "all constellations of obstacles", "anchors": ["src/operators/SimpleTraversability.cpp: growObstacles l.378-425"]}
{"id": "C68", "title": "Simple traversability classes follow step and slope", "statement": "SimpleTraversability makes a cell an obstacle if its step is higher than the ground clearance or its slope higher than the maximum, unknown if its slope is unknown, and otherwise gives it a class in [2, 2+class_count[ that never increases with the slope; a missing modality is ignored.", "quantifier": "for all slopes, steps and configurations with up to 253 classes", "why_tests_cant": "all real slopes, rounding at class borders", "anchors": ["src/operators/SimpleTraversability.cpp: updateAll l.162-222", "src/operators/SimpleTraversability.hpp l.57-67"]}
{"id": "C69", "title": "The class table of simple traversability is complete", "statement": "SimpleTraversability::updateAll ends normally for every class count; afterwards every class that it uses is registered, obstacles with drivability 0, the others (unknown areas included) with a drivability between 1/class_count and 1.", "quantifier": "for all class counts, earlier class tables and cell contents", "why_tests_cant": "all class counts and contents", "anchors": ["src/operators/SimpleTraversability.cpp: updateAll l.235-283"]}
{"id": "C70", "title": "Passages narrower than the width are closed", "statement": "closeNarrowPassages ends without access outside of the map, connects any two obstacles that are nearer to each other than the width by a chain of neighbouring obstacles, keeps obstacles, and turns only cells into obstacles (with full probability) that lie in the rectangle spanned by two such obstacles (or carry the reserved class 255).", "quantifier": "for all maps, sizes, scales, widths and contents", "why_tests_cant": "sequential marking in one array, all constellations of obstacles", "anchors": ["src/operators/SimpleTraversability.cpp: RadialLUT l.287-376, closeNarrowPassages l.427-479"]}
{"id": "C71", "title": "Operator parameters survive saving and loading", "statement": "A SimpleTraversability operator that was serialized and unserialized has the same configuration.", "quantifier": "for all configurations", "why_tests_cant": "all parameters", "anchors": ["src/operators/SimpleTraversability.cpp: serialize l.38-56, unserialize l.58-77"]}
{"id": "C72", "title": "Every change reaches the user of a synchronisation handler", "statement": "A SynchronizationEventHandler (or SynchronizationEventQueue) delivers the binary events of all reported changes exactly once and in order, up to the merging of changes that waited in the queue together, whatever the order of changes, flushes and switches of the queueing mode; a fresh environment fed with them shows what the source shows.", "quantifier": "for all histories of changes, mode switches and flushes", "why_tests_cant": "all interleavings of changes with flush, popEvents and useEventQueue", "anchors": ["src/core/Serialization.cpp: handle l.825-844, flush l.896-903, popEvents l.930-935", "src/core/Serialization.hpp l.262-341", "src/core/EventHandler.cpp l.39-117"]}
{"id": "C74", "title": "Context updates place a map for any receiver", "statement": "With context updates the binary events of an added or changed map let any receiver, whatever it received before, place the map: it afterwards has the map, the frames above it and all their links as in the source.", "quantifier": "for all source environments, maps and receiver histories", "why_tests_cant": "all shapes of frame trees and all states of the receiver", "anchors": ["src/core/Serialization.cpp: process l.846-893", "src/core/Event.cpp: applyEvent l.115-277"]}
{"id": "C76", "title": "A receiver that is watched itself stays defined", "statement": "Applying events to an environment that itself has event queues attached never reports an event without item to them.", "quantifier": "for all event streams", "why_tests_cant": "all streams, also incomplete ones", "anchors": ["src/core/Event.cpp: ApplyEventHelper::itemModified l.129-151, Event::ref l.80-102"]}
{"id": "C73", "title": "Binary events carry items unchanged", "statement": "The binary events of a batch of added or changed items let the receiver read, for every item, exactly the properties and binary streams that its serialize function wrote, and nothing of other items; if the classes read back what they write the receiver gets all items of the batch.", "quantifier": "for all items, batches, property values and stream contents", "why_tests_cant": "all contents and sizes, all orders of items in a batch", "anchors": ["src/core/Serialization.cpp: BinarySerialization l.652-828, addBinaryEvent l.904-913"]}
{"id": "C75", "title": "pullEvents(all) gives a new receiver the whole environment", "statement": "Applying the events returned by pullEvents with all=true to a fresh environment reproduces all items and links of the source, whatever changes were pending at that moment.", "quantifier": "for all histories and all moments of the previous pull", "why_tests_cant": "all combinations of pending changes and announcements", "anchors": ["src/core/Environment.cpp: pullEvents l.833-846", "src/core/Environment.hpp l.382-387", "src/core/EventHandler.cpp l.75-107"]}
{"id": "C77", "title": "Rotation errors of a transform reach transformed points", "statement": "The covariance of a point transformed by a TransformWithUncertainty is, to first order in the errors, that of the rotated and translated point: the block of the rotation error is the derivative of the rotated point with respect to the rotation vector, up to terms of fourth order in the rotation angle.", "quantifier": "for all rotation vectors, points, directions and covariances", "why_tests_cant": "a derivative over real rotations; all angles", "anchors": ["src/core/Transform.cpp: drx_by_dr l.121-137, operator* l.256-270"]}
{"id": "C78", "title": "The uncertainty of an inverse transform", "statement": "TransformWithUncertainty::inverse gives the covariance of the errors of the inverse transform, to first order, including the covariances between rotation and translation.", "quantifier": "for all transforms and covariances", "why_tests_cant": "all covariances, real rotations", "anchors": ["src/core/Transform.cpp: inverse l.272-287"]}
{"id": "C79", "title": "The rotation Jacobians of composition", "statement": "The blocks used for the rotation error of composed transforms are the derivatives they stand for: quaternion of a rotation vector, product of quaternions and rotation vector of a quaternion, and their product is the derivative of the rotation vector of the composed rotation with respect to either rotation vector, up to terms of fourth order in the angles, for all angles up to a half turn.", "quantifier": "for all rotation vectors and quaternions", "why_tests_cant": "derivatives over real rotations; all angles", "anchors": ["src/core/Transform.cpp: dq_by_dr l.55-72, dr_by_dq l.74-91, l.93-119"]}
{"id": "C80", "title": "K-means ends and gives the clusters of its centres", "statement": "KMeans::initialize and run end for all samples; then every class has samples, every sample is in the class of a nearest centre, and getClusters returns for each class the weighted mean of its samples, which is the centre, and their weighted covariance.", "quantifier": "for all dimensions, numbers of samples and classes, all samples with positive weights and every nearest neighbour search", "why_tests_cant": "end of an unbounded loop over real data; all data sets", "anchors": ["src/tools/ExpectationMaximization.hpp: KMeans l.21-136", "src/tools/GaussianMixture.hpp: Gaussian::Stats l.30-50"]}
{"id": "C81", "title": "Gaussian and mixture densities", "statement": "Gaussian::eval is the density of the normal distribution with the given mean and covariance (its integral is 1), and GaussianMixture::eval is the density of the mixture.", "quantifier": "for all dimensions, means, positive definite covariances, weights and points", "why_tests_cant": "an integral over real numbers", "anchors": ["src/tools/GaussianMixture.hpp: Gaussian::eval, GaussianMixture::eval"]}
{"id": "C82", "title": "A step of expectation maximization", "statement": "A step of ExpectationMaximization replaces every component by the one that fits the samples with its responsibilities, keeps the mixture normalised with the mean and the second moments of the samples, keeps covariances positive semidefinite, and never lowers the likelihood.", "quantifier": "for all dimensions, samples, weights and mixtures", "why_tests_cant": "identities between sums over arbitrarily many real samples", "anchors": ["src/tools/ExpectationMaximization.hpp: ExpectationMaximization"]}
{"id": "C83", "title": "Sampling from a mixture", "statement": "GaussianMixture::sample draws from every component with the probability of its weight and never throws, for every mixture that the library produces; normalize keeps the proportions of the weights.", "quantifier": "for all mixtures, random numbers and normal random vectors", "why_tests_cant": "probabilities; all weights", "anchors": ["src/tools/GaussianMixture.hpp: sample, normalize"]}
{"id": "C84", "title": "Map segments", "statement": "After any history of addPart and update, getTransform returns the weighted mean and covariance of the poses added before the last update plus the documented extra variances; getBestMap returns the map with the highest weight; getMapForPose returns map, pose and trajectory size of the hypothesis closest to the given pose.", "quantifier": "for all histories, poses, weights and trajectories", "why_tests_cant": "all histories and numbers of hypotheses, ties between them", "anchors": ["src/maps/MapSegment.cpp l.50-162"]}
{"id": "C85", "title": "Radial lookup table", "statement": "After any history of recompute calls ending with recompute(scale, maxRadius), getDistance(x, y) and getAngle(x, y) return the distance and direction of the cell (x, y) from the origin, for all cells with coordinates up to maxRadius.", "quantifier": "for all histories, scales, radii and cells", "why_tests_cant": "all real scales and radii, all histories of recomputations", "anchors": ["src/tools/RadialLookUpTable.cpp l.11-75"]}
{"id": "C86", "title": "Box lookup table", "statement": "After any history of recompute calls ending with recompute(scale, sizeX, sizeY, maxDist), getDistanceToBox returns, for every point at most maxDist outside of the box in each axis, the distance to the box up to the diagonal of a cell.", "quantifier": "for all histories, scales, sizes, distances and points", "why_tests_cant": "all real parameters and points, all histories", "anchors": ["src/tools/BoxLookUpTable.cpp"]}
{"id": "C87", "title": "Cutting point clouds", "statement": "CutPointcloud writes to its output exactly the transformed points of its input, in order, that lie in all including boxes and in no excluding box, whatever the output contained before; each kept point keeps its rotated normal, colour, attributes and variance; the boxes in use are those added after they were last removed, each counted once.", "quantifier": "for all clouds, metadata, box histories and transforms", "why_tests_cant": "all combinations of metadata arrays and box histories", "anchors": ["src/operators/CutPointcloud.cpp l.39-134", "src/operators/CutPointcloud.hpp l.10-17"]}
{"id": "C88", "title": "Merging point clouds", "statement": "With clearing, the output of MergePointcloud consists of the transformed points of all inputs in order, each with its rotated normal, its colour, attributes and variance; the operator throws exactly if inputs disagree about having normals or colours.", "quantifier": "for all lists of inputs with metadata and all previous outputs", "why_tests_cant": "all numbers of inputs and combinations of metadata", "anchors": ["src/operators/MergePointcloud.cpp l.51-118"]}
{"id": "C89", "title": "Greatest step of a cell", "statement": "MLSSlope writes for each cell that is not at the border the greatest step between its topmost patch and those of its eight neighbours to the band max_step, if at least five of them have a patch with enough measurements, and UNKNOWN otherwise; corrected_max_step never exceeds max_step and equals it from the threshold on; cells at the border are UNKNOWN; outputs of another size are rejected.", "quantifier": "for all maps, sizes, configurations and cells", "why_tests_cant": "all maps and positions of cells relative to the border", "anchors": ["src/operators/MLSSlope.cpp l.14-261"]}
{"id": "C90", "title": "Patches of a set of grids", "statement": "After any history of calls on an MLSMap, getPatch returns, in the frame of the map, the patch found in the newest of its grids that has a matching one, and false exactly if none of the grids has one; the set of grids and the active grid do not change.", "quantifier": "for all histories, poses and contents of the grids, points and probes", "why_tests_cant": "all histories of added grids and queries, contents that change in between", "anchors": ["src/maps/MLSMap.cpp l.62-115"]}
{"id": "C91", "title": "Selection of the active grid", "statement": "selectActiveGrid makes the grid nearest to the given frame active if one is within the threshold and changes nothing else; otherwise it adds a grid with the scale of the active one, aligned to it by whole cells if alignment is wanted, whose origin is less than a cell from the frame, and makes it active; with a threshold of at least one cell a second call for the same frame adds nothing.", "quantifier": "for all histories, poses, scales and thresholds", "why_tests_cant": "all real poses and histories", "anchors": ["src/maps/MLSMap.cpp l.117-171"]}
{"id": "C92", "title": "Elevation of a position", "statement": "In an environment that does not change, every call of GridAccess::getElevation or MLSAccess::getElevation gives the height in the root frame of the first grid that covers the position, and fails exactly if no grid covers it, independent of earlier calls.", "quantifier": "for all sets of grids, poses, histories of calls and positions", "why_tests_cant": "all histories of calls", "anchors": ["src/tools/GridAccess.cpp l.25-73, l.205-243"]}
{"id": "C93", "title": "Elevations of a multi-level surface grid", "statement": "MLSToGrid writes the height of the topmost patch of each cell to the same cell of the output, leaves the cells of the output without patches in the input as they are, and rejects outputs of another size or scale.", "quantifier": "for all maps, sizes, scales and outputs", "why_tests_cant": "all sizes and numbers of patches", "anchors": ["src/operators/MLSToGrid.cpp l.34-64"]}
{"id": "C94", "title": "Multi-level surface grid from elevations", "statement": "GridFloatToMLS updates exactly those cells of the output whose centre is covered by the grid, with the value of the grid there as a height in the frame of the output.", "quantifier": "for all grids, values, poses, scales and outputs", "why_tests_cant": "all real poses, scales and offsets", "anchors": ["src/operators/GridFloatToMLS.cpp l.49-95"]}
{"id": "C95", "title": "Merging multi-level surface grids", "statement": "MergeMLS updates each cell of the output with exactly those patches of all input grids that belong there: in the forward case the patches whose transformed position is in the cell, in the reverse case the patches below the centre of the cell, with their heights in the frame of the output; it throws exactly if an input is neither a grid nor a set of grids.", "quantifier": "for all lists of inputs, poses, sizes, patches and outputs", "why_tests_cant": "all numbers of inputs and patches, all real poses", "anchors": ["src/operators/MergeMLS.cpp l.8-129"]}
{"id": "C96", "title": "Cells of a rectangle", "statement": "forEachInRectangle returns false without any call exactly if a corner of the rectangle is outside of the grid. Otherwise it calls the callback at most once per cell, only for cells of the grid, only for cells with a point at most 15% of a cell (in x and y) from the rectangle, and for every cell with a point that is inside of the rectangle by 15% of a cell; no overflow, no failed assertion.", "quantifier": "for all grids with up to 2^28/10 cells per side, scales, offsets, poses, orientations and sizes of the rectangle", "why_tests_cant": "all real poses and sizes", "anchors": ["src/maps/GridBase.cpp: getRectPoints l.58-113, forEachInRectangle l.302-388, toGridTimesX l.416-435", "src/maps/GridBase.hpp l.128-139"]}
{"id": "C97", "title": "Cells of an inner and an outer rectangle", "statement": "forEachInRectangles with an outer rectangle inside of the grid calls one callback for the cells of the inner rectangle and the other one for the remaining cells of the outer rectangle, up to 15% of a cell at the borders, each cell at most once; it returns false without any call if a corner is outside of the grid.", "quantifier": "for all grids with up to 2^28/10 cells per side, scales, offsets, poses and sizes of the rectangles", "why_tests_cant": "all real poses and sizes", "anchors": ["src/maps/GridBase.cpp: forEachInRectangles l.116-300"]}
{"id": "C98", "title": "Statistic of a rectangle", "statement": "For a rectangle inside of the grid computeStatistic adds the measurements of the cells of the rectangle to the statistic: the total number, the number of each class, the highest class, and for each class the least distance of such a cell from the cell of the centre. For other rectangles the statistic stays as it is.", "quantifier": "for all grids, scales, offsets, poses, sizes, classes, earlier statistics and earlier uses of the shared lookup table", "why_tests_cant": "all real poses and sizes, all histories of the shared table", "anchors": ["src/maps/TraversabilityGrid.cpp: StatisticHelper l.17-71, computeStatistic l.81-86", "src/maps/TraversabilityGrid.hpp l.66-124", "src/tools/RadialLookUpTable.cpp"]}
{"id": "C99", "title": "Worst class and probability of a rectangle", "statement": "For a rectangle inside of the grid getWorstTraversabilityClassInRectangle returns the least drivable class of the cells of the rectangle and getWorstProbabilityInRectangle the least probability of these cells; for a rectangle that is not inside of the grid both throw.", "quantifier": "for all grids, tables of classes, scales, offsets, poses, sizes and contents", "why_tests_cant": "all real poses and sizes, all contents", "anchors": ["src/maps/TraversabilityGrid.cpp l.97-153"]}
{"id": "C100", "title": "Cells along a ray", "statement": "For an origin inside of the grid and a direction in the plane, VoxelTraversal lists the cells after that of the origin along the ray: each cell once, each next to the one before, every listed cell is met by the ray, every cell whose interior is crossed is listed, in the order of the ray, and it ends when the ray leaves the grid. For an origin outside of the grid there are no cells.", "quantifier": "for all grids, scales, offsets, origins and directions", "why_tests_cant": "all real origins and directions, unbounded number of steps", "anchors": ["src/tools/VoxelTraversal.hpp"]}
{"id": "C101", "title": "Illumination of a cell", "statement": "The illumination computed for a cell is 1 minus the part of the light covered by the cells between the middle of the cell and the light: the greatest part covered by one of the cells that the line crosses, limited to [0, 1]; 1 if the light is above the middle of the cell or nothing is in between.", "quantifier": "for all grids, heights, cells, positions and diameters of the light", "why_tests_cant": "all real heights and positions, all sizes of the grid", "anchors": ["src/operators/GridIllumination.cpp l.16-110", "src/tools/VoxelTraversal.hpp"]}
{"id": "C102", "title": "Copying a map into an environment", "statement": "cloneTo adds to the target environment a copy of the map together with copies of the frames between the root node and its frame, with the same transforms and in the same order, so that the pose of the copy relative to the root node is that of the map; all items, links and transforms that existed before stay as they are, in both environments.", "quantifier": "for all environments reached by any sequence of operations, all maps, all depths of the frame tree, also into the environment of the map itself", "why_tests_cant": "unbounded depth and size of the environments, all histories", "anchors": ["src/core/Layer.cpp: CartesianMap::cloneTo l.194-223", "src/core/Environment.cpp: attachItem, addChild, setFrameNode", "src/core/EnvironmentItem.hpp l.27-30"]}
{"id": "C103", "title": "Mesh of a scan", "statement": "ScanMeshing makes one vertex of each reading that passes the filters, in the order of the scan, marked if it is on the border of the scan. Its faces are triangles of the readings of neighbouring lines and columns, with edges below the limit, valid indices and without overlaps; as many as possible of them are used; no two vertices have more than two faces in common, and neighbouring faces have the same orientation. All attributes have one entry per vertex.", "quantifier": "for all numbers of lines and readings, all filters and positions", "why_tests_cant": "unbounded scans, all patterns of missing readings", "anchors": ["src/operators/ScanMeshing.cpp: updateAll l.110-326"]}
{"id": "C104", "title": "Vertices of a scan", "statement": "A reading is used if its range is within the limits and the angles between the ray and the lines to the neighbouring readings differ from a right angle by less than the limit. Its vertex is the end of the ray of the scanner, which is at its offset and tilted by the angle of the line; in particular its distance from the tilted scanner is the range. Variance and colour are as documented.", "quantifier": "for all scans, angles, offsets, ranges, remissions and parameters", "why_tests_cant": "all real angles and offsets", "anchors": ["src/operators/ScanMeshing.cpp l.143-247", "src/maps/LaserScan.hpp"]}
{"id": "C105", "title": "Normals of the vertices", "statement": "calcVertexNormals gives each vertex the direction of the sum of the unit normals of its faces, zero if it has no face; there is one normal per vertex.", "quantifier": "for all meshes", "why_tests_cant": "all numbers of vertices and faces, all real positions", "anchors": ["src/maps/TriMesh.cpp: calcVertexNormals l.27-67"]}
{"id": "C106", "title": "Files of laser scans", "statement": "A laser scan that is saved and loaded again is the same scan: angles, offset, direction, lines with their angles, ranges and remissions. Numbers are rounded to the printed digits, and saving it again writes the same file. A file whose remissions do not follow a line with the same angle is rejected.", "quantifier": "for all scans with any number of lines and readings, all number formats that read back what they print", "why_tests_cant": "unbounded text; all values", "anchors": ["src/maps/LaserScan.cpp: parseScan l.116-190, readScan l.193-197, writeScan l.199-230"]}
{"id": "C107", "title": "Elevations of point clouds", "statement": "After Projection::updateElevationMap the maximal and minimal elevation of a cell are those of the highest and the lowest point of all inputs within its area, in the frame of the grid; cells without points are marked with infinite values. The result does not depend on the order of the points and inputs.", "quantifier": "for all grids, transforms, numbers of inputs and points", "why_tests_cant": "unbounded point clouds, all real positions", "anchors": ["src/operators/Projection.cpp: updateElevationMap l.54-88"]}
{"id": "C108", "title": "Interpolation of elevations", "statement": "interpolateMap gives the cells without elevation between measured ones the value of a triangle of measured cells around them: between the lowest and the highest one, and exact for planes. Measured cells and cells that are not surrounded keep their values.", "quantifier": "for all grids and elevations, all Delaunay triangulations", "why_tests_cant": "all sizes and patterns of missing cells", "anchors": ["src/operators/Projection.cpp: interpolateMap l.91-165"]}
{"id": "C109", "title": "Normal and elevation of a position", "statement": "ElevationGrid::getNormal is the unit normal upwards of the surface given by the neighbouring cells, and getElevation is on the plane with this normal through the elevation of the cell; exact for planes. Positions outside of the grid are rejected; all positions inside have a defined result.", "quantifier": "for all grids, elevations and positions", "why_tests_cant": "all real positions and elevations", "anchors": ["src/maps/ElevationGrid.cpp l.14-60"]}
{"id": "C110", "title": "Distance of surface patches", "statement": "The distance of two surface patches is the gap between the heights that they take up (the mean of a horizontal one, the interval from mean minus height to mean of the others). It is not negative, and the same whichever of them is asked.", "quantifier": "for all patches", "why_tests_cant": "all real values and kinds", "anchors": ["src/maps/MLSPatch.hpp: distance l.106-119"]}
{"id": "C111", "title": "Patch of a cell that fits", "statement": "MLSGrid::get returns the first patch of the cell whose distance from the given patch is less than the given number of standard deviations of their difference, without negative patches if these are to be ignored; nothing if there is none. With a height, mean and deviation of that patch are returned.", "quantifier": "for all cells with any number of patches, all patches, heights and thresholds", "why_tests_cant": "unbounded cells, all real values", "anchors": ["src/maps/MLSGrid.cpp: get l.418-472", "src/maps/MLSGrid.hpp l.148-157"]}
{"id": "C112", "title": "Match of two multi-level surface grids", "statement": "MLSGrid::match returns the ratio of the patches of the other grid, transformed into this one and raised by the offset, that fit to a patch of the cell they are in, of those in each sampling-th cell; between 0 and 1, and 1 if nothing is compared or for a grid with itself. Without an index it throws.", "quantifier": "for all grids, transforms, offsets, samplings and thresholds", "why_tests_cant": "unbounded grids, all real transforms", "anchors": ["src/maps/MLSGrid.cpp: match l.626-680", "src/maps/MLSGrid.hpp l.226-239"]}
{"id": "C113", "title": "Difference of height of two grids", "statement": "MLSGrid::matchHeight returns the mean difference of height of the other grid from this one, over the patches of cells that are in use in both, each compared with the nearest patch and weighted with the inverse of the variance, and the variance of this mean.", "quantifier": "for all grids and patches", "why_tests_cant": "unbounded grids and cells, all real values", "anchors": ["src/maps/MLSGrid.cpp: getNearestPatch l.549-568, matchHeight l.697-728"]}
{"id": "C114", "title": "Points on the surface", "statement": "projectPointsOnSurface and projectSplineOnSurface put each point on the top of the patch that is nearest in height to the point before (or the start height), plus the offset; in an empty cell the height stays. Points outside of the grid are not changed. Splines are sampled with a quarter of the size of a cell.", "quantifier": "for all grids, paths, start heights and offsets", "why_tests_cant": "unbounded paths, all real heights", "anchors": ["src/maps/MLSGrid.cpp l.73-136", "src/maps/MLSGrid.hpp l.102-114"]}
{"id": "C115", "title": "PLY files", "statement": "A point cloud or mesh that is written as a PLY file and read again is the same: points, normals and faces exactly (rounded to floats if single precision was asked for), colors up to a step of 1/255, variances. Reading replaces what was in the object, the order of the properties in the file does not matter, and what cannot be represented is reported.", "quantifier": "for all clouds and meshes of any size, both precisions, all files", "why_tests_cant": "unbounded numbers of points and faces, all values", "anchors": ["src/tools/PlyFile.cpp: serialize l.173-313, unserialize l.315-383, callbacks l.8-131", "src/maps/Pointcloud.cpp: writePly, readPly l.61-71", "src/maps/TriMesh.cpp l.14-26"]}
{"id": "C116", "title": "Point cloud of a multi-level surface grid", "statement": "MLSToPointCloud replaces the cloud by points on the surfaces of the grid, in the frame of the cloud: one for each horizontal patch, points from the bottom to the top of each vertical patch no further apart than the mean size of a cell, none for negative patches. If there is not exactly one grid and one cloud an exception is thrown.", "quantifier": "for all grids, patches, transforms and clouds", "why_tests_cant": "unbounded grids and numbers of patches, all real heights and transforms", "anchors": ["src/operators/MLSToPointCloud.cpp l.29-74", "src/maps/Pointcloud.hpp: clear l.55-62", "src/core/Environment.hpp l.185-240"]}
{"id": "C117", "title": "Point cloud of a distance grid", "statement": "DistanceGridToPointcloud replaces the cloud by exactly one point for each cell with a measured distance below the limit: on the ray through the middle of the cell, at this depth, in the frame of the cloud, with a variance in proportion to the distance and the color of the image, if there is one. Missing or unsuitable inputs are reported.", "quantifier": "for all grids, distances, images, transforms and clouds", "why_tests_cant": "unbounded grids, all real distances", "anchors": ["src/operators/DistanceGridToPointcloud.cpp l.12-99", "src/operators/DistanceGridToPointcloud.hpp l.13-24", "src/maps/Pointcloud.hpp: clear l.55-62"]}
{"id": "C118", "title": "Projection of point clouds into a multi-level surface grid", "statement": "MLSProjection puts each point of each input cloud that is in the area of interest and in the grid into the cell it is in, as a patch with its height and deviation, and changes no other cell. With the uncertainty of the transform the variance of each patch is larger by that of the transform. With negative information the cells between a patch and the origin of the cloud get negative patches, one for each patch of the cloud, whatever was in the grid before; an origin outside of the grid is reported. The loops always end and stay in the grid.", "quantifier": "for all grids, clouds, transforms, areas and origins, and for all ways to merge patches", "why_tests_cant": "unbounded grids and clouds, all real coordinates; the loop iterates over a set that it may change", "anchors": ["src/operators/MLSProjection.cpp l.54-236", "src/maps/MLSGrid.cpp: updateCell l.482-521, update l.523-542, initIndex l.758-763", "src/maps/GridBase.hpp l.40-49"]}
{"id": "C119", "title": "Point clouds as text", "statement": "A point cloud that is written as text and read again has the same points, up to the six digits that are written, also if it is empty. Lines with a remission give points with a grey value; with a sample n each line is used as a whole or not at all. Texts that are not in this format are reported.", "quantifier": "for all clouds, texts of lines of numbers, samples and results of rand()", "why_tests_cant": "unbounded texts; behaviour of the stream at its end and after errors", "anchors": ["src/maps/Pointcloud.cpp: writeText, readText, importCsv l.73-129", "src/maps/Pointcloud.hpp l.21-26"]}
{"id": "C120", "title": "Copies and extents of point clouds", "statement": "copyFrom makes a cloud the copy of another one (or of a sample): the same points, in the frame of the copy if this is asked for, with their normals, colors and variances, which can then be saved; a copy of itself changes nothing. getExtents is the smallest box with all points.", "quantifier": "for all clouds, samples and transforms", "why_tests_cant": "unbounded clouds, all real transforms", "anchors": ["src/maps/Pointcloud.cpp: copyFrom l.131-163, getExtents l.165-174", "src/maps/Pointcloud.hpp: clear l.55-62"]}
{"id": "C121", "title": "Rigid motion of point pairs", "statement": "Pairs::getTransform returns a rigid motion that maps the points p as close as possible to the points x: no other rigid motion has a smaller sum of squared distances. It maps the centre of the points p to that of the points x; with less than three pairs it throws.", "quantifier": "for all sets of pairs, of any size, and for every eigenvalue decomposition that is correct", "why_tests_cant": "all real coordinates and all rigid motions to compare with; the choice of eigenvectors is open where eigenvalues are equal", "anchors": ["icp/icp.cpp: getTransform l.43-102, getMeanSquareError l.109-112", "icp/icp.hpp l.32-76"]}
{"id": "C122", "title": "Sets of point pairs", "statement": "Each pair that was added consists of its own two points and its distance until it is trimmed away or cleared. trim(n) keeps the n pairs of lowest distance and returns the largest distance that is kept. No access is outside of the stored points.", "quantifier": "for all sequences of add, trim and clear, and every order that std::sort may give to equal distances", "why_tests_cant": "unbounded sequences of operations", "anchors": ["icp/icp.cpp: add l.12-21, trim l.23-41, size l.104-107, clear l.114-119", "icp/icp.hpp l.32-76"]}
{"id": "C123", "title": "Sampling of a cloud for the alignment", "statement": "A PointcloudAdapter of density d reads floor or ceil of n d of the n vertices, evenly spaced, none twice, and transformed by the frame of the cloud and the current offset; size() is the number of points that are read.", "quantifier": "for all clouds, densities and transforms", "why_tests_cant": "unbounded clouds, all real densities", "anchors": ["icp/icp.hpp: PointcloudAdapter l.99-171"]}
{"id": "C124", "title": "Alignment of a cloud", "statement": "Trimmed::align ends after at most max_iter rounds; a measurement that matches the model is not moved, and a measurement that is a shifted copy is moved back. The error and the distances of the result are those of the alignment that is returned. applyTransform moves the frame of the cloud by the transform of the alignment.", "quantifier": "for all models, measurements, densities, numbers of rounds, overlaps, limits and frame trees without cycles, and for every correct search for nearest points", "why_tests_cant": "unbounded clouds and numbers of rounds, all real coordinates", "anchors": ["icp/icp.hpp: FindPairsKDTree l.223-264, Trimmed l.332-511", "icp/icp.hpp: PointcloudAdapter::applyTransform l.148-162", "src/core/FrameNode.cpp l.95-102"]}
{"id": "C125", "title": "Search for the best overlap", "statement": "GoldenBracket::findMin returns the smallest value among those of the arguments it tries, all of which are in the interval; for a function with a single minimum the argument is as close to the minimum as the accuracy eps asks for; the search ends.", "quantifier": "for all functions, intervals and accuracies", "why_tests_cant": "all real functions with one minimum, any number of rounds", "anchors": ["icp/icp.hpp: GoldenBracket::findMin l.266-327, Trimmed::align l.385-401"]}
{"id": "C126", "title": "Robust fit of a motion", "statement": "ransacSingleModel returns true only with a model that was fitted to picked samples that it maps to within the error threshold; no other model that was tried has more inliers, and the inliers are exactly the samples below the fitness threshold. Samples that one rigid motion matches exactly give that motion with all samples as inliers. Too few samples and zero rounds are rejected.", "quantifier": "for all samples, thresholds, iteration limits, soft limit functions and sequences of random picks", "why_tests_cant": "any number of rounds and samples, all sequences of random numbers", "anchors": ["icp/ransac.hpp: FitTransform l.13-74, pickRandomIndex l.106-118, ransacSingleModel l.120-179"]}
{"id": "C127", "title": "Histogram of pair distances", "statement": "Histogram::calculateHistogram gives for each bin the number of distances in it divided by the number of distances and by the width of the bin, with one bin below and one above the inner ones; the limits are ascending and evenly spaced. It is defined for every list of distances and depends on them with and without normalization.", "quantifier": "for all configurations and all ascending lists of distances", "why_tests_cant": "lists of any length, all real configurations", "anchors": ["icp/stability.cpp: Histogram l.277-403", "icp/stability.hpp l.171-216"]}
{"id": "C128", "title": "Cluster of transforms", "statement": "Clustering::cluster returns true only if at least min_number transforms remain whose spread in position and yaw is within the limits; the ones removed are the furthest from the mean. The mean and covariances are those of the transforms that remain. The limits are the covariances given to defOutlinerRegion, scaled by the squared number of sigmas.", "quantifier": "for all lists of transforms, configurations and limits", "why_tests_cant": "lists of any length, any number of removals, all real covariances", "anchors": ["icp/stability.cpp: Clustering l.16-168", "icp/stability.hpp l.28-117"]}
{"id": "C129", "title": "Samples of a search region", "statement": "The sigma points have the direction of the columns of the Cholesky factor and norms within the configured bounds; within the bounds they reproduce the covariance times the squared number of sigmas. getSigmaOffset returns the centre and the positive and negative sigma points in order, once each, then no offset; the samples are balanced. Uniform samples are inside the region.", "quantifier": "for all covariances, bounds and numbers of calls", "why_tests_cant": "any number of calls, all real covariances and random values", "anchors": ["icp/stability.hpp: calcSigmaPoints l.36-58, Sampling l.120-168", "icp/stability.cpp: Sampling l.186-268"]}
{"id": "C130", "title": "Window of scan lines", "statement": "addScanLineToPointCloud adds a scan exactly if it differs from every stored scan by more than a limit in rotation, distance or head direction. The window holds the last lines_per_point_cloud scans that were added, in order. hasNewPointCloud is true as soon as lines_per_point_cloud scans, min_line_advance of them new, are there.", "quantifier": "for all configurations and all sequences of scans and poses", "why_tests_cant": "sequences of any length, all rigid transforms", "anchors": ["icp/icpLocalization.cpp: initializePointCloud l.12-19, addLaserScan l.33-46, addScanLineToPointCloud l.48-102, hasNewPointCloud l.104-112"]}
{"id": "C131", "title": "Point clouds of the scan window", "statement": "generatePointcloud contains every reading of the window once, in order; its pose puts each at the place that the odometry since the scan gives, and at its measured place if the odometry agrees with the world poses. After hasNewPointCloud returned true it is defined. generatePointcloudSample turns the cloud about its origin and moves it by the offset.", "quantifier": "for all windows of scans and all rigid transforms", "why_tests_cant": "unbounded windows, all transforms", "anchors": ["icp/icpLocalization.cpp: generatePointcloud l.132-169, generatePointcloudSample l.171-181"]}
{"id": "C132", "title": "Result of a scan match", "statement": "doScanMatch returns the pose of the cloud followed by the transform of the alignment, the error and a covariance that grows with the error; a cloud that is a shifted copy of the model is moved back. All fields of the result are set in all cases.", "quantifier": "for all models, clouds, poses and configurations", "why_tests_cant": "clouds of any size, all poses", "anchors": ["icp/icpLocalization.cpp: doScanMatch l.188-252"]}
{"id": "C133", "title": "Queries of polygon sets", "statement": "isIntersecting is true exactly if the polygon touches a polygon of the set at their present poses (within the radii of the shapes and the tolerance), and getMinimalDistance is the smallest distance to the polygons near the calculation area, or one below the tolerance, at every time: after any moves, additions, changes of the area and queries, also of other sets.", "quantifier": "for all polygons, poses, sets and sequences of calls", "why_tests_cant": "call sequences of any length, all real polygons and poses", "anchors": ["src/maps/PolygonMap.cpp: Polygon l.44-71, PolygonSet::add l.109-118, doQuery l.125-138, getMinimalDistance l.140-145, isIntersecting l.170-175, QueryCallback l.183-219", "src/maps/PolygonMap.hpp l.17-52"]}
{"id": "C134", "title": "Polygons inside a set", "statement": "isInside is true exactly if the polygon is inside a polygon of the set, at their present poses.", "quantifier": "for all polygons, poses and sets", "why_tests_cant": "all real polygons and poses, all orders of the broad phase", "anchors": ["src/maps/PolygonMap.cpp: isInside l.147-168"]}
{"id": "C135", "title": "Bands of grids in files", "statement": "writeGridData changes no cell of the grid and puts the bands into the file in the order of the keys; the geotransform of the file puts the centre of every cell at its place. readGridData of that file into a grid of the same type and size, or an empty one, gives every cell its value and every band its value for no data; other bands, the scale and the offset are not changed. A file of another size or type is rejected and changes no band.", "quantifier": "for all grids, numbers and names of bands, values and frames", "why_tests_cant": "grids of any size with any number of bands, all values and frames", "anchors": ["src/maps/Grid.hpp: writeGridData l.505-587, readGridData l.589-691"]}
{"id": "C136", "title": "Raster files of other programs", "statement": "readGridFromGdal returns a grid and a transform that put every pixel of the band with its value at the place given by the geotransform of the file, for all directions of its axes; files that a grid cannot represent and bands that do not exist are rejected.", "quantifier": "for all raster files, bands and geotransforms", "why_tests_cant": "rasters of any size, all real geotransforms", "anchors": ["src/maps/GridBase.cpp: readGridFromGdal l.497-563", "src/maps/Grid.hpp: readGridData l.589-691"]}
{"id": "C137", "title": "Copies and ranges of bands", "statement": "copyBandFrom gives the target band the cells and the value for no data of the source band and changes no other band; a band that does not exist or has another size is rejected. getMinMaxValues returns the smallest and the largest value of the band.", "quantifier": "for all grids of all types, bands and values", "why_tests_cant": "grids of any size, all values of all types", "anchors": ["src/maps/Grid.hpp: getMinMaxValues l.179-193, copyBandFrom l.306-317"]}
{"id": "C138", "title": "Aligned grids", "statement": "isAlignedWith is true exactly if both grids have the same number of cells and every cell is less than half a cell away from the cell of the other grid with the same index, for all scales, offsets and frames.", "quantifier": "for all grids, offsets, scales and frames", "why_tests_cant": "all real transforms, offsets and scales, grids of any size", "anchors": ["src/maps/GridBase.cpp: isAlignedWith l.616-632", "src/maps/GridBase.hpp l.276-281"]}
{"id": "C139", "title": "Grids aligned on cells", "statement": "isCellAlignedWith is true exactly if both grids have the same scale and the cells of one are the cells of the other, up to a shift of the indices and a small tolerance, for all offsets and frames.", "quantifier": "for all grids, offsets, scales and frames", "why_tests_cant": "all real transforms, offsets and scales", "anchors": ["src/maps/GridBase.cpp: isCellAlignedWith l.596-614, fromGrid l.451-455", "src/maps/GridBase.hpp l.283-288"]}
{"id": "C140", "title": "Projection of classes", "statement": "ClassGridProjection gives every cell of the output the class that the map assigns to the cell of the input at the same place, and changes nothing else; grids that are not aligned, an input without data and unknown classes are reported by an exception.", "quantifier": "for all grids, class maps and frames", "why_tests_cant": "grids of any size, all maps of classes", "anchors": ["src/operators/ClassGridProjection.hpp: updateAll l.32-59", "src/maps/Grid.hpp: getGridData l.161-164"]}
{"id": "C141", "title": "Saved grids", "statement": "All grids of a scene that is saved to a directory, or to binary streams, are loaded with their size, scale, offset, bands, cells and values for no data, for any number of grids with any bands, in one file or in one file for each band.", "quantifier": "for all scenes with any number of grids, bands and values", "why_tests_cant": "scenes with any number of grids, all sizes, values and names", "anchors": ["src/maps/Grid.hpp: unserialize l.374-423, serialize l.424-453, streams l.486-496", "src/maps/GridBase.cpp l.27-56"]}
{"id": "C142", "title": "Files of bands", "statement": "Bands of different grids of an environment, and different bands of one grid, are saved in files with different names.", "quantifier": "for all ids, class names and names of bands", "why_tests_cant": "all ids and names", "anchors": ["src/maps/Grid.hpp: getFullPath l.326-327, serialize l.441-450", "src/core/Layer.cpp: getMapFileName l.126-145"]}
{"id": "C143", "title": "Images in grids", "statement": "copyFromFrame gives every cell of an image the three values of its pixel, and copyFromDistanceImage every cell the distance of its pixel; other bands are not changed, the change is announced, and images of another size are rejected.", "quantifier": "for all grids and images", "why_tests_cant": "images of any size, all values", "anchors": ["src/maps/Grids.hpp: DistanceGrid l.34-35, copyFromFrame l.77-97", "src/maps/Grids.cpp: copyFromDistanceImage l.36-49"]}
{"id": "C144", "title": "Copies between grids", "statement": "copyGridToGrid gives every cell of the elevation of the second grid the value, times the scale, that the first grid has at the same place, and changes nothing else.", "quantifier": "for all grids of all types and conversions", "why_tests_cant": "grids of any size, all values", "anchors": ["src/maps/Grids.hpp: copyGridToGrid l.100-112"]}
{"id": "C145", "title": "Picture of an environment", "statement": "A visualization that listens to the events of an environment shows, after each redraw, exactly the attached items that one of its visualizers handles, in their last look, and below each item exactly the items that are its children; no event makes it fail or block.", "quantifier": "for all histories of calls, interleaved in any way with redraws and changes of properties", "why_tests_cant": "unbounded histories, any number of items and visualizers", "anchors": ["viz/EnvireEventListener.cpp: EnvireEventListener l.111-293", "src/core/EventHandler.cpp: dispatch l.42-73"]}
{"id": "C146", "title": "Double buffer of the scene", "statement": "What a visualizer draws becomes visible at the next redraw and not before, exactly once, together with the children of the item; visualizers draw into groups that are not part of the scene; disabled items are hidden and enabled ones are shown.", "quantifier": "for all sequences of calls on a node", "why_tests_cant": "unbounded sequences of calls", "anchors": ["viz/EnvireEventListener.cpp: EnvireNode l.6-104", "viz/EnvireEventListener.hpp l.17-34"]}
{"id": "C147", "title": "Groups handed out for items", "statement": "getNodeForItem returns the group that visualizes the item, and nothing for items that are not shown.", "quantifier": "for all histories", "why_tests_cant": "unbounded histories", "anchors": ["viz/EnvireEventListener.cpp: getNodeForItem l.127-134", "viz/EnvireEventListener.hpp l.80-83"]}
{"id": "C148", "title": "Tree of the items", "statement": "The tree widget beside the visualization shows every frame below its parent and every map below its frame, each exactly once, only the root frame at the top and nothing that is not attached; entries that are deleted are never used again.", "quantifier": "for all histories of calls after the tree was attached to a fresh environment", "why_tests_cant": "unbounded histories; the faults need particular orders of calls", "anchors": ["viz/TreeViewListener.cpp l.15-105", "viz/TreeViewListener.hpp l.38-53", "src/core/EventHandler.cpp: dispatch l.42-73"]}
{"id": "C149", "title": "Graph of an environment", "statement": "GraphViz::writeToFile writes a text in the DOT language whose nodes are exactly the attached items, each with label, class without namespace, id and pose, and whose arrows are exactly the frame, layer, operator and map links of the environment.", "quantifier": "for all reachable environments, all ids, labels and class names", "why_tests_cant": "unbounded environments and texts; broken by particular characters in ids and labels", "anchors": ["src/tools/GraphViz.cpp l.9-111"]}
{"id": "C150", "title": "Command line of env_create_grid", "statement": "Every documented command line of env_create_grid creates exactly the grid it asks for (type, size, scale, offset, frame, bands), and a grid is created for no other command line.", "quantifier": "for all argument lists of any length and all environments", "why_tests_cant": "unbounded argument lists; the faults sit in particular combinations of optional words", "anchors": ["tools/env_create_grid.cpp l.12-120"]}
{"id": "C151", "title": "Command line of env_add_grid", "statement": "Every documented command line of env_add_grid puts the data where it asks for: into a new map of the given type at the given frame, into the given map, or at the root.", "quantifier": "for all argument lists of any length", "why_tests_cant": "unbounded argument lists", "anchors": ["tools/env_add_grid.cpp l.10-112"]}
{"id": "C152", "title": "Deleting items by name", "statement": "env_delete_item removes exactly the named items with the frames and maps below them, whatever the order, repetition and nesting of the ids on the command line; everything else keeps its id and relations, and exactly the ids that are unknown or already gone are reported.", "quantifier": "for all reachable environments with acyclic frame tree and all lists of ids", "why_tests_cant": "unbounded environments and lists; an item may be deleted by a word before the one that names it", "anchors": ["tools/env_delete_item.cpp l.22-31", "src/core/Environment.cpp: detachItem l.319-397"]}
{"id": "C153", "title": "Exchange of poses with slam6d", "statement": "env_slam6d generate writes the id and the pose of every cloud in the coordinates of slam6d; env_slam6d update gives the frame of every cloud the last pose slam6d has written for it, in any number and order of scans, and leaves the other frames alone.", "quantifier": "for all numbers of clouds, all poses, all directories and orders of their entries", "why_tests_cant": "unbounded numbers of scans; broken from the thousandth on", "anchors": ["tools/env_slam6d.cpp l.59-175"]}
{"id": "C154", "title": "Simplified point clouds", "statement": "Simplifying a point cloud gives a cloud whose points each come from their own point of the input, with the normal and the colour of that point; without smoothing the points themselves are points of the input, and with all steps switched off the result is the input. The settings are used as given, and the output holds the result only.", "quantifier": "for all clouds with or without normals and colours, all settings, all results of the geometry library that meet its documentation", "why_tests_cant": "unbounded clouds and any behaviour of the external library within its documentation", "anchors": ["src/operators/SimplifyPointcloud.cpp: updateAll l.62-168", "src/operators/SimplifyPointcloud.hpp l.24-35"]}
{"id": "C155", "title": "Clouds in saved scenes", "statement": "All point clouds, meshes and feature clouds of a scene are the same after the scene was saved and loaded: each has its own file, whatever its id, and its points, normals, colours, faces, sensor origin, key points and descriptors come back. A cloud saved as text can be loaded too.", "quantifier": "for all numbers of clouds, all ids, all contents, all files that were in the directory before", "why_tests_cant": "unbounded scenes, all names and contents", "anchors": ["src/maps/Pointcloud.cpp: serialize, unserialize l.30-59", "src/maps/TriMesh.cpp l.14-26", "src/maps/Featurecloud.cpp l.11-23", "src/core/Layer.cpp: getMapFileName l.126-136", "src/core/Serialization.cpp: getBinaryInputStream l.321-332"]}
{"id": "C156", "title": "Settings of operators in saved scenes", "statement": "The settings of an operator are the same after the scene was saved and loaded, for all operators and all values.", "quantifier": "for all operators, all settings and all their values", "why_tests_cant": "all values of all settings, in any combination", "anchors": ["src/operators/ScanMeshing.cpp l.15-41", "src/operators/MLSToGrid.cpp l.10-26", "src/operators/GridFloatToMLS.cpp l.12-22", "src/operators/SimplifyPointcloud.cpp l.23-44", "src/operators/MLSProjection.cpp l.11-24", "src/operators/SimpleTraversability.cpp l.38-77", "src/core/SerializationFactory.cpp: createObject l.22-44"]}
{"id": "C157", "title": "Slanted patches are cut at their range", "statement": "In the slope model a patch is drawn as the part of its plane over its cell that lies between its minimum and its maximum: every vertex is on an edge of the rectangle and in the range, and on each of the four edges the part in the range is bounded by vertices of the polygon.", "quantifier": "for all cells, planes and ranges", "why_tests_cant": "all real heights, each of the corners below, in or above the range", "anchors": ["viz/MLSVisualization.cpp: PatchesGeode::drawPlane l.140-200"]}
{"id": "C158", "title": "Patches are drawn as their boxes in the colours of their kind", "statement": "A horizontal patch is drawn as the rectangle of its cell at its mean, a vertical one as the closed box of its cell from its mean down by its height; negative patches only on request. Each is drawn in the colour for its kind, and what is drawn for one patch does not depend on the others; hues are from 0 to 1.", "quantifier": "for all grids, patches and settings", "why_tests_cant": "grids of any size, all combinations of settings", "anchors": ["viz/MLSVisualization.cpp: drawBox l.202-257, addVertex l.282-295, updateNode l.344-458, setCycleColorInterval l.525-532"]}
{"id": "C159", "title": "Estimated normals of patches", "statement": "The estimated normal of a patch always points up; it is the normal of the plane if the patch and its neighbours are on one, also at the border of the grid and beside missing cells, and that of the central differences if all four neighbours are there.", "quantifier": "for all grids, cells and heights", "why_tests_cant": "all positions in grids of any size, index 0 wraps around, all heights", "anchors": ["viz/MLSVisualization.cpp: estimateNormal l.311-341"]}
{"id": "C160", "title": "Extents of a map in another frame", "statement": "getExtentsTransformed returns the smallest box, in the given frame, that contains the map; it is empty for a map without content.", "quantifier": "for all maps, all transforms and all frames", "why_tests_cant": "all affine transforms and all contents", "anchors": ["src/Core.hpp: Map::getExtentsTransformed l.119-141", "src/maps/Pointcloud.cpp: getExtents l.165-174"]}
{"id": "C161", "title": "The grid of env_mls covers the clouds", "statement": "env_mls and env_dem make a grid that every point of the clouds is projected into, with cells of the given size; if an area is given the grid covers the area, and nothing is written for an area that is not understood.", "quantifier": "for all clouds in all frames, all resolutions, all area arguments", "why_tests_cant": "unbounded clouds, all transforms", "anchors": ["tools/env_mls.cpp l.51-117", "tools/env_dem.cpp l.34-57"]}
{"id": "C162", "title": "Arguments of tools that may be left out", "statement": "In a command line of a tool the arguments that are optional by its usage may be left out, and have their default then; those that are given are used in the documented place. No command line reads behind its end.", "quantifier": "for all command lines", "why_tests_cant": "all numbers of arguments, all words", "anchors": ["tools/env_mls.cpp l.15-63", "tools/asc2ply.cpp l.22-37", "tools/env_simplify.cpp l.16-26", "tools/env_traversability.cpp l.11-52", "tools/env_mls_trajectory.cpp l.15-28"]}
{"id": "C163", "title": "Heights along a trajectory", "statement": "env_mls_trajectory prints one line for each point of the trajectory, with the mean of the highest patch in the cell of the point for each map (or -1e9), and ends.", "quantifier": "for all files, all maps", "why_tests_cant": "files of any length and form", "anchors": ["tools/env_mls_trajectory.cpp l.27-61"]}
{"id": "C164", "title": "Noise is added to the window", "statement": "env_grid_add_noise changes each cell in the window once, by the value for a place in this cell, and no cell outside of the window; without a window it changes all cells.", "quantifier": "for all grids, windows, centres and functions", "why_tests_cant": "grids of any size, windows that are not aligned with cells", "anchors": ["tools/env_grid_add_noise.cpp l.55-160"]}
{"id": "C165", "title": "A cloud from a multi-level surface grid", "statement": "env_mls_to_pointcloud makes one point for each patch, in the middle of its cell, at its mean: put back into the cells of the map the points give the heights of the patches.", "quantifier": "for all maps", "why_tests_cant": "grids and cells of any size", "anchors": ["tools/env_mls_to_pointcloud.cpp l.44-62"]}
{"id": "C166", "title": "Results of tools are where their input is", "statement": "The grid that env_mls_slopes and env_traversability make has the cells of the map that it is made from, of the same size and in the same places.", "quantifier": "for all maps", "why_tests_cant": "all sizes, scales and offsets", "anchors": ["tools/env_mls_slopes.cpp l.45-49", "tools/env_traversability.cpp l.35-39"]}
{"id": "C167", "title": "Which visualizer shows an item", "statement": "Each item of an environment is shown by the visualizer for its class, by that for the nearest class it is derived from, and not at all if there is none; no item is handed to a visualizer that cannot show it.", "quantifier": "for all classes of items", "why_tests_cant": "all classes, also those of users of the library; depends on the order in which visualizers are registered", "anchors": ["viz/EnvireVisualization.cpp l.35-54", "viz/EnvireEventListener.cpp l.226-235", "viz/TraversabilityGridVisualization.cpp l.13-20, l.91-93", "viz/PointcloudVisualization.cpp l.41-44", "viz/TriMeshVisualization.cpp l.26-29"]}
{"id": "C168", "title": "Pictures of traversability grids", "statement": "The picture of a traversability grid shows each cell at its place in the grid, in the colour of its class: obstacles red, unknown cells in the colour for unknown, and classes between by their drivability.", "quantifier": "for all grids, classes and drivabilities", "why_tests_cant": "grids of any size, all tables of classes", "anchors": ["viz/TraversabilityGridVisualization.cpp l.31-100", "viz/GridVisualizationBase.cpp l.31-130"]}
{"id": "C169", "title": "Pictures of grids", "statement": "The picture of a grid shows each cell with a brightness in proportion to its value, the largest one at full brightness, in the colour of the grid, and empty cells are transparent if they are not to be shown; an image is shown with its colours; drawing never reads outside of the grid.", "quantifier": "for all grids of all types, all settings", "why_tests_cant": "grids of any size, all values and settings", "anchors": ["viz/GridVisualization.cpp l.46-120", "viz/GridVisualizationBase.cpp l.31-130", "viz/ImageRGB24Visualization.cpp l.25-71"]}
{"id": "C170", "title": "Drawing of elevation grids", "statement": "An elevation grid is drawn as a height field with a vertex for each cell, at the centre and the height of the cell, coloured by the height between the smallest and the largest.", "quantifier": "for all grids and heights", "why_tests_cant": "grids of any size, all heights, also negative ones", "anchors": ["viz/ElevationGridVisualization.cpp l.33-114, l.116-172"]}
{"id": "C171", "title": "Ruby view of raster maps", "statement": "The raster map view shows the chosen band of a map with the y axis upwards, with a colour for each value that grows with it, and viewToMap gives for each pixel of the view the place of the value that is shown there.", "quantifier": "for all maps, bands, values and points", "why_tests_cant": "maps of any size, all values", "anchors": ["ruby/envire/raster_map_view.rb l.13-59", "ruby/envire/gdal.rb l.298-312"]}
{"id": "C172", "title": "Bands written in Ruby", "statement": "Values written to a band with write_band are returned by read_band; data_type and data_type_to_gdal allow a band of the same type to be created.", "quantifier": "for all lists of values and all types", "why_tests_cant": "lists of any length, all values of all types", "anchors": ["ruby/envire/gdal.rb l.18-43, l.157-174, l.221-250, l.298-306"]}
{"id": "C173", "title": "Drawing of laser scans", "statement": "Each range of a laser scan is drawn as a point at the place where ScanMeshing puts its vertex, in a grey that grows with the remission if there are remissions, and a changed scan is drawn anew.", "quantifier": "for all scans, lines, ranges and remissions", "why_tests_cant": "scans of any size, all angles and ranges, both forward directions", "anchors": ["viz/LaserScanVisualization.cpp l.20-92, l.121-124", "src/operators/ScanMeshing.cpp l.169-198"]}
{"id": "C174", "title": "Drawing of clouds, meshes and trajectories", "statement": "A cloud is drawn with one dot for each vertex, in its own colour if the cloud has colours, and with a line along each normal; a mesh with one triangle for each face; a map segment with a line between consecutive positions of each trajectory. Clouds have different colours if colours are to be cycled.", "quantifier": "for all clouds, meshes, segments and settings", "why_tests_cant": "clouds of any size, all settings, all addresses of clouds", "anchors": ["viz/PointcloudVisualization.cpp l.46-62, l.64-195", "viz/TriMeshVisualization.cpp l.31-99", "viz/MapSegmentVisualization.cpp l.35-66"]}
{"id": "C175", "title": "Highlighting of the active item", "statement": "At most one item is highlighted, the one that was activated last; the highlight is seen at once, and after another item is activated the former one looks as before.", "quantifier": "for all sequences of activations, changes and redrawings, and all clouds and frames", "why_tests_cant": "sequences of any length, all interleavings of activations with changes of the items", "anchors": ["viz/ItemManipulator.cpp l.30-61", "viz/FrameNodeVisualization.cpp l.83-132", "viz/EnvireEventListener.cpp l.53-134", "viz/PointcloudVisualization.cpp l.64-110", "viz/TriMeshVisualization.cpp l.31-60"]}
{"id": "C176", "title": "Removal of selected items", "statement": "Removing the selected items removes exactly these items and all that is below them from the environment, whatever the order of the selection and also if it holds an item together with items below it; frames without a parent, like the root, stay.", "quantifier": "for all environments reached by well-used calls with an acyclic frame tree, and all selections", "why_tests_cant": "environments and selections of any size, all orders", "anchors": ["viz/ItemManipulator.cpp l.145-155", "src/core/FrameNode.cpp l.57-60", "src/core/Environment.cpp l.319-397"]}
{"id": "C177", "title": "Frames in the visualization", "statement": "A frame is drawn with the pose it has, and the ellipse of its uncertainty, if it has one and it is to be shown, in the coordinates of its parent.", "quantifier": "for all poses, uncertainties and sequences of updates", "why_tests_cant": "all poses, sequences of updates of any length", "anchors": ["viz/FrameNodeVisualization.cpp l.18-23, l.30-81"]}
{"id": "C178", "title": "Environments of the visualization", "statement": "The visualization shows the environment it was given last and only that one. An environment it made itself, to load a file or for binary events, is freed exactly when it is replaced or the visualization is destroyed; one of the user is freed only by the user. Binary events are accepted as long as the user gave no environment.", "quantifier": "for all histories of new environments, updates, loads, binary events, changes and destruction", "why_tests_cant": "histories of any length with any number of environments", "anchors": ["viz/EnvireVisualization.cpp l.23-68, l.123-174", "viz/EnvireEventListener.cpp l.127-152, l.237-265", "src/core/Environment.cpp l.149-158, l.177-199"]}
{"id": "C179", "title": "Handles of frames", "statement": "The handles of the active frame are at the pose of the frame after every sequence of activations, drags and moves; a drag moves the active frame to the pose of the handles and nothing else, and handles that are no longer active are freed.", "quantifier": "for all sequences of activations, drags and moves", "why_tests_cant": "sequences of any length, all poses", "anchors": ["viz/FrameNodeManipulator.cpp l.8-81, l.141-200", "viz/ItemManipulator.cpp l.30-61", "src/core/FrameNode.cpp l.95-102"]}
{"id": "C180", "title": "Extents of maps made of others", "statement": "The extents of a map segment and of a set of multi-level grids hold every point of their parts, whatever the poses of the parts, and are the least such box.", "quantifier": "for all lists of parts, extents and poses", "why_tests_cant": "any number of parts, all poses and extents, empty ones included", "anchors": ["src/maps/MapSegment.cpp l.18-48", "src/maps/MLSMap.cpp l.7-24"]}
{"id": "C181", "title": "Transforms and states of rigid bodies", "statement": "A state of a rigid body that is made a transform with uncertainty and copied back has its pose and both covariances; a transform that is copied to a state and read back is the same.", "quantifier": "for all poses, covariances and contents of the target", "why_tests_cant": "all real covariances and all poses, also with several quaternions for one rotation", "anchors": ["src/core/Transform.cpp l.14-22, l.289-301, l.315-322"]}
{"id": "C182", "title": "Copies of sets of multi-level grids", "statement": "cloneDeep makes a new map in the environment, at the place of the map, with the same grids, except for a copy of the active grid in the same frame; the map itself keeps its children. Assigning a map gives the members of the other and exactly its grids as children.", "quantifier": "for all environments reached by well-used calls and all lists of grids", "why_tests_cant": "environments of any size, any number of grids", "anchors": ["src/maps/MLSMap.cpp l.29-60, l.173-202", "src/core/Environment.cpp l.251-261, l.426-448"]}
{"id": "C183", "title": "The tree of meshes of env_icp", "statement": "env_icp links the meshes of an environment to a tree: every mesh exactly once, always by the highest number of pairs between a mesh of the tree and another one, starting with the mesh that has the most pairs. It has a result exactly if the meshes are connected, and no frame changes its place in the world.", "quantifier": "for all environments reached by well-used calls, all numbers of meshes and all matrices of pairs", "why_tests_cant": "any number of meshes, all graphs, frames nested in any way", "anchors": ["tools/env_icp.cpp l.15-148", "src/core/Environment.cpp l.404-424, l.750-777"]}
{"id": "C184", "title": "The window of enview", "statement": "Loading an environment shows it instead of the former one. Saving writes the environment that is shown to the chosen directory, and nothing if the dialog is cancelled. The alignment uses the numbers of the form and the clouds that were added to the model.", "quantifier": "for all sequences of loads and saves with all answers of the dialogs, all texts and all sequences of choices", "why_tests_cant": "unbounded sequences of actions, all texts", "anchors": ["viz/enview/ApplicationWindow.cpp l.44-55, l.137-169", "viz/enview/ICPHandler.cpp l.38-102"]}
{"id": "C185", "title": "Handlers and messages that interfere", "statement": "Each handler that is registered when an event is handed out receives it once, unless it is removed before its turn, also if handlers register or remove handlers meanwhile. flush processes each message of the queue exactly once, also if processing a message fails.", "quantifier": "for all lists of handlers, all their actions, all queues and all sequences of calls", "why_tests_cant": "handlers that act while events are handed out, exceptions, any number of messages", "anchors": ["src/core/EventSource.cpp l.10-29", "src/core/EventHandler.cpp l.75-117"]}
{"id": "C186", "title": "Key points as text", "statement": "Key points that are stored one after the other are loaded again with the same members, in the same order, whatever follows in the stream.", "quantifier": "for all lists of key points, all values, all texts that follow", "why_tests_cant": "all numbers, any length", "anchors": ["src/core/Features.hpp l.29-51"]}
{"id": "C187", "title": "Heights from point clouds", "statement": "The access object for point clouds gives the height of the point of all clouds of the environment that is nearest to a position in x and y, if it is near enough, and with a given height a point within the bounds on distance and height if there is one; the clouds may change.", "quantifier": "for all environments, positions and bounds, all results of the tree that meet its documentation", "why_tests_cant": "clouds of any size in all frames, all real bounds", "anchors": ["src/tools/GridAccess.cpp l.90-188"]}
{"id": "C188", "title": "Import of laser scans", "statement": "Importing a scan at a frame adds a scan with a frame of its own below the given one, with the pose of the file and all lines of the file, and nothing else changes; if the import fails nothing changes and nothing is lost.", "quantifier": "for all environments reached by well-used calls, all files", "why_tests_cant": "environments and files of any size, all poses", "anchors": ["src/maps/LaserScan.cpp l.44-108, l.116-134"]}
{"id": "C189", "title": "Surfaces from point clouds", "statement": "The reconstruction of a surface gives, as the only content of the output, the triangles of the surface of the points with normals of the input, and reports whether it succeeded.", "quantifier": "for all clouds, all results of the geometry library, all contents of the output", "why_tests_cant": "clouds of any size, any behaviour of the external library", "anchors": ["src/operators/SurfaceReconstruction.cpp l.33-47, l.70-221"]}
{"id": "C190", "title": "Pairs of points with normals", "statement": "With the filter for edges and normals each pair of the alignment consists of a point and its nearest point of the model, neither of them at an edge, with normals that differ by less than a sixteenth of a turn; a point gets a pair if there is a point of the model in reach that fits.", "quantifier": "for all clouds, models, densities and bounds, all results of the tree that meet its documentation", "why_tests_cant": "clouds of any size, all normals, at the limit of the angle", "anchors": ["icp/icp.hpp l.91-97, l.173-264"]}
{"id": "C191", "title": "Patches with slope", "statement": "A patch with slope that is made of any number of measurements, merged in any order, has their number and their lowest and highest height and depends on nothing else than the measurements. Its heights are those of the plane with the least weighted squared distance from them; measurements on a plane give the heights, the normal and the slope of the plane. Its deviation is the estimate without bias and its mean lies between the lowest and the highest measurement.", "quantifier": "for all numbers of measurements, all heights and deviations, all orders of merging", "why_tests_cant": "any number of real measurements, all orders, the limits of three measurements and of measurements on a line", "anchors": ["src/maps/MLSPatch.hpp l.66-105, l.202-217, l.245-264", "src/maps/MLSGrid.cpp l.446-470, l.523-542, l.590-600"]}
{"id": "C192", "title": "Slopes of cells", "statement": "The operator for slopes gives for each cell that is not at the border and has a patch with enough measurements, and at least five neighbours with such patches, the slope of the plane that is nearest to the heights of the cell and its neighbours; on a plane it is the slope of the plane. The operator for traversability makes cells with steep slopes or high steps obstacles and divides the slopes below evenly into the classes.", "quantifier": "for all grids, window sizes, scales and settings", "why_tests_cant": "grids of any size, all real heights, any set of known neighbours", "anchors": ["src/operators/MLSSlope.cpp l.130-206, l.240-256", "src/operators/TraversabilityGrassfire.cpp l.37-161"]}
{"id": "C193", "title": "Boxes beside the frames", "statement": "In the tree beside the visualization the box of a frame is checked exactly if the frame is to be seen: new frames are, clicks on the box and the actions hide and unhide change it for the picked frames only. A frame is drawn exactly if its box and the boxes of all frames above it are checked, whatever happens in the environment.", "quantifier": "for all histories of events, clicks and selections", "why_tests_cant": "interleavings of any length of changes of the environment and of actions of the user", "anchors": ["viz/ItemManipulator.cpp l.63-138", "viz/FrameNodeVisualization.cpp l.118-132", "viz/TreeViewListener.cpp l.38-64, l.86-97"]}
{"id": "C194", "title": "Tools that add an operator", "statement": "env_grid_to_mls, env_mls_to_grid and env_grid_illumination write the environment with exactly one more item, the operator with the given maps as input and output, and print its id, which was not in use; everything else is as before. With ids that are not in the environment or those of items of another class they report an error and write nothing. Using a tool again replaces the operator.", "quantifier": "for all environments reached by well-used calls, all ids and all classes of items", "why_tests_cant": "environments of any size, repeated uses, wrong ids of all kinds", "anchors": ["tools/env_grid_to_mls.cpp l.18-43", "tools/env_mls_to_grid.cpp l.18-43", "tools/env_grid_illumination.cpp l.18-49", "src/operators/GridFloatToMLS.cpp l.24-47"]}
{"id": "C195", "title": "Adding data in enview", "statement": "Adding a file with points puts a new cloud into the selected frame, or into a new frame below the root if no frame is selected, and changes nothing else; if the dialog is cancelled or the file cannot be opened nothing changes. A point that is picked is added to the selected cloud at the place that was picked.", "quantifier": "for all environments reached by well-used calls, all selections and files, all frames and clouds", "why_tests_cant": "environments of any size, all selections, all transforms", "anchors": ["viz/enview/ApplicationWindow.cpp l.113-135, l.171-179", "viz/TreeViewListener.cpp l.10-13", "src/maps/Pointcloud.cpp l.113-129"]}
{"id": "C196", "title": "Creating grids", "statement": "GridBase::create of a class of grids gives a grid of this class without bands that has exactly the given size, scale and offset; of an unknown class it throws. env_create_grid writes the environment with one more item, the grid that the command line describes with exactly the given bands in the given frame, or with the shape and the frame of the grid given by -map, and changes nothing else. Sizes that are negative and classes that are no grids are refused with a message.", "quantifier": "for all environments reached by well-used calls, all classes, sizes, scales, offsets, bands and command lines", "why_tests_cant": "environments of any size, all texts and numbers", "anchors": ["src/maps/GridBase.cpp l.43-56, l.572-594", "tools/env_create_grid.cpp l.122-159", "src/core/SerializationFactory.cpp l.22-44"]}
{"id": "C197", "title": "Settings of the visualizers", "statement": "After any changes each setting of the visualizers for surfaces and for point clouds has the value that was given last, colours in all 16 bits of their components; an interval of 0 counts as 1, no change affects another setting, and each is signalled once under the name of its property, so that the items are drawn again (C146). What is drawn has the colours that are set.", "quantifier": "for all histories of changes, all colours and numbers", "why_tests_cant": "all colours of 16 bits for each component, any rounding to float, histories of any length", "anchors": ["viz/MLSVisualization.cpp l.16-27, l.460-607", "viz/PointcloudVisualization.cpp l.15-23, l.197-270"]}
{"id": "C198", "title": "Adding a scan in enview", "statement": "Adding a scan file puts exactly four items into the environment: the scan in a new frame below the root that has the pose of the file, its mesh in the same frame, and the operator that makes the mesh, with the scan as its only input and the mesh as its only output. Nothing else changes; if the dialog is cancelled or the file is no scan nothing changes at all.", "quantifier": "for all environments reached by well-used calls, all files", "why_tests_cant": "environments of any size, all files", "anchors": ["viz/enview/ApplicationWindow.cpp l.74-111", "src/operators/ScanMeshing.cpp l.48-60, l.113-118"]}
{"id": "C199", "title": "Size and place of the handles", "statement": "The handles with which a frame is moved are always drawn at the place of the frame, the handle for rotations turned as the frame and smaller than the other by a fixed factor. Whenever they are drawn they are 240 pixels large, whatever the distance of the camera; events and dragging do not change their size.", "quantifier": "for all histories of changes, drags and drawings, all transforms", "why_tests_cant": "all transforms, histories of any length", "anchors": ["viz/FrameNodeManipulator.cpp l.15-27, l.43-83, l.115-135, l.144-193"]}
{"id": "C200", "title": "Tools that derive a map", "statement": "env_mls_slopes, env_mls_to_pointcloud and env_traversability write the environment with the new map in the frame of the map that is meant, the one with the given id or the only one of its class, and with the operator that connects them; nothing else changes. If there is no such map, or several and no id is given, nothing is written and the error is reported.", "quantifier": "for all environments reached by well-used calls, all words of the command line and all classes of items", "why_tests_cant": "environments of any size, all ids", "anchors": ["tools/env_mls_slopes.cpp l.13-59", "tools/env_mls_to_pointcloud.cpp l.14-64", "tools/env_traversability.cpp l.24-67", "src/core/Environment.hpp l.113-141, l.219-238", "src/operators/MLSSlope.cpp l.67-74", "src/operators/SimpleTraversability.cpp l.90-112"]}
{"id": "C201", "title": "Settings of new operators have values", "statement": "However an operator is made, with whichever constructor and whatever setters are called later, each setting that it reads has a value: the one that was set last, else that of the constructor. So its result depends on its inputs and settings only.", "quantifier": "for all classes of operators with settings, their constructors, both ways to make them and all histories of setters", "why_tests_cant": "memory that was never written often holds zero in tests; histories of any length", "anchors": ["src/operators/MLSSlope.hpp l.23-52", "src/operators/TraversabilityGrowClasses.hpp l.8-23", "src/operators/TraversabilityGrassfire.hpp l.14-58", "src/core/Environment.hpp l.322-328", "src/core/Serialization.hpp l.20-24"]}
{"id": "C202", "title": "Where the grassfire begins and what it writes", "statement": "The search for drivable cells begins at the cell with a patch for the robot that is nearest to the start position, at most nine cells away, on the patch whose surface is nearest to the height of the start. At the end each cell that was reached has the probability n / N, at most 1, for n measurements of N nominal ones, and all others 0. The operator returns whether it found a start.", "quantifier": "for all surface maps, start positions, frames and settings", "why_tests_cant": "all maps and positions; ties and deviations of any size", "anchors": ["src/operators/TraversabilityGrassfire.cpp l.14-34, l.222-298, l.404-417, l.446-468", "src/core/Operator.hpp l.48", "src/maps/GridBase.cpp l.378-390"]}
{"id": "C203", "title": "Polygon maps can be copied and destroyed", "statement": "Sets of polygons and maps made of them can be created, filled, queried, copied, assigned and destroyed in any order: no deleted memory is used or deleted again, and when the last set is gone its data is freed.", "quantifier": "all histories of creating, copying, assigning and destroying sets and polygons, adding and querying", "why_tests_cant": "the histories are unbounded, and a double deletion or a use after deletion often goes unnoticed in a test", "anchors": ["src/maps/PolygonMap.cpp:58-61", "src/maps/PolygonMap.cpp:99-118", "src/maps/PolygonMap.hpp:17-66", "src/core/EnvironmentItem.hpp:18-30"]}
{"id": "C204", "title": "Files are closed", "statement": "After each call that reads or writes the file of a grid or a scene, whether it succeeds or throws, no more files are open than before. So a program can read and write any number of files one after the other.", "quantifier": "all grids, files, scenes and histories of calls, and every limit for the number of open files", "why_tests_cant": "a file that stays open shows only after as many calls as the process may open files, and the paths with exceptions are many", "anchors": ["src/maps/Grid.hpp:505-587", "src/maps/Grid.hpp:589-691", "src/maps/GridBase.cpp:497-565", "src/core/Serialization.cpp:321-345", "src/core/Serialization.cpp:347-479", "src/core/Serialization.cpp:494-648"]}
{"id": "C205", "title": "Updating all operators", "statement": "After updateOperators each output of an operator is what the operator computes from its inputs as they are then, also along chains of operators; the other layers are unchanged, and each output is announced as modified once.", "quantifier": "all graphs of operators, ids, contents of layers and operators that compute their outputs from their inputs", "why_tests_cant": "graphs and ids are unbounded; whether a chain is updated depends on the order of the ids as texts, which changes from 9 to 10", "anchors": ["src/core/Environment.cpp:729-742", "src/core/Environment.hpp:307-318", "src/core/Environment.cpp:399-402"]}
{"id": "C206", "title": "Dirty and immutable layers", "statement": "isDirty of a generated layer tells that its sources changed and it did not; updateFromOperator recomputes it exactly then, and afterwards isDirty is false. A layer that was made immutable stays so and cannot be changed.", "quantifier": "all operators, layers, contents and histories of calls", "why_tests_cant": "the flags depend on the whole history; a test looks at one call", "anchors": ["src/core/Layer.cpp:16-43", "src/core/Layer.cpp:76-124", "src/core/Layer.hpp:43-90", "src/core/Environment.cpp:718-742"]}
{"id": "C207", "title": "Filters of event handlers", "statement": "A handler without a filter gets every message it receives. A handler with a filter gets exactly what its filter hands it directly and the messages its filter lets pass, in order; filters and messages of other handlers do not matter. A filter can be set, replaced and taken away at any time.", "quantifier": "for all handlers, all filters (also with memory), all messages and all sequences of calls", "why_tests_cant": "any number of handlers and filters, filters with any behaviour, any order of calls", "anchors": ["src/core/EventHandler.cpp l.9-28", "src/core/EventHandler.hpp l.20-69"]}
{"id": "C208", "title": "Items and layers of one class", "statement": "The queries for one class tell the truth after any calls: getItem<T>() is the only attached item of the class and throws if there are several ones or none, getItem<T>(id) is the item with that id if it is of the class, getItems<T>() lists the attached items of the class once each, getInput<T>() and getOutput<T>() give the only linked layer of the class or throw, getGeneratedFrom<T>() lists the layers made from a layer, and a layer is the output of one operator only, which getGenerator returns or else throws.", "quantifier": "all environments that legal calls can reach, all classes, ids, operators and layers", "why_tests_cant": "all histories of an environment and all classes of items", "anchors": ["src/core/Environment.hpp l.105-142", "src/core/Environment.hpp l.169-274", "src/core/Environment.hpp l.303-318", "src/core/Environment.cpp l.681-727", "src/core/Layer.cpp l.109-118"]}
{"id": "C209", "title": "Names of classes", "statement": "The name that is saved for an item gives an item of the same class when it is loaded, whatever the order in which the classes were registered; names of older versions still work, classes that are registered without a namespace are found in each namespace, and unknown names are refused.", "quantifier": "for all classes of the library, all orders of registration, all registries and all names", "why_tests_cant": "the order of static initialisation differs between builds; names can be any text", "anchors": ["src/core/SerializationFactory.cpp l.16-49", "src/core/Serialization.hpp l.39-48", "src/core/EnvironmentItem.hpp l.10-16", "src/maps/Grids.cpp l.19-25", "src/maps/Grid.hpp l.346"]}
{"id": "C210", "title": "Cells of a traversability grid", "statement": "A cell of a traversability grid has the class that was registered last for the number written to it last, and the probability written to it last; both are independent of each other and of other cells, cells that were never written have number 0 and probability 0, and a number without a class is reported.", "quantifier": "for all sizes of grids, all classes, numbers, cells and sequences of calls", "why_tests_cant": "any order of writing, registering, reading and removing bands", "anchors": ["src/maps/TraversabilityGrid.cpp l.155-247", "src/maps/TraversabilityGrid.hpp l.133-190", "src/core/Layer.cpp l.152-167"]}
