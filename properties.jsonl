{"id": "C01", "title": "Boundary index encoding is a lossless tag", "statement": "For an unsigned index type, tagging a cell number with makeBoundaryIndex and untagging it with extractBoundaryIndex returns the number; tagged numbers test as boundary and (below the maximum) not as invalid; untagged numbers test as neither; two different numbers never get the same tagged value. The invalid index itself tests as boundary.", "quantifier": "every index width and every index value of that width", "why_tests_cant": "2^64 values times every width; an error in one bit pattern (e.g. the collision of the largest tag with INVALID_INDEX) is invisible to samples", "anchors": ["src/GTMesh/UnstructuredMesh/UnstructuredMeshDefine.h: isInvalidIndex, isBoundaryIndex, makeBoundaryIndex, extractBoundaryIndex"]}
{"id": "C02", "title": "A face remembers at most its first two cells, left then right", "statement": "Starting from a face without cells, after any sequence of setCellIndex calls the left cell is the first valid index offered and the right cell the second; every further call returns false and changes nothing, an invalid index is never stored; cellsOK is true exactly when two valid indices have been offered.", "quantifier": "every sequence of setCellIndex calls", "why_tests_cant": "the claim is about all histories of calls of any length", "anchors": ["src/GTMesh/UnstructuredMesh/MeshElements/CellConnection.h: CellConnection::setCellIndex, cellsOK"]}
{"id": "C03", "title": "The cell on the other side of a face", "statement": "getOtherCellIndex of the left cell is the right cell and vice versa, it is an involution when both cells differ, it throws for an index that is neither, and for the invalid index; swapCellsLR exchanges the two cells and does not change the answer of getOtherCellIndex when the cells differ.", "quantifier": "every connection state and every argument", "why_tests_cant": "ranges over all pairs of indices and all arguments, including invalid and equal ones", "anchors": ["src/GTMesh/UnstructuredMesh/MeshElements/CellConnection.h: getOtherCellIndex, swapCellsLR"]}
{"id": "C04", "title": "Per-cell successor pointers of a face are independent", "statement": "After setNextBElem(next,cell) returns true, getNextBElem(cell) returns next and the successor with respect to the other cell of the face is unchanged; a third cell is refused with false and no change. After any sequence of setNextBElem calls on a fresh face, getNextBElem(c) is the value of the last call for c, for each of the first two distinct cells.", "quantifier": "every sequence of setNextBElem calls on a fresh face", "why_tests_cant": "all call histories, with interleavings of two cells and refusals", "anchors": ["src/GTMesh/UnstructuredMesh/MeshElements/CellBoundaryConnection.h: setNextBElem, getNextBElem"]}
{"id": "C05", "title": "Swapping the cells of a face keeps each cell's successor", "statement": "After swapCellsLR the successor of a boundary element with respect to each adjacent cell is the same as before.", "quantifier": "every face with two different adjacent cells", "why_tests_cant": "needs all pointer values; (the code violates it: swapCellsLR does not swap the successor pointers)", "anchors": ["src/GTMesh/UnstructuredMesh/MeshElements/CellConnection.h: swapCellsLR", "src/GTMesh/UnstructuredMesh/MeshElements/CellBoundaryConnection.h: getNextBElem"]}
{"id": "C06", "title": "A statically reserved sub-element list behaves as a bounded list", "statement": "After any sequence of addSubelement calls the container holds exactly the first Reserve accepted indices in order, size() is their number, iteration yields exactly them, and a call on a full container throws and leaves the container unchanged.", "quantifier": "every capacity and every sequence of additions", "why_tests_cant": "all capacities and all histories, including after the overflow", "anchors": ["src/GTMesh/UnstructuredMesh/MeshElements/MeshElement.h: SubelementContainer::addSubelement,size,begin,end"]}
{"id": "C07", "title": "setupBoundaryCells gives every face two cells", "statement": "After setupBoundaryCells every face has two valid cells; faces that had two are unchanged; each missing side is filled with its own boundary cell, boundary cells are numbered consecutively, the k-th boundary cell index decodes to position k, sides are never shared and the number of new boundary cells is the number of missing sides. A second call changes nothing.", "quantifier": "every list of faces with any pattern of missing cells", "why_tests_cant": "all mesh sizes and all patterns of missing sides; numbering is a global invariant", "anchors": ["src/GTMesh/UnstructuredMesh/MeshElements/MeshElements.h: setupBoundaryCells, appendBoundaryCell"]}
{"id": "C08", "title": "clear() returns the mesh to the empty state", "statement": "After clear() the mesh holds no element of any dimension and no boundary cell.", "quantifier": "every mesh", "why_tests_cant": "for all prior states; (the code violates it: boundary cells survive clear())", "anchors": ["src/GTMesh/UnstructuredMesh/MeshElements/MeshElements.h: MeshElements::clear, BoundaryCells"]}
{"id": "C09", "title": "Walking a cell's boundary visits each boundary face exactly once", "statement": "If the faces of a cell are linked in a cycle, iterating over the cell's boundary visits precisely the faces of the cycle, each once, beginning with the cell's boundary element, and stops. On any finite mesh whatsoever the walk either stops with a duplicate-free list, throws, or never returns; a walk that has not stopped after as many steps as there are faces never returns.", "quantifier": "every mesh, every cell, every chain length", "why_tests_cant": "cycle length is unbounded and the non-terminating case cannot be observed by a test", "anchors": ["src/GTMesh/UnstructuredMesh/MeshFunctions/MeshApply.h: MeshRun<CurrentDim==MeshDim>", "src/GTMesh/UnstructuredMesh/MeshElements/CellBoundaryConnection.h: getNextBElem"]}
{"id": "C10", "title": "MeshApply visits exactly the incidence relation", "statement": "MeshApply<S,T>::apply calls the functor on (s,t) exactly once for each descending chain of sub-elements from s to t; swapping the dimensions yields the same calls with the meaning of S and T exchanged (the transposed relation), in the order of the higher-dimensional elements.", "quantifier": "every mesh, every pair of dimensions", "why_tests_cant": "all topologies and all dimension pairs", "anchors": ["src/GTMesh/UnstructuredMesh/MeshFunctions/MeshApply.h: MeshApply::apply, MeshRun"]}
{"id": "C11", "title": "Connections in ascending order", "statement": "MeshConnections<S,T,ORDER_ASCEND>::connections(mesh)[s] is the strictly increasing list of precisely those T-elements incident with s; it has one entry per S-element; t is in the list of s in connections<S,T> iff s is in the list of t in connections<T,S>.", "quantifier": "every mesh, every pair of dimensions", "why_tests_cant": "all topologies; relation symmetry is a global property", "anchors": ["src/GTMesh/UnstructuredMesh/MeshFunctions/MeshConnections.h: MeshConnections<..., ORDER_ASCEND>"]}
{"id": "C12", "title": "Connections in original order", "statement": "MeshConnections<S,T,ORDER_ORIGINAL>::connections(mesh)[s] has the same elements as the ascending version without repetition, in the order of the first visit.", "quantifier": "every mesh and every pair of dimensions", "why_tests_cant": "all visiting orders with arbitrary repetitions", "anchors": ["src/GTMesh/UnstructuredMesh/MeshFunctions/MeshConnections.h: MeshConnections<..., ORDER_ORIGINAL>"]}
{"id": "C13", "title": "Neighborhood is the two-step relation without the element itself", "statement": "MeshNeighborhood<S,C,T>[s] holds precisely the T-elements that share a C-element with s, without s itself when S==T, without repetition; when S==T the relation is symmetric and irreflexive; the ORIGINAL order variant has the same members.", "quantifier": "every mesh, every triple of dimensions", "why_tests_cant": "all topologies", "anchors": ["src/GTMesh/UnstructuredMesh/MeshFunctions/MeshNeighborhood.h: MeshNeighborhood::neighbors"]}
{"id": "C14", "title": "Greedy coloring is proper", "statement": "In the coloring returned by ColorMesh<GREEDY>, two different elements that share a connecting element never have the same color; every element has a color; this holds however often the palette has to grow beyond its initial 16 colors.", "quantifier": "every mesh, including ones requiring any number of colors", "why_tests_cant": "the palette growth path needs more than 16 mutually adjacent elements; all graphs", "anchors": ["src/GTMesh/UnstructuredMesh/MeshFunctions/MeshColoring.h: ColorMesh<..., METHOD_GREEDY>"]}
{"id": "C15", "title": "Greedy coloring is first-fit and bounded by the degree", "statement": "Each element receives the smallest color not used by an earlier element sharing a connecting element, hence its color is at most its number of earlier neighbors, and the number of colors is at most the maximal number of neighbors plus one.", "quantifier": "every mesh", "why_tests_cant": "all graphs, all orders", "anchors": ["src/GTMesh/UnstructuredMesh/MeshFunctions/MeshColoring.h: ColorMesh<..., METHOD_GREEDY>"]}
{"id": "C16", "title": "Random coloring is proper and does not enlarge the palette", "statement": "For every outcome of the random generator the coloring by METHOD_RANDOM is proper and uses only colors below the number of colors of the greedy coloring.", "quantifier": "every mesh and every sequence of random numbers", "why_tests_cant": "all outcomes of the random generator", "anchors": ["src/GTMesh/UnstructuredMesh/MeshFunctions/MeshColoring.h: ColorMesh<..., METHOD_RANDOM>"]}
{"id": "C17", "title": "A mesh data container has one entry per element of its dimension", "statement": "After allocateData(mesh, init) each array of the container has exactly as many entries as the mesh has elements of the array's dimension; entries that existed before keep their value and new ones have the initial value; getDataByDim<d> is the first array declared with dimension d; writing through one array never changes another.", "quantifier": "every list of dimensions, every mesh sizes, every previous content", "why_tests_cant": "all packs of dimensions and all sequences of reallocation", "anchors": ["src/GTMesh/UnstructuredMesh/MeshDataContainer/MeshDataContainer.h: MeshDataContainer::allocateData, getDataByDim, getDataByPos, DimensionPos"]}
{"id": "C18", "title": "FPMA reader builds a consistent mesh", "statement": "Reading a FPMA description into an empty mesh gives: exactly one edge per unordered vertex pair used by consecutive face vertices; each face's sub-elements are, in order, the edges between its consecutive vertices including the closing one; walking each cell's boundary yields exactly the listed faces in the listed order; each face knows the cells that list it, the first as its left and the second as its right side.", "quantifier": "every well-formed FPMA description of any size", "why_tests_cant": "all meshes; edge identification is a global dictionary property", "anchors": ["src/GTMesh/UnstructuredMesh/MeshIO/MeshReader/FPMAMeshReader.h: loadFaces, loadCells, loadVertices, loadFromStream"]}
{"id": "C19", "title": "Loading replaces the previous content", "statement": "Loading a file into a mesh that already holds data gives the same mesh as loading it into an empty mesh.", "quantifier": "every previous content and every file", "why_tests_cant": "all histories of loads; (violated by the FPMA reader, which does not clear the mesh; satisfied for elements by the VTK reader)", "anchors": ["src/GTMesh/UnstructuredMesh/MeshIO/MeshReader/FPMAMeshReader.h: loadFromStream", "src/GTMesh/UnstructuredMesh/MeshIO/MeshReader/VTKMeshReader.h: loadFromStream"]}
{"id": "C20", "title": "FPMA writer reconstructs each face's vertex cycle", "statement": "For a face whose edges form a simple closed polygon, in whatever order and orientation the edges are stored, the writer terminates and lists each vertex of the polygon once, consecutive vertices (cyclically) being joined by an edge of the face.", "quantifier": "every polygon, every order of its edges, every orientation of each edge", "why_tests_cant": "n!*2^n storage orders for every n; termination", "anchors": ["src/GTMesh/UnstructuredMesh/MeshIO/MeshWriter/FPMAMeshWriter.h: indexFace"]}
{"id": "C21", "title": "FPMA write/read round trip", "statement": "Writing a mesh to FPMA and reading it back gives a mesh with the same vertices, whose i-th face has the same vertex cycle up to rotation and direction, and whose i-th cell has the same faces in the same order.", "quantifier": "every valid 3D mesh", "why_tests_cant": "all meshes", "anchors": ["src/GTMesh/UnstructuredMesh/MeshIO/MeshWriter/FPMAMeshWriter.h: writeToStream", "src/GTMesh/UnstructuredMesh/MeshIO/MeshReader/FPMAMeshReader.h: loadFromStream"]}
{"id": "C22", "title": "VTK 2D reader builds a consistent mesh", "statement": "Reading VTK cells into an empty 2D mesh gives exactly one edge per unordered vertex pair; each edge's left cell is the first and right cell the last cell using it; when each edge is used by at most two cells, the boundary of every cell is a closed chain visiting precisely the edges of its polygon in file order.", "quantifier": "every list of polygons", "why_tests_cant": "all meshes; all sharing patterns", "anchors": ["src/GTMesh/UnstructuredMesh/MeshIO/MeshReader/VTKMeshReader.h: VTKMeshReader<2>::loadCells"]}
{"id": "C23", "title": "VTK 2D writer recovers each cell's polygon; write/read round trip", "statement": "For a mesh produced by the reader the 2D writer lists each cell's vertices as a rotation of the polygon or its reverse, terminates, and re-reading gives polygons equal up to rotation and reversal.", "quantifier": "every 2D mesh in which each edge is shared by at most two cells", "why_tests_cant": "all meshes", "anchors": ["src/GTMesh/UnstructuredMesh/MeshIO/MeshWriter/VTKMeshWriter.h: VTKMeshWriter<2>::indexCell, indexMesh, writeToStream"]}
{"id": "C24", "title": "VTK 3D cell templates are closed surfaces", "statement": "In each cell template of the 3D VTK reader every local edge belongs to exactly two faces, every face's edges form one closed polygon, all vertices are used and Euler's formula holds; therefore each loaded cell is bounded by a closed surface.", "quantifier": "every template (the finite table) and every assignment of global vertices to a cell", "why_tests_cant": "the lifting to arbitrary vertex numbers is unbounded", "anchors": ["src/GTMesh/UnstructuredMesh/MeshIO/MeshReader/VTKMeshReader.h: VTKMeshReader<3>::TypeEdgesFaces"]}
{"id": "C25", "title": "VTK 3D reader identifies shared faces", "statement": "Reading cells into an empty 3D mesh, two cells share a face index exactly when the sets of edges of the two template faces coincide; an edge index is created once per unordered vertex pair; each face's left cell is the first, its right cell the last cell using it; a cell with a vertex count without template is refused with an exception.", "quantifier": "every list of cells", "why_tests_cant": "all meshes", "anchors": ["src/GTMesh/UnstructuredMesh/MeshIO/MeshReader/VTKMeshReader.h: VTKMeshReader<3>::loadCells"]}
{"id": "C26", "title": "Cell type codes survive write and read", "statement": "Each native cell type that the writer can export is mapped to a VTK code that the reader maps back to the same native type; the reader rejects unknown VTK codes.", "quantifier": "every native type, every code read from a file", "why_tests_cant": "all integers as codes; (the rejection is violated: the exception object is created but not thrown)", "anchors": ["src/GTMesh/UnstructuredMesh/MeshIO/MeshReader/VTKMeshReader.h: cellTypes, loadCellTypes", "src/GTMesh/UnstructuredMesh/MeshIO/MeshWriter/VTKMeshWriter.h: cellTypes"]}
{"id": "C27", "title": "Exported cells map back to their original cells", "statement": "When cells are tessellated for export, the exported cells appear in the order of the original cells, each tessellated cell contributes one tetrahedron per (face, edge) pair, all others one, and the backward mapping gives for each extra exported cell its original cell; a data column written with the mesh has exactly one entry per exported cell, equal to the value of the cell it comes from.", "quantifier": "every mesh with any mixture of tessellated and plain cells", "why_tests_cant": "all mixtures and sizes; index bookkeeping off-by-one", "anchors": ["src/GTMesh/UnstructuredMesh/MeshIO/MeshWriter/VTKMeshWriter.h: VTKMeshWriter<3>::indexMesh", "src/GTMesh/UnstructuredMesh/MeshDataContainer/MeshDataIO/VTKMeshDataWriter.h: writeColumn"]}
{"id": "C28", "title": "The declared CELLS size is the real one", "statement": "The second number of the CELLS header equals the number of integers that follow it, the first the number of cell lines, and CELL_TYPES has as many entries.", "quantifier": "every mesh", "why_tests_cant": "all meshes", "anchors": ["src/GTMesh/UnstructuredMesh/MeshIO/MeshWriter/VTKMeshWriter.h: indexMesh, writeToStream"]}
{"id": "C29", "title": "A writer never writes stale connectivity", "statement": "If the mesh changed between two calls of the same writer object, the second call writes the connectivity of the current mesh.", "quantifier": "every pair of meshes and every hash function on indices", "why_tests_cant": "requires a collision of the mesh signature; (violated: the signature is an XOR of sub-element hashes, blind to permutation and to pairs, and to cell types)", "anchors": ["src/GTMesh/UnstructuredMesh/MeshElements/MeshElements.h: computeSignature", "src/GTMesh/UnstructuredMesh/MeshIO/MeshWriter/VTKMeshWriter.h: writeToStream", "src/GTMesh/UnstructuredMesh/MeshIO/MeshWriter/FPMAMeshWriter.h: writeToStream"]}
{"id": "C30", "title": "Binary serialization round trip", "statement": "Deserializing the bytes written for a value into a target of the same type gives the value back and consumes exactly the written bytes, for simple types, strings, vectors of simple and compound types, pairs, tuples, sets, maps, arrays and traited classes, arbitrarily nested (sets and maps: into an empty target; arrays: of equal length).", "quantifier": "every type built from these constructors and every value", "why_tests_cant": "unbounded nesting of types and sizes", "anchors": ["src/GTMesh/BinarySerializer/BinarySerializer.h: write, read, addNext, readNext", "src/GTMesh/BinarySerializer/Serializers/"]}
{"id": "C31", "title": "Values are read back in the order written", "statement": "After writing values v1..vn to an empty serializer, reading with the same types in the same order yields v1..vn, and then the cursor stands at the end; whatever is appended later does not change what the earlier reads return.", "quantifier": "every sequence of values of any types", "why_tests_cant": "all sequences; self-delimitation of every encoding", "anchors": ["src/GTMesh/BinarySerializer/BinarySerializer.h: operator<<, operator>>"]}
{"id": "C32", "title": "Reading past the end restarts at the beginning", "statement": "When the cursor is at the end, the next read starts again at the first value; resetIterator has the same effect; after clear() and new writes reads start at the first new value.", "quantifier": "every content and cursor history", "why_tests_cant": "all sequences of operations", "anchors": ["src/GTMesh/BinarySerializer/BinarySerializer.h: resetIterator, isIteratorValid, resetIteratorIfNotValid, clear"]}
{"id": "C33", "title": "Deserializing into a non-empty container replaces its content", "statement": "Reading a container from the serializer into a variable gives the stored container whatever the variable held before.", "quantifier": "every container type and previous content", "why_tests_cant": "all prior contents; (violated by map and set, which merge)", "anchors": ["src/GTMesh/BinarySerializer/Serializers/SerializeIterable.h: deserialize (Map, Set)", "src/GTMesh/BinarySerializer/Serializers/SerializeCompactContainer.h"]}
{"id": "C34", "title": "Reading never touches memory outside the stored bytes", "statement": "A read from a serializer holding fewer bytes than the requested value needs is reported instead of accessing memory outside the buffer.", "quantifier": "every buffer and every requested type", "why_tests_cant": "out-of-bounds reads are undefined behaviour and often unobservable; (violated: no bounds checks)", "anchors": ["src/GTMesh/BinarySerializer/BinarySerializer.h: readNext", "src/GTMesh/BinarySerializer/Serializers/SerializeSimple.h", "src/GTMesh/BinarySerializer/Serializers/SerializeCompactContainer.h"]}
{"id": "C35", "title": "Points form a vector space", "statement": "Vertex addition, subtraction, scaling and comparison satisfy the vector-space laws component-wise; scalar product is bilinear, symmetric and positive; compound assignments agree with the binary operators; assigning an initializer list of any length truncates or zero-pads.", "quantifier": "every dimension, every coordinate values (exact arithmetic)", "why_tests_cant": "all dimensions and coordinates", "anchors": ["src/GTMesh/NumericStaticArray/Vertex.h", "src/GTMesh/NumericStaticArray/InlineArrayOperations.h"]}
{"id": "C36", "title": "Vector product", "statement": "vectorProduct of two 3D vectors is orthogonal to both, antisymmetric, bilinear, and its squared length is |a|^2|b|^2-(a.b)^2.", "quantifier": "all vectors over a commutative ring", "why_tests_cant": "all coordinates", "anchors": ["src/GTMesh/NumericStaticArray/Vector.h: vectorProduct"]}
{"id": "C37", "title": "Gram-Schmidt orthogonalizes", "statement": "gramSchmidt turns linearly independent vectors into pairwise orthogonal vectors with the same first vector direction and the same span; the normalizing variant yields unit vectors and returns the norms of the orthogonal components; their product is the volume.", "quantifier": "every number of vectors in every dimension (exact real arithmetic)", "why_tests_cant": "all inputs", "anchors": ["src/GTMesh/NumericStaticArray/GramSchmidt.h"]}
{"id": "C38", "title": "Element centers", "statement": "The center of an edge is the midpoint of its vertices; the center of a higher element is the arithmetic mean of the centers of its sub-elements; centers commute with translation of the mesh and lie in every half-space containing all vertices.", "quantifier": "every mesh, all coordinates (exact arithmetic)", "why_tests_cant": "all meshes", "anchors": ["src/GTMesh/UnstructuredMesh/MeshFunctions/ComputeCenters.h"]}
{"id": "C39", "title": "Element measures", "statement": "Edge length, face area and cell volume are non-negative and invariant under translation; the 2D cell area equals the absolute shoelace area when the center sees every edge from the same side; the area of a planar convex face in 3D likewise; in every dimension the measure of an element is the sum of the volumes of the cones over its sub-elements, and the measure of a simplex is its volume.", "quantifier": "every mesh, all coordinates (exact arithmetic)", "why_tests_cant": "all meshes and coordinates", "anchors": ["src/GTMesh/UnstructuredMesh/MeshFunctions/ComputeMeasures.h"]}
{"id": "C40", "title": "Face normals", "statement": "The 2D normal of a non-degenerate edge is a unit vector perpendicular to it, reversing the edge reverses it; the 3D normal is orthogonal to the face edge and to the in-face direction, is a unit vector and points from the left cell to the right one.", "quantifier": "every mesh, all coordinates (exact arithmetic)", "why_tests_cant": "all coordinates", "anchors": ["src/GTMesh/UnstructuredMesh/MeshFunctions/ComputeNormals.h"]}
{"id": "C41", "title": "Cell distances", "statement": "The distance assigned to each face is the distance between the centers of its two cells, or between the cell center and the face center when a side has no cell; it is non-negative and does not change when left and right are exchanged, while the center difference changes its sign.", "quantifier": "every mesh, every pattern of missing/boundary cells", "why_tests_cant": "all patterns of boundary encodings", "anchors": ["src/GTMesh/UnstructuredMesh/MeshFunctions/CellsDistance.h", "src/GTMesh/UnstructuredMesh/MeshFunctions/ComputeCellsCenterDifference.h"]}
{"id": "C42", "title": "Edge orientation test", "statement": "In 2D edgeIsLeft for a cell center is true exactly when the center lies to the left of the directed edge; reversing the edge negates it for non-degenerate positions; it is translation invariant.", "quantifier": "all coordinates (exact arithmetic)", "why_tests_cant": "all coordinates", "anchors": ["src/GTMesh/UnstructuredMesh/MeshFunctions/EdgesOrientation.h: edgeIsLeft"]}
{"id": "C43", "title": "Compile-time selection picks the first match", "statement": "ClassSelector selects the first class of the list that fits and the last class when none of the others does; constexprFor calls the functor for indices 0..n-1 in order; DimensionPos is the first position of the dimension.", "quantifier": "every list", "why_tests_cant": "all lists of alternatives", "anchors": ["src/GTMesh/Utils/ClassSelector.h", "src/GTMesh/Utils/ConstexprFor.h", "src/GTMesh/UnstructuredMesh/MeshDataContainer/MeshDataContainer.h: DimensionPos"]}
{"id": "C44", "title": "Arithmetic on traited classes is member-wise", "statement": "For a class with arithmetic traits every operator and function acts on each listed member independently, including when the result aliases an operand and when a temporary is passed; aggregation max, min and sum are those of the flattened members.", "quantifier": "every class (list of members of any nesting) and every values", "why_tests_cant": "all structures; (violated by pow(Real,class) that exchanges base and exponent and by operator-(const&,&&) without return)", "anchors": ["src/GTMesh/Traits/TraitsAlgorithm/TraitsAlgorithm.h"]}
{"id": "C45", "title": "Container traits name every dimension uniquely", "statement": "The generated name of an array of a mesh data container is \"dim N\" with N the dimension; different dimensions have different names; no memory outside the name buffer is written.", "quantifier": "every dimension", "why_tests_cant": "all numbers; (violated: digits 0 are skipped, three-digit dimensions overflow)", "anchors": ["src/GTMesh/UnstructuredMesh/MeshDataContainer/MeshDataContainerTraits/MeshDataContainerTraits.h"]}
{"id": "C46", "title": "The file format is chosen by the extension", "statement": "write and load select the reader or writer by the extension of the file name, anything else is refused with an exception.", "quantifier": "every path", "why_tests_cant": "all strings; (violated by load, which looks for the extension anywhere in the path)", "anchors": ["src/GTMesh/UnstructuredMesh/UnstructuredMesh.h: load, write, checkExtension"]}
{"id": "C47", "title": "JSON log is a well-formed list of records", "statement": "Whatever sequence of variables is logged, the file is a JSON object with one record per variable in order, separated by commas; names are escaped; the source path is escaped.", "quantifier": "every sequence of log calls and every text", "why_tests_cant": "all strings; (violated for text values containing quotes and for paths with a backslash among the first two characters)", "anchors": ["src/GTMesh/Debug/JSONLogger.h", "src/GTMesh/Debug/Printers/PrintText.h"]}
{"id": "C48", "title": "VTK data columns survive write and read", "statement": "A data container written next to a mesh whose cells were all exported one to one and read back by the VTK data reader holds the same value for every cell and every named column.", "quantifier": "every number of cells, columns and all values", "why_tests_cant": "all sizes", "anchors": ["src/GTMesh/UnstructuredMesh/MeshDataContainer/MeshDataIO/VTKMeshDataWriter.h", "src/GTMesh/UnstructuredMesh/MeshDataContainer/MeshDataIO/VTKMeshDataReader.h"]}
{"id": "C49", "title": "Serializer file round trip", "statement": "Saving a serializer to a file and loading the file into a serializer makes the saved values readable from the first one on; a file that cannot be opened is reported by both operations.", "quantifier": "every content and every state of the loading serializer", "why_tests_cant": "all histories of the loading serializer; (violated: a missing file is ignored, and the read cursor survives the load)", "anchors": ["src/GTMesh/BinarySerializer/BinarySerializer.h: saveToFile, loadFromFile"]}
{"id": "C50", "title": "Reads and writes of a serializer may be interleaved", "statement": "After any sequence of writes and reads, the next read returns the next value in the order written.", "quantifier": "every interleaving of writes and reads", "why_tests_cant": "depends on the capacity growth of the buffer; (violated: a write that reallocates invalidates the read cursor)", "anchors": ["src/GTMesh/BinarySerializer/BinarySerializer.h: write, read, isIteratorValid"]}
{"id": "C51", "title": "A 3D mesh written in the VTK format is read back as the same solids", "statement": "Writing a valid 3D mesh of tetrahedra, pyramids, wedges and hexahedra with VTKMeshWriter and reading the text with VTKMeshReader succeeds and gives the same points, the same types, and cells bounded by the faces of the same solids, with the same pairs of cells sharing a face; cells of other types come back as the tetrahedra of their faces and edges, made with the appended centers.", "quantifier": "every valid 3D mesh, order of the faces of a cell, order and direction of the edges of a face, orientation computed by the writer, mixture of types", "why_tests_cant": "the vertices of a solid are recovered by walking its base face and its edges, in an order which depends on how the mesh stores them", "anchors": ["src/GTMesh/UnstructuredMesh/MeshIO/MeshWriter/VTKMeshWriter.h: indexMesh, indexPyramid, indexLinearObject, writeToStream", "src/GTMesh/UnstructuredMesh/MeshIO/MeshReader/VTKMeshReader.h: loadFromStream"]}
{"id": "C52", "title": "A file that is not an ASCII unstructured grid is refused", "statement": "Both VTK readers refuse with std::runtime_error every text whose first three words after the two title lines are not ASCII DATASET UNSTRUCTURED_GRID, and every text which lacks the sections POINTS, CELLS or CELL_TYPES.", "quantifier": "every text, every previous state of the reader and of the mesh", "why_tests_cant": "ranges over all texts and layouts of the header; (violated: a missing section is silently skipped, the mesh is left empty and the types of the previous file stay)", "anchors": ["src/GTMesh/UnstructuredMesh/MeshIO/MeshReader/VTKMeshReader.h: loadFromStream (2D: 149-191, 3D: 428-471)"]}
{"id": "C53", "title": "Conversion between the VTK and the FPMA format keeps the mesh", "statement": "Loading a VTK file of tetrahedra, pyramids, wedges and hexahedra, writing it as FPMA and loading that again gives the same points and the same cells in the same order with the same faces, and two cells share a face exactly when they did in the VTK file. Loading an FPMA file of polyhedra, writing it as VTK with the cell types of the reader and loading that again gives a valid mesh with the points of the file followed by centers, and one tetrahedron (side, face center, cell center) for each side of each face of each cell, in the order of the file.", "quantifier": "every well-formed file of each format, every reserve, every title, every previous state of reader, writer and mesh", "why_tests_cant": "ranges over all meshes, numberings, orders and directions of the faces and edges; composes two readers and two writers", "anchors": ["src/GTMesh/UnstructuredMesh/MeshIO/MeshReader/VTKMeshReader.h: VTKMeshReader<3>::loadFromStream", "src/GTMesh/UnstructuredMesh/MeshIO/MeshReader/FPMAMeshReader.h: loadFromStream, setupCellTypes", "src/GTMesh/UnstructuredMesh/MeshIO/MeshWriter/FPMAMeshWriter.h: writeToStream", "src/GTMesh/UnstructuredMesh/MeshIO/MeshWriter/VTKMeshWriter.h: VTKMeshWriter<3>::writeToStream"]}
{"id": "C54", "title": "Adding boundary cells does not change the geometry", "statement": "After setupBoundaryCells and setupBoundaryCellsCenters every missing side of a face refers to a boundary cell whose center is the center of the face, and computeCellsDistance and computeCellsCenterDifference give the same values as before for every face.", "quantifier": "every mesh of any dimension without boundary cells, every pattern of missing sides", "why_tests_cant": "all meshes and patterns; (violated by the difference of a face without a left cell, which changes its sign)", "anchors": ["src/GTMesh/UnstructuredMesh/MeshElements/MeshElements.h: setupBoundaryCells, setupBoundaryCellsCenters", "src/GTMesh/UnstructuredMesh/MeshFunctions/CellsDistance.h", "src/GTMesh/UnstructuredMesh/MeshFunctions/ComputeCellsCenterDifference.h"]}
{"id": "C55", "title": "The normals and measures of the faces of a cell close up", "statement": "For each cell of a mesh, the sum of (sign of the side the cell lies on) x measure x computed normal over its faces is zero, and the signed normals point out of the cell, so that a balance of fluxes written with the normals of the library is conservative. In a 2D mesh this needs the edges to be directed along the boundary of their left cell, and the VTK reader directs them that way for every file whose polygons have one orientation. The outer fluxes of all cells together are the fluxes through the faces with a cell on one side only, in every valid mesh and in particular in every mesh read from a file. For a 3D VTK or FPMA file of convex cells that lie on different sides of their common faces, the loaded mesh has all of this, and its volumes add up to a third of the sum of (center . normal) x area over the faces with one cell.", "quantifier": "every valid 2D mesh with directed edges and every cell with a polygon; every valid 3D mesh of star shaped (in particular convex) cells; every 2D VTK file with polygons of one orientation; every previous state of the mesh; every 3D VTK and FPMA file of convex cells", "why_tests_cant": "an identity over all real coordinates, all polygons and polyhedra, all numberings and directions of edges and faces", "anchors": ["src/GTMesh/UnstructuredMesh/MeshFunctions/ComputeNormals.h: computeFaceNormals", "src/GTMesh/UnstructuredMesh/MeshFunctions/ComputeMeasures.h: computeMeasures", "src/GTMesh/UnstructuredMesh/MeshIO/MeshReader/VTKMeshReader.h: VTKMeshReader<2>::loadFromStream", "src/GTMesh/UnstructuredMesh/MeshIO/MeshReader/FPMAMeshReader.h: FPMAMeshReader<3>::loadFromStream"]}
{"id": "C56", "title": "Exported solids have the orientation of the VTK format", "statement": "Every tetrahedron, pyramid and hexahedron exported by the 3D VTK writer is oriented as the VTK format asks: the right-hand rule for its base, in the order of the written vertices, points into the cell; in particular every exported tetrahedron has a positive volume in the order of its vertices.", "quantifier": "every valid 3D mesh of planar star-shaped faces and solids, every order and direction of the edges of its faces, every side a cell may lie on", "why_tests_cant": "all meshes with real coordinates, all orders and directions of edges; (violated for a cell that is the right cell of its base face when the first edge of the face runs the other way)", "anchors": ["src/GTMesh/UnstructuredMesh/MeshIO/MeshWriter/VTKMeshWriter.h: VTKMeshWriter<3>::indexFace, indexPyramid, indexLinearObject, indexMesh", "src/GTMesh/UnstructuredMesh/MeshFunctions/EdgesOrientation.h: edgesOrientation"]}
{"id": "C57", "title": "A text that is cut off is refused", "statement": "Reading a mesh or data of a mesh from a text file that has been cut off (any proper prefix of an accepted file that lacks a part of the mesh or of the data) ends with an exception and never with a mesh or data that differ from those of the complete file.", "quantifier": "every FPMA and VTK file accepted by the readers, every place at which it is cut, every previous state of the mesh and of the reader", "why_tests_cant": "every file and every cut; (violated: the readers never look at the state of the stream; FPMA counts are used uninitialised, VTK coordinates, vertices and types become 0 or keep the values of the previous file, data columns repeat the last value; only a cut inside the keywords of a VTK file is refused)", "anchors": ["src/GTMesh/UnstructuredMesh/MeshIO/MeshReader/FPMAMeshReader.h: loadFromStream", "src/GTMesh/UnstructuredMesh/MeshIO/MeshReader/VTKMeshReader.h: loadFromStream, loadVertices, loadCells, loadCellTypes", "src/GTMesh/UnstructuredMesh/MeshDataContainer/MeshDataIO/VTKMeshDataReader.h: readColumn"]}
{"id": "C58", "title": "The HTML log is a table of the logged variables", "statement": "After any sequence of calls that log variables with their place and the end of the logger, exactly one file has been written; its script sets data to a JavaScript array with one row for each variable, in the order of logging, which gives the number of the call, the line, the file, the name and the value of the variable. A logger that is not used writes no file.", "quantifier": "every sequence of calls, every number of variables in a call, every path, name and value (nested lists, tuples, pairs, objects)", "why_tests_cant": "unbounded sequences of calls, arbitrary texts and nested values; (violated: names with ' or a backslash, texts with quotes or </script, calls without a place, a second create, use after destroy)", "anchors": ["src/GTMesh/Debug/HTMLLogger.h: HtmlLogger::writeVar, create, destroy, writeScript, writeEndScritpt", "src/GTMesh/Debug/VariableExport.h: exportVariable"]}
{"id": "C59", "title": "Coordinates in mesh files are the printed ones, connectivity does not depend on them", "statement": "A coordinate written by a mesh writer and read by a mesh reader comes back as the closest number with six significant digits: off by at most five millionths of its value, with the same sign, unchanged exactly when it has at most six significant digits, and unchanged by further rounds. Whatever happens to the coordinates in the file, reading has the same outcome and gives the same edges, faces, cells and types.", "quantifier": "every number, every file (also broken ones), every reader (FPMA, VTK 2D, VTK 3D), every previous state", "why_tests_cant": "ranges over all numbers and all files", "anchors": ["src/GTMesh/UnstructuredMesh/MeshIO/MeshWriter/FPMAMeshWriter.h: writeToStream", "src/GTMesh/UnstructuredMesh/MeshIO/MeshWriter/VTKMeshWriter.h: writeToStream", "src/GTMesh/UnstructuredMesh/MeshIO/MeshReader/FPMAMeshReader.h: loadVertices", "src/GTMesh/UnstructuredMesh/MeshIO/MeshReader/VTKMeshReader.h: loadVertices"]}
{"id": "C60", "title": "The console log shows every variable with its place", "statement": "Whatever the settings of the console logger, after any sequence of calls that log variables and messages the text on the console (without the escape sequences for colours) says exactly what was logged: one entry for each variable and each message, in the order of logging, with the name and the value, the file (without its directories if so set), the line and the function (if so set). Colours make no other difference, the log only grows, and reset gives the settings of a new logger. The printf variant shows the same.", "quantifier": "every combination of settings, every sequence of calls, every number of variables or messages in a call, every path, function, name and value without ends of line and ESC", "why_tests_cant": "unbounded sequences of calls, arbitrary texts and all combinations of settings; (violated: reset sets another indentation than a new logger has, DBGVAR_STDIO exchanges the file and the function, unsigned int is printed with a d behind it)", "anchors": ["src/GTMesh/Debug/ConsoleLogger.h: ConsoleLogger::writeVariable, writeMessage, printHeader, getFileName, reset, writeVarC", "src/GTMesh/Debug/Debug.h: DBGVAR, DBGMSG, DBGCHECK, DBGVAR_STDIO", "src/GTMesh/Debug/Printers/PrintExportable.h: PrintExportable::print"]}
{"id": "C61", "title": "Traits describe the members they are made of", "statement": "A definition of traits by MAKE_ATTRIBUTE_TRAIT (or its named, custom, IO, arithmetic and template variants) compiles exactly if there are 1 to 20 attributes, in pairs with a name where names are given, and each is a data member (or an access) of the class; makeTraits has no limit. Then the traits have that size, and for every index the name and the access are those of the attribute at that place: setting a data member by an index changes that member and nothing else, getting gives what was set, a getter and setter are used as given. apply calls the functor exactly once for each attribute, in order, with its index, access and name. get<i, j, ...>(object) refers to attribute j of attribute i and so on; different index lists refer to different members. The logging macros log 1 to 40 variables, in order, each under its own text.", "quantifier": "every class, every list of attributes or accesses, every index, every object and value, every functor, every depth of nesting, every list of variables", "why_tests_cant": "the macros and templates are recursive over argument lists of any length, with separate macros for every number; a test compiles with a few lists", "anchors": ["src/GTMesh/Macros/MacroForEach.h: FOR_EACH, FOR_EACH_EVEN, FOR_EACH_ODD, FOR_EACH_2ARGS, FOR_EACH_3ARGS_1STAT", "src/GTMesh/Traits/Traits.h: Traits, makeTraits, get, MAKE_ATTRIBUTE_TRAIT, MAKE_NAMED_ATTRIBUTE_TRAIT, MAKE_CUSTOM_TRAIT", "src/GTMesh/Traits/MemberAccess/MemberAccess.h: MemberAccess", "src/GTMesh/Traits/MemberAccess/GetSetAccess.h: GetAccess, SetAccess", "src/GTMesh/Debug/Debug.h: DBGVAR, DBGVAR_HTML, DBGVAR_JSON"]}
{"id": "C62", "title": "The page of an HTML log shows the selected variables", "statement": "When the document is opened, and after 'show all data', the table has one row for each logged variable, in the order of the log. After 'filter' it has the variables on the selected line which are meant by one of the filters (all the variables of the calls with such a variable, when the filter selects groups), each once and in the order of the log; a filter without a name means every variable, and without filters the line alone decides. Nothing the user does loses logged variables. The table shows for each variable the number of the call, the line, the file, the name and the value. Opening the written document and clicking its buttons runs exactly these functions: the table is shown when the page is opened and after each click on one of the two buttons for it, and no action of the user makes 'show all data' show anything else than all variables.", "quantifier": "every sequence of logging calls, every sequence of actions of the user, every list of filters with any content, every line", "why_tests_cant": "the loop jumps forwards and backwards over groups of any size and reads filters in any number; a test clicks through a few of them", "anchors": ["src/GTMesh/Debug/HTMLLogger.h: writeScript (copyData, addFilter, checkData, filterData, showData), writeEndScritpt"]}
{"id": "C63", "title": "Every variable is printed, in the way its type provides", "statement": "Exporting a variable to a stream uses, in this order, what its type has: a PrintTo function of the user, quotes for texts, the elements in brackets for containers (by iterators, else by index), the described attributes with their names for classes with IO traits, operator<<, braces and brackets for pairs and tuples; of any other object the type and the bytes are put. The parts of a variable are exported by the same rules. Traits bound to a variable replace the default traits of their classes in all its parts (of several traits for a class the first ones). The text is the JSON value that stands for the variable, and the export with printf prints the same text.", "quantifier": "every type built from numbers, texts, pairs, tuples, containers and classes, at any depth; every combination of what a class provides; every value; every list of bound traits", "why_tests_cant": "the choice is made by the compiler for each type; types nest without bound and classes can provide any combination", "anchors": ["src/GTMesh/Debug/VariableExport.h: exportVariable, IsPrintableBy, SelectPrinter", "src/GTMesh/Debug/Printers: PrintCustom, PrintText, PrintIterable, PrintIndexable, PrintTraitedClass, PrintExportable, PrintTuple, PrintAny", "src/GTMesh/Traits/TraitsBind/TraitsBind.h: SelectTraitsWithIODefault"]}
{"id": "C64", "title": "Traits choose what is serialized", "statement": "Writing an object appends the attributes that its traits describe, in the order of the traits (the default arithmetic traits of its class, or the first traits for the class that were bound to it); reading it into a variable of the same type sets exactly these attributes to the written values, leaves the others as they were and does not touch the bytes behind the object. Traits bound to a container count for its elements, and bound traits count for the classes of attributes too. Whatever can be written can be read.", "quantifier": "every class with any attributes at any depth, all traits describing any of them in any order, every value and previous value, every following bytes", "why_tests_cant": "depends on which of any number of attributes the traits describe, at every level of nested classes and containers", "anchors": ["src/GTMesh/BinarySerializer/Serializers/SerializeTraitedClass.h: serialize, deserialize", "src/GTMesh/BinarySerializer/BinarySerializer.h: addNext, readNext", "src/GTMesh/Traits/TraitsBind/TraitsBind.h: SelectTraitsWithArithmeticDefault, TraitsBinder"]}
{"id": "C65", "title": "The loggers may be used by several threads", "statement": "However many threads use the HTML and JSON macros and in whatever order their steps happen, the object with the loggers is made once, every call refers to that object, and it is not destroyed while the program runs; the console log of several threads says for every variable the place it comes from.", "quantifier": "every number of threads, every schedule of their steps, every number of calls, any constructions that end with an exception", "why_tests_cant": "the schedules that make two objects are rare in a test run; all interleavings have to be considered", "anchors": ["src/GTMesh/Singleton/Singleton.h: Singleton::getInstance", "src/GTMesh/Debug/Debug.h: DBGVAR_HTML, DBGVAR_JSON, DBGVAR", "src/GTMesh/Debug/ConsoleLogger.h: writeVariable, printHeader"]}
{"id": "C66", "title": "Absolute values of objects", "statement": "abs(x) of a number, an array or an object of a class with arithmetic traits is the same with every number replaced by its absolute value, whatever the types of the numbers are and whatever headers were included before.", "quantifier": "every nesting of arrays and classes, every type of numbers, every value, every choice of included headers", "why_tests_cant": "which function is called depends on the types and on the headers that were included before, the test suite has one class of two doubles in a file that includes math.h", "anchors": ["src/GTMesh/Traits/TraitsAlgorithm/TraitsAlgorithm.h: Abs, abs", "src/GTMesh/Traits/TraitsAlgorithm/TraitsAlgorithm.h: TraitsUnaryExpressionProcesor"]}
{"id": "C67", "title": "The debugging macros can be switched off", "statement": "A program with the debugging macros DBGVAR, DBGVARCOND, DBGMSG, DBGCHECK, DBGTRY and their HTML, JSON and stdio variants compiles when UNDEBUG is defined exactly if it compiles when it is not, and, as long as the logged expressions change nothing and raise nothing, both programs do the same but for the log.", "quantifier": "every function body made of expressions, blocks, if, else, while and the macros, nested in any way, every meaning of the expressions, every initial state and number of rounds of the loops", "why_tests_cant": "the macros are expanded in the code of the user, in any context; a test of the library compiles a few uses in one of the two modes", "anchors": ["src/GTMesh/Debug/Debug.h: DBGVAR, DBGVARCOND, DBGTRY, DBGVAR_STDIO, UNDEBUG"]}
{"id": "C68", "title": "Boundary cells change nothing else", "statement": "setupBoundaryCells() followed by setupBoundaryCellsCenters() changes only the missing sides of the boundary faces and the boundary cells: iterating over elements, connections, neighbors and colorings of any dimensions, centers and measures of elements, normals of faces, orientations of edges and the files written by the FPMA and the VTK writers are the same before and after the call, exceptions and endless loops included.", "quantifier": "every mesh of dimension two or more, valid or not, with at most 2^63 cells, all source, target and connecting dimensions, all random draws, all positions, all cell types and states of the writer", "why_tests_cant": "a test compares a few functions on a few meshes; the boundary cells are marked by indices in the faces, and every function that follows the cells of a face must ignore the mark in the same way", "anchors": ["src/GTMesh/UnstructuredMesh/MeshElements/MeshElements.h: setupBoundaryCells, setupBoundaryCellsCenters", "src/GTMesh/UnstructuredMesh/MeshFunctions/: MeshApply, MeshConnections, MeshNeighborhood, MeshColoring, ComputeCenters, ComputeMeasures, ComputeNormals, EdgesOrientation", "src/GTMesh/UnstructuredMesh/MeshIO/MeshWriter/: FPMAMeshWriter, VTKMeshWriter"]}
{"id": "C69", "title": "A loaded mesh answers as its file says", "statement": "After a VTK (2D or 3D) or FPMA file of a mesh without faces shared by three cells has been loaded, the queries answer in terms of the file, right away and also after setupBoundaryCells(): the vertices of a cell and the cells around a vertex are those the file lists, two cells are neighbors through faces exactly if the file gives them a common face and through vertices exactly if they have a common vertex, two vertices are neighbors through edges exactly if some face of the file has them as consecutive vertices, and colorings, greedy or random, give neighboring cells different colors.", "quantifier": "every file content with cells of any number and kind the format allows, all texts after the mesh, every previous state of mesh and reader for VTK (a new mesh for FPMA), every sufficient reserve, every sequence of random draws", "why_tests_cant": "a test loads a few files; the answers depend on the order of the cells, on the numbers of shared edges and faces found by hashing or comparison and on chains of indices in the faces", "anchors": ["src/GTMesh/UnstructuredMesh/MeshIO/MeshReader/: VTKMeshReader, FPMAMeshReader", "src/GTMesh/UnstructuredMesh/MeshFunctions/: MeshConnections, MeshNeighborhood, MeshColoring", "src/GTMesh/UnstructuredMesh/MeshElements/MeshElements.h: setupBoundaryCells"]}
{"id": "C70", "title": "The geometry of a loaded mesh is that of its file", "statement": "After a VTK (2D or 3D) or FPMA file has been loaded and the centers, measures and face normals have been computed, the results are those of the shapes the file describes: the length of an edge is the distance of its ends and its center their midpoint; in 2D the center of a cell is the mean of the vertices of its polygon and, if the polygon is convex, its measure is the area; in 3D, if the cells of the file are convex polyhedra, everything is computed without an exception, the measure of a cell is its volume, its center is the mean of the centers of its faces, the measure of a face is its area, its center the mean of its vertices, and its normal is the outer unit normal of its left cell. For tetrahedra in any orientation the volume is |det|/6 and the center is the mean of the four vertices.", "quantifier": "every file content with cells of any number, shape, order and orientation the format allows and vertices at any real positions, all texts after the mesh, every previous state of mesh and reader for VTK (a new mesh for FPMA), every sufficient reserve", "why_tests_cant": "a test computes with a few meshes; the result for a cell depends on which face or edge is found to be the same as one of another cell, on the direction in which it was stored and on the order of the cells, and positions are real numbers", "anchors": ["src/GTMesh/UnstructuredMesh/MeshIO/MeshReader/: VTKMeshReader, FPMAMeshReader", "src/GTMesh/UnstructuredMesh/MeshFunctions/ComputeCenters.h: computeCenters", "src/GTMesh/UnstructuredMesh/MeshFunctions/ComputeMeasures.h: computeMeasures", "src/GTMesh/UnstructuredMesh/MeshFunctions/ComputeNormals.h: computeFaceNormals"]}
{"id": "C71", "title": "Geometry computed with floating point numbers is accurate", "statement": "When Real is a floating point type with unit roundoff u, the results of the geometry functions differ from the exact values for the stored coordinates by no more than explicit multiples of \u03b3_k = k u / (1 - k u): scalar products (\u03b3_n of the sum of the absolute values of the terms) and norms (relative error \u03b3_{n+1}) of vectors; the lengths of edges and the distances of cells (relative error \u03b3_{n+2}); the centers of all elements (\u03b3 of the largest coordinate); the areas of 2D cells and of the faces of 3D meshes, whatever their shape, and the volumes of 3D cells (\u03b3 times a power of the size of the cell; for the volumes k depends on how flat the triangle of the first edge and the center of a face is); the unit normals of edges and faces. The functions succeed in the same cases as with exact arithmetic. Rounding to nearest with p binary digits is such a type, with u = 2^-p, however ties are broken.", "quantifier": "every valid mesh of any size with any stored coordinates and centers, every rounding with relative error at most u, all bounds of size and flatness", "why_tests_cant": "a test compares with a tolerance for a few meshes; the error depends on every coordinate, on the number of elements, on the order of the sums and on cancellation", "anchors": ["src/GTMesh/NumericStaticArray/Vector.h: dotProduct, norm, operators", "src/GTMesh/NumericStaticArray/GramSchmidt.h: gramSchmidt", "src/GTMesh/UnstructuredMesh/MeshFunctions/ComputeCenters.h: computeCenters", "src/GTMesh/UnstructuredMesh/MeshFunctions/ComputeMeasures.h: computeMeasures", "src/GTMesh/UnstructuredMesh/MeshFunctions/ComputeNormals.h: computeFaceNormals", "src/GTMesh/UnstructuredMesh/MeshFunctions/CellsDistance.h: computeCellsDistance"]}
{"id": "C72", "title": "The numbers of the elements do not matter", "statement": "When the elements of every dimension of a mesh get other numbers (the order of the sub-elements of an element and the sides of a face stay as they are), iteration, connections, neighbors and geometry give the same results under the new numbers: the mesh has as many elements of every dimension and is valid if it was; iterating over the sub-elements of an element visits the same elements in the same order, or fails in the same way; the boundary walk of a cell, the connections and the neighbors are the same relations; the centers, measures, normals, distances, differences of centers and orientations of edges are the same values, and not only in exact arithmetic. The greedy coloring is proper too, but its colors and their number depend on the numbers.", "quantifier": "every mesh of any dimension (iteration: also an invalid one), every permutation of the numbers in every dimension, every type of numbers for coordinates", "why_tests_cant": "a test fixes the numbers of one mesh; a dependence on the numbers (a comparison of indices, a loop that begins or ends at the wrong element, a sum in the order of the numbers) shows only for some of the exponentially many numberings", "anchors": ["src/GTMesh/UnstructuredMesh/MeshFunctions/MeshApply.h: MeshApply", "src/GTMesh/UnstructuredMesh/MeshFunctions/MeshConnections.h: MeshConnections", "src/GTMesh/UnstructuredMesh/MeshFunctions/MeshNeighborhood.h: MeshNeighborhood", "src/GTMesh/UnstructuredMesh/MeshFunctions/MeshColoring.h: MeshColoring", "src/GTMesh/UnstructuredMesh/MeshFunctions/ComputeCenters.h: computeCenters", "src/GTMesh/UnstructuredMesh/MeshFunctions/ComputeMeasures.h: computeMeasures", "src/GTMesh/UnstructuredMesh/MeshFunctions/ComputeNormals.h: computeFaceNormals", "src/GTMesh/UnstructuredMesh/MeshFunctions/CellsDistance.h: computeCellsDistance", "src/GTMesh/UnstructuredMesh/MeshFunctions/EdgesOrientation.h: edgesOrientation"]}
{"id": "C73", "title": "Fluxes and gradients of linear functions are exact", "statement": "With the computed centers, measures and face normals, the discrete operators of a finite volume scheme are exact for linear functions: the sum of \u00b1 measure \u00b7 F(center of the face) \u00b7 normal over the faces of a cell is the divergence of the linear field F times the measure of the cell, and the sum of \u00b1 measure \u00b7 \u03c6(center of the face) \u00b7 normal is the gradient of the linear function \u03c6 times that measure. In 2D this holds for every polygon (with its area); in 3D for convex polyhedra all of whose faces have their center of gravity in the mean of their vertices, such as triangles and parallelograms.", "quantifier": "every valid mesh, every cell, every linear field and function; every VTK file (2D: polygons that go along each side at most once in each direction; 3D: convex cells on different sides of their common faces) and every FPMA file of such cells", "why_tests_cant": "the space of meshes and of linear fields is infinite, and a wrong center, sign or measure cancels for symmetric cells such as the squares and cubes that are used in tests", "anchors": ["src/GTMesh/UnstructuredMesh/MeshFunctions/ComputeCenters.h: computeCenters", "src/GTMesh/UnstructuredMesh/MeshFunctions/ComputeMeasures.h: computeMeasures", "src/GTMesh/UnstructuredMesh/MeshFunctions/ComputeNormals.h: computeFaceNormals", "src/GTMesh/UnstructuredMesh/UnstructuredMesh.h: initializeCenters"]}
{"id": "C74", "title": "Saving and loading keeps the geometry", "statement": "When a mesh is written to a file and the file is loaded (and the numbers are read back as they were), the computed geometry stays the same. A 2D VTK file keeps the centers and areas of all cells and the lengths and centers of their edges. An FPMA file of a mesh with flat faces keeps the centers and volumes of all cells, the centers and areas of all faces and the lengths and centers of their edges. A 3D VTK file of a mesh with flat faces keeps the centers and volumes of the cells written as such; the volumes of the tetrahedra a cell is split into add up to its volume, and the total volume is the same.", "quantifier": "every valid mesh of polygons (2D, any shape) or of polyhedra with flat faces (3D, convex or not), every choice of split cells, every order in which the writer and the loader number the edges and faces; every VTK file of polygons and every FPMA file that the loaders read", "why_tests_cant": "the loaded mesh has other edge and face numbers and other starting vertices than the saved one, and which ones depends on the mesh; a value that depends on them changes for some meshes only", "anchors": ["src/GTMesh/UnstructuredMesh/MeshIO/MeshWriter/VTKMeshWriter.h: writeToStream, indexMesh", "src/GTMesh/UnstructuredMesh/MeshIO/MeshReader/VTKMeshReader.h: loadFromStream", "src/GTMesh/UnstructuredMesh/MeshIO/MeshWriter/FPMAMeshWriter.h: writeToStream", "src/GTMesh/UnstructuredMesh/MeshIO/MeshReader/FPMAMeshReader.h: loadFromStream", "src/GTMesh/UnstructuredMesh/MeshFunctions/ComputeCenters.h: computeCenters", "src/GTMesh/UnstructuredMesh/MeshFunctions/ComputeMeasures.h: computeMeasures"]}
{"id": "C75", "title": "An entry of the container as the initial value", "statement": "allocateData(mesh, initialValue) fills all new entries with the initial value, also when the initial value is an entry of the container itself (it is taken by reference and handed from array to array).", "quantifier": "every container with any number of arrays, every mesh, every entry and every capacity of its array", "why_tests_cant": "whether the reference dangles depends on the capacity of a vector and on the sizes of all arrays, and reading released memory usually gives the expected value in a test", "anchors": ["src/GTMesh/UnstructuredMesh/MeshDataContainer/MeshDataContainer.h: allocateMemory, allocateData"]}
{"id": "C76", "title": "Data of several arrays in a VTK file", "statement": "A MeshDataContainer with several arrays for the cells is written to a VTK file with the columns of all arrays whose type has traits; every array can be read back from the file: each cell gets its data, also the cells that are split.", "quantifier": "every mesh, every number of arrays with any traited classes of numbers and arrays, every choice of split cells, whatever the container that is read into held", "why_tests_cant": "columns are found by their names, and whether two of them collide depends on all classes of the container", "anchors": ["src/GTMesh/UnstructuredMesh/MeshDataContainer/MeshDataIO/VTKMeshDataWriter.h: writeToStream, MeshDataIterator", "src/GTMesh/UnstructuredMesh/MeshDataContainer/MeshDataIO/VTKMeshDataReader.h: readFromStream, indexData"]}
{"id": "C77", "title": "Moving, rotating, reflecting and scaling a mesh", "statement": "If every vertex of a mesh is mapped by x \u21a6 s\u00b7L(x) + t with s > 0 and an isometry L (and the centers are computed again), then every measure of a d-dimensional element is multiplied by s^d, every distance of cells by s, every difference of centers is mapped by s\u00b7L, the normals in 3D and higher dimensions are mapped by L, the normals in 2D by L for a rotation and by -L for a reflection, and the orientations of the edges do not change under rotations. A call which fails on the one mesh fails in the same way on the other one.", "quantifier": "every mesh, valid or not, in any dimension, every s > 0, every isometry L, every translation t", "why_tests_cant": "tests compare the results on a few meshes in one position with one unit of length", "anchors": ["src/GTMesh/UnstructuredMesh/MeshFunctions/ComputeMeasures.h: computeMeasures", "src/GTMesh/UnstructuredMesh/MeshFunctions/ComputeNormals.h: computeFaceNormals", "src/GTMesh/UnstructuredMesh/MeshFunctions/CellsDistance.h: computeCellsDistance", "src/GTMesh/UnstructuredMesh/MeshFunctions/ComputeCellsCenterDifference.h: computeCellsCenterDifference", "src/GTMesh/UnstructuredMesh/MeshFunctions/EdgesOrientation.h: edgeIsLeft, edgesOrientation", "src/GTMesh/UnstructuredMesh/MeshFunctions/ComputeCenters.h: computeCenters"]}
{"id": "C78", "title": "Elements of one color may be processed at the same time", "statement": "If the processing of an element of dimension S reads and writes only the data of the elements of dimension C connected with it, then the elements of one color of a coloring of S by C can be processed at the same time: no entry belongs to two of them, every order of their steps ends with the same data, and each of them reads what it would read if it were alone. A loop over all colors which adds a contribution to the entries of the connected elements loses no contribution and counts none twice.", "quantifier": "every valid mesh, all dimensions S and C, the greedy and the random coloring with every outcome of the generator, every program of the elements, every interleaving of the steps", "why_tests_cant": "a lost update appears only in some of the exponentially many interleavings", "anchors": ["src/GTMesh/UnstructuredMesh/MeshFunctions/MeshColoring.h: MeshColoring, ColoringMethod", "src/GTMesh/UnstructuredMesh/MeshFunctions/MeshConnections.h: MeshConnections", "src/GTMesh/UnstructuredMesh/MeshDataContainer/MeshDataContainer.h: MeshDataContainer"]}
{"id": "C79", "title": "A log survives the end of the program", "statement": "Wherever a program ends, by a signal or `abort`, in the middle of a JSON or HTML log, the file of the log is a beginning of the text that the destructor of the logger would have completed: no piece is missing in the middle, and records are neither reordered nor repeated. When a call that logs variables without a place has returned, its records and all the earlier ones are in the file, and `]}` behind them makes it JSON.", "quantifier": "every sequence of calls with every variables, every point of the end of the program, between two operations on the stream or within one, and every part of the unflushed text that the stream has passed on", "why_tests_cant": "the file depends on the point of the crash and on the buffer of the stream; a test sees one of them, usually the complete file", "anchors": ["src/GTMesh/Debug/JSONLogger.h: JSONLogger::writeVar, create, destroy", "src/GTMesh/Debug/HTMLLogger.h: HtmlLogger::writeVar, create, destroy"]}
{"id": "C80", "title": "A FPMA file is read as it was written, or not at all", "statement": "The characters that FPMAMeshWriter writes are read by FPMAMeshReader as the numbers that were written, a coordinate as its text of six digits says. When the writing was stopped (the program was killed, the disk was full), the part of the file that exists is either read as the mesh that was written or refused with an error; it is never read as another mesh.", "quantifier": "every 3D mesh that can be written, and every beginning of the characters of its file", "why_tests_cant": "a file can end between any two characters, also within a number; tests read complete files, and cutting a file between two numbers does not show what half a number does", "anchors": ["src/GTMesh/UnstructuredMesh/MeshIO/MeshWriter/FPMAMeshWriter.h: FPMAMeshWriter::writeToStream", "src/GTMesh/UnstructuredMesh/MeshIO/MeshReader/FPMAMeshReader.h: FPMAMeshReader::loadFromStream, loadVertices, loadFaces, loadCells"]}
{"id": "C81", "title": "A FPMA file that does not describe a mesh is refused", "statement": "When the numbers of a FPMA file do not describe a mesh (a cell lists a face that does not exist or lists a face twice, three cells list the same face, a face lists a vertex that does not exist), FPMAMeshReader refuses it with an exception. When it accepts a file, the walk along the boundary of each cell gives the faces that the file lists for it, and every edge leads to vertices that exist.", "quantifier": "every complete file, with any numbers of faces in its cells and any numbers of vertices in its faces", "why_tests_cant": "there are many ways in which the numbers of a file can be wrong, and a wrong file can show no error where it is read and a wrong mesh where it is used", "anchors": ["src/GTMesh/UnstructuredMesh/MeshIO/MeshReader/FPMAMeshReader.h: FPMAMeshReader::loadFaces, loadCells", "src/GTMesh/UnstructuredMesh/MeshElements/CellBoundaryConnection.h: CellBoundaryConnection::setNextBElem, getNextBElem"]}
{"id": "C82", "title": "A VTK file that does not describe a mesh is refused", "statement": "When the numbers of a VTK file do not describe a mesh (three cells have the same side or face, a cell lists a vertex that does not exist or a number of vertices that its type does not have, there are more types than cells), VTKMeshReader refuses it with an exception. When it accepts a file, the walk along the boundary of each cell gives the sides or faces of the cell, and every edge leads to vertices that exist.", "quantifier": "every complete 2D or 3D file, with any numbers of vertices in its cells and any types, whatever the mesh held before", "why_tests_cant": "there are many ways in which the numbers of a file can be wrong, and a wrong file can show no error where it is read and a wrong mesh where it is used", "anchors": ["src/GTMesh/UnstructuredMesh/MeshIO/MeshReader/VTKMeshReader.h: VTKMeshReader<2>::loadCells, VTKMeshReader<3>::loadCells, loadCellTypes", "src/GTMesh/UnstructuredMesh/MeshElements/CellBoundaryConnection.h: CellBoundaryConnection::getNextBElem"]}
{"id": "C83", "title": "A load that fails does not spoil the mesh", "statement": "When UnstructuredMesh::load (loadFromStream of a reader) throws an exception, the mesh is what it was before, and a later load of another file gives what it gives without the load that failed.", "quantifier": "every file that a reader refuses, every content of the mesh before, every later file", "why_tests_cant": "a file can be refused at any of its numbers, and what is left depends on the place and on what the mesh held before", "anchors": ["src/GTMesh/UnstructuredMesh/UnstructuredMesh.h: UnstructuredMesh::load", "src/GTMesh/UnstructuredMesh/MeshIO/MeshReader/VTKMeshReader.h: VTKMeshReader::loadFromStream", "src/GTMesh/UnstructuredMesh/MeshIO/MeshReader/FPMAMeshReader.h: FPMAMeshReader::loadFromStream"]}
{"id": "C84", "title": "The characters of a VTK file", "statement": "The text a VTKMeshWriter writes, with the header of writeHeader(ost, name) in front and anything behind it, is read by VTKMeshReader as the mesh that was written, whatever the name of the data set is.", "quantifier": "every mesh that can be written in 2D and 3D, every name of the data set, every text behind the file", "why_tests_cant": "the name is any text, and each number of the mesh has its own text, read by a reader that skips parts of lines", "anchors": ["src/GTMesh/UnstructuredMesh/MeshIO/MeshWriter/VTKMeshWriter.h: VTKMeshWriter::writeHeader, writeToStream", "src/GTMesh/UnstructuredMesh/MeshIO/MeshReader/VTKMeshReader.h: VTKMeshReader::loadFromStream"]}
{"id": "C85", "title": "getSignature belongs to the content of the mesh", "statement": "After UnstructuredMesh::load, a write or updateSignature, getSignature returns the signature of the vertices, edges, faces and cells that the mesh has; two meshes that load the same file have the same signature, whatever they held before.", "quantifier": "every file, every content and history of the meshes, every hash function", "why_tests_cant": "a stale or uninitialised signature looks like any other number, and it depends on the calls before", "anchors": ["src/GTMesh/UnstructuredMesh/MeshElements/MeshElements.h: MeshElements::updateSignature, MeshElements::getSignature", "src/GTMesh/UnstructuredMesh/MeshIO/MeshReader/VTKMeshReader.h: VTKMeshReader::loadFromStream", "src/GTMesh/UnstructuredMesh/MeshIO/MeshReader/FPMAMeshReader.h: FPMAMeshReader::loadFromStream", "src/GTMesh/UnstructuredMesh/MeshIO/MeshWriter/MeshWriter.h: MeshWriter::computeHash"]}
{"id": "C86", "title": "What a loaded mesh contains is determined by the file", "statement": "Loading a file with VTKMeshReader or FPMAMeshReader gives a mesh whose every member is determined by the file and the mesh before: getBoundaryElementIndex of a loaded cell never returns what happened to be in memory.", "quantifier": "every accepted file, every content of the memory of the new cells", "why_tests_cant": "an uninitialised member usually has the same value in every run of a test, and it is another one in another program", "anchors": ["src/GTMesh/UnstructuredMesh/MeshElements/MeshElement.h: MeshElement::MeshElement, MeshElement::getBoundaryElementIndex", "src/GTMesh/UnstructuredMesh/MeshIO/MeshReader/VTKMeshReader.h: VTKMeshReader::loadCells", "src/GTMesh/UnstructuredMesh/MeshIO/MeshReader/FPMAMeshReader.h: FPMAMeshReader::loadCells"]}
{"id": "C87", "title": "A static reserve is not observable", "statement": "getSubelements of a mesh declared with a reserve behaves like the one of a mesh without it (a std::vector) for every sequence of calls that both offer, until an element has more sub-elements than the reserve.", "quantifier": "every reserve, every sequence of calls, every content of the memory before", "why_tests_cant": "the differences depend on the sequence of calls and on memory that was never written", "anchors": ["src/GTMesh/UnstructuredMesh/MeshElements/MeshElement.h: SubelementContainer, MeshElement::getSubelements"]}
{"id": "C88", "title": "Moving a vertex of a mesh keeps its index", "statement": "A statement that assigns to a vertex of a mesh or to its coordinates (v[i] = x, v = {x, y, z}, +=, -=, *=, /=) changes the position in the way it says and leaves the index of the vertex.", "quantifier": "every dimension, every sequence of statements, all values", "why_tests_cant": "the undefined behaviour of the assignment does not show without optimization; the tests of the project contain it", "anchors": ["src/GTMesh/UnstructuredMesh/MeshElements/MeshElement.h: MeshElement::operator=", "src/GTMesh/NumericStaticArray/Vertex.h: Vertex::operator=, Vertex::operator+="]}
{"id": "C89", "title": "A serializer file is read as it was saved, or not at all", "statement": "When the program stops during BinarySerializer::saveToFile, or the device becomes full, a new serializer that calls loadFromFile and reads the values either gets the values that were written or an error; saveToFile reports a file it could not write completely.", "quantifier": "every sequence of values of every serializable type, every number of bytes that reached the file, every content the file had before", "why_tests_cant": "a test would have to stop the program at every byte of every file", "anchors": ["src/GTMesh/BinarySerializer/BinarySerializer.h: BinarySerializer::saveToFile, BinarySerializer::loadFromFile, BinarySerializer::read, BinarySerializer::resetIteratorIfNotValid"]}
{"id": "C90", "title": "A mesh data container in a serializer", "statement": "A MeshDataContainer written to a BinarySerializer is read back into a container of the same type with the same values, whatever it held; afterwards every element of the mesh the container was allocated for has an entry, or the read reports an error.", "quantifier": "every content and every dimensions of the containers, every type of the values, every pair of meshes", "why_tests_cant": "all contents and previous sizes; a container of another mesh has the right type, the missing entries are seen only by an access behind the end", "anchors": ["src/GTMesh/UnstructuredMesh/MeshDataContainer/MeshDataContainerTraits/MeshDataContainerTraits.h: Traits<MeshDataContainer>::getAttr, Traits<MeshDataContainer>::getValue", "src/GTMesh/BinarySerializer/Serializers/SerializeTraitedClass.h: SerializeTraitedClass::serialize, SerializeTraitedClass::deserialize", "src/GTMesh/UnstructuredMesh/MeshDataContainer/MeshDataContainer.h: MeshDataContainer::allocateData, MeshDataContainer::operator[]"]}
{"id": "C91", "title": "Copies of a serializer", "statement": "A copy of a BinarySerializer, an object it was assigned to, and an object it was moved to give the values that the serializer itself would give next; reading one does not change the other. A serializer that was moved away can be filled and read again.", "quantifier": "every content and reading position, every sequence of types, every object assigned to", "why_tests_cant": "comparing iterators of two buffers usually gives some answer, which depends on the addresses", "anchors": ["src/GTMesh/BinarySerializer/BinarySerializer.h: BinarySerializer::mData, BinarySerializer::mDataIterator, BinarySerializer::isIteratorValid, BinarySerializer::resetIterator, BinarySerializer::clear"]}
