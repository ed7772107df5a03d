# Formal model of GTMesh in Lean 4

## Method

* `/repo` is read as text; nothing is built or run. Each definition of the model carries a comment
  with the file and lines it models and the simplifications made.
* C++ failures are distinct outcomes of the model (`Verif/Base.lean`, type `Res`):
  `ok v`, `throw e` (a C++ exception), `ub` (undefined behaviour), `diverge` (never returns).
* Indices are `Nat`; `INVALID = 2^64-1`, `BOUNDARY = 2^63` (the 64-bit instance of the templates).
  The bit-level laws of the encoding are proved separately for every width (`Model/Index.lean`).
* Loops become folds/structural recursion. Loops whose termination is not syntactic take fuel, and
  the exhaustion of the fuel is proved to be real divergence (no larger fuel returns).
* `std::set`/`std::map` become sorted lists/association lists with the same iteration order.
* The type of the numbers is a parameter of the geometry functions. Most theorems are about exact arithmetic (a commutative
  ring / field / the reals); C71 is about numbers whose operations round (Model/Rounding).
* Text files are modelled at the level of whitespace separated tokens (what `operator>>` delivers).

## Layout

* `Verif/Model/*.lean`  the model, function by function, with citations
* `Verif/Spec/*.lean`   the small, model-independent vocabulary used by the statements
* `Verif/Proofs/*.lean` helper lemmas
* `Verif/Props/*.lean`  the property theorems and, next to each, examples showing that its
  hypotheses are met by a concrete non-trivial case

## Per-property plan

| id | modelled | how it is proved |
|----|----------|------------------|
| C01 | the four index functions over `BitVec w`, all `w` | bitwise extensionality, order facts |
| C02 | CellConnection as a state machine | induction over the call list, refinement to "first two valid" |
| C03 | getOtherCellIndex, swapCellsLR | case analysis |
| C04 | CellBoundaryConnection as a state machine | induction over call histories, refinement to a finite map |
| C05 | swapCellsLR + getNextBElem | negation with witness; partial: holds when both successors agree |
| C06 | SubelementContainer (fixed array + counter) | invariant + refinement to a bounded list |
| C07 | setupBoundaryCells loop | induction over faces with the running counter |
| C08 | clear | negation with witness; partial for the elements |
| C09 | do-while boundary walk with fuel | cycle lemma; pigeonhole for divergence |
| C10 | MeshRun recursion over dimensions | induction over the dimension difference against an inductive incidence relation |
| C11, C12, C13 | connections, neighborhood | sorted-insert and first-occurrence lemmas over C10 |
| C14, C15, C16 | coloring loops with the growing palette | loop invariant over the processed prefix |
| C17 | MeshDataContainer as a list of (dim, array) | lemmas on resize |
| C18, C19, C20, C21 | FPMA reader/writer on tokens | dictionary invariant, chain lemma, polygon traversal, composition |
| C22, C23 | VTK 2D reader/writer | as for FPMA with left/right cells |
| C24 | tables | `decide` on the whole table + renaming lemma |
| C25 | VTK 3D reader | dictionary invariant for edges and faces |
| C26 | type tables | finite tables, negation for unknown codes |
| C27, C28 | export indexing and data columns | induction over the cells with running counters |
| C29 | signature and cache; the state of the writer and of the stream after an exception | negation with witness for every hash; partial |
| C30–C34 | serializer over a universe of types | induction over types; UB outcome for short buffers |
| C35–C37 | Vertex, vector product, Gram-Schmidt | ring identities; induction |
| C38–C42 | mesh geometry over ordered fields / ℝ | algebra on lists; in any dimension, cones over sub-elements and heights of simplices (independent of the order of the vertices), Gram determinant |
| C43 | template recursion as recursion on lists | induction |
| C44 | traited classes as trees of members | induction on trees; negations |
| C45 | name generator | negations + partial |
| C46 | string searching | list lemmas; negation for load |
| C47 | JSON logger | grammar of the output; negations |
| C48 | data writer/reader | composition with C27 |
| C49, C50 | serializer with its file operations and read cursor | state invariants; negations for reallocation and for loading into a used object |
| C51 | VTK 3D writer composed with the VTK 3D reader | vertex order recovered per solid (`Proofs/Solid*.lean`), then C25's dictionary invariant |
| C52 | header part of the VTK readers | case analysis over the token stream |
| C53 | composition of `Vtk.load3`, `Fpma.write`, `Fpma.load`, `setupCellTypes`, `writeToStream3` | C25 + C21 + determinism; C18 + C51_valid_partial with a one-to-one map between sides in the file and exported pieces |
| C54 | `setupBoundaryCells`, `setupBoundaryCellsCenters`, distances and differences | C07 + C41 on the mesh before and after |
| C55 | `computeFaceNormals`, `computeMeasures`, directions of the edges of the VTK reader | directed sums along a polygon telescope; 3D by the closed star shape of C39 and the uniqueness of the outer normal of C40; files by C70, C25, C18 |
| C56 | `indexFace` of the 3D writer together with `edgesOrientation`, `computeFaceNormals`, `computeCenters` | the first two vertices of the traced polygon; sense of a planar star-shaped polygon; signed volume of a tetrahedron |
| C57 | the readers over streams that end or fail; data reader | the values read from a text cut at any place, compared with the complete text; induction over the items read |
| C58 | the HTML logger over the model of exportVariable | induction over the calls for what is written; a reader of JavaScript arrays (Spec/HtmlLog) gives back the rows |
| C59 | `ost << double` in the default state (Model/Print), the readers | value of the printed text against a reader of decimal numerals (Spec/Numeral); the readers commute with any change of the coordinates |
| C60 | the console logger over the model of exportVariable; the printf variant (Model/ConsoleLog) | a reader of such logs (Spec/ConsoleLog: colours, lines, places) gives back the entries; induction over the variables of a call and over the calls |
| C61 | the macros as functions of argument lists, with counting and pasting; the chain of MemRefs; the three kinds of access; apply; get (Model/MacroForEach, Model/Traits, Model/DebugMacros) | the number macros by induction over the arguments; the chain is a list; `Describes` says what the traits are |
| C62 | the functions of the script as functions on the state of the page (data, shown data, fields); the text of the table (Model/HtmlScript) | loop invariants over a split of the data into groups; a small reader of tables; the scripts of the buttons and the statements behind the data are read from the text of the document |
| C63 | the choice of the printer by ClassSelector from what a type provides, the recursion of the printers with and without bound traits, on a stream and with printf (Model/Export) | structural induction over values; the recursive rules are proved as equations; the JSON reader of C47 |
| C64 | the choice of the serializer with and without bound traits, objects with any described attributes, vectors, arrays, sets, maps, pairs, tuples, TraitsBinder (Model/BoundSerializer) | induction over values with the variable that is read into; compiling is part of the model (`none`) |
| C65 | getInstance as four steps of a thread on a shared pointer (Model/Singleton), what DBGVAR sends to std::cerr operator by operator (Model/ConsoleThreads) | invariants of all schedules; the schedule that breaks the property is given |
| C66 | overload resolution of abs for numbers, its templates for numbers, arrays and classes, conversions between types of numbers (Model/AbsOverload) | induction on the object; the types for which it is wrong are characterised |
| C67 | expansion of the macros to tokens in both modes, the parser for statements with its rule for else, the execution of statements with exceptions and exit (Model/DebugSwitch) | the parser is proved to give the intended statements for all fine programs (mutual induction), then equality of the executions |
| C68 | as in C07, C10-C16, C21, C23, C26-C28, C38-C41 | a relation of two meshes that agree up to the sides without a cell (SameMesh), under which every function is proved to give equal results; setupBoundaryCells is proved to give a related mesh |
| C69 | as in C11, C13-C16, C18, C22, C25, C68; what the file says is in Spec/Loaded | the incidences of the loaded mesh (C18, C22, C25) are computed in terms of the file and put into C11-C16; C68 for the boundary cells |
| C70 | as in C18, C22, C25, C38-C40; convex polyhedra, their volume and the polygons of the file are in Spec/LoadedGeometry | the polygons of the faces and the boundaries of the cells of the loaded mesh (C18, C22, C25) meet the hypotheses of C39, C40 (C39_convex_mesh); nothing that can throw is met because the centers are strictly inside |
| C71 | the same definitions as in C36-C41 (Model/Vector, Model/Geometry), which do not fix the type of numbers, with the numbers of Model/Rounding whose operations round | a calculus of errors (Proofs/Rounding: `Close`, `CloseV`) follows each function; sums by induction over the loops; Gram-Schmidt with the lengths of its exact vectors (gs2, gs3) |
| C72 | the same definitions as in C09-C15 and C36-C41 (Model/Apply, Connections, Coloring, Geometry); Spec/Renumber states what a renumbered mesh is | each function commutes with the renaming, by induction over the walk of a cell, the dimensions and the loops; a loop over all elements in the order of the numbers is the renamed loop because every iteration is independent |
| C73 | the same definitions as in C38-C40 and the loaders; Spec/Divergence defines linear fields, the flux, the Green-Gauss sum and the center of gravity of a plane polygon | Stokes' theorem by hand: the flux through a triangle is a third of the divergence times the signed volume of its cone plus an odd function of its edges; the edge terms cancel around a polygon and around a closed solid; the computed values are those of the solids by C39, C40, C55 and C70 |
| C74 | the writers and loaders of C18-C23 and C51 followed by computeCenters and computeMeasures of C38 and C39; Spec/SavedGeometry defines flat faces and the areas and volumes of fans and cones | the computed values of a mesh with flat faces are functions of the polygons of the faces that do not depend on their starting vertex, direction or order (flat_geometry, polygon_geometry); the loaded mesh has the same polygons (C21, C23, C51); a cell that is split is the union of the cones over its faces, each split into fans |
| C75 | allocateMemory with a reference to an entry: std::vector::resize moves the entries when the capacity is exceeded and destroys the entries that are cut off (Model/DataAlias) | induction on the arrays with what the reference refers to |
| C76 | MeshDataIterator of the writer and of the reader as recursion over the arrays, the columns as in C48 (Model/VtkArrays) | the index of the text is the concatenation of the indices of the arrays; the first entry with a name counts |
| C77 | the functions of C38–C42 with real numbers | Gram–Schmidt commutes with scaling and isometries; determinants for the 2D normals and the orientation |
| C78 | programs of elements as sequences of reads, writes and computations; schedules as lists of element numbers; phases between barriers | what an element sees does not depend on the steps of elements with other entries (induction over the schedule), with C14/C16 (the coloring is proper) and C11 (the connections are the incidence) |
| C79 | the functions of both loggers with the trace of the operations put and flush; the file holds all flushed text and any part of the rest | the trace determines the text (the traced function has the result of the function of C47/C58); induction over the operations for the prefix; the last operation of a call without a place is a flush |
| C80 | the characters that are written (numbers with six significant digits, spaces, ends of lines) and the words that `>>` reads of them, in front of the token model of C18 to C21 | the words of a beginning of a text are the first words of the text, the last one possibly cut; the beginning of a decimal number is a smaller number and not 0; induction over faces and cells with the last number cut |
| C81 | the reader of C18 to C21 on token streams of files without any condition on the numbers of vertices and faces | the checks of the reader and their result for every list of numbers by induction over the cells; the third cell of a face is not registered, so the walk of C09 along its boundary fails |
| C82 | the readers of C22 and C25 on token streams of files without any condition on the numbers of vertices | no step of the readers fails for any numbers, by induction over the cells with the dictionaries leading to existing entries; the cell between the first and the last of the cells of a facet is not registered, so the walk of C09 along its boundary fails |
| C83 | Model/FailedLoad.lean: the readers of C18, C22 and C25 again, with the content of the mesh at the time of an exception (proved to give the same results) | by following the exception through the loops of the readers; what is kept (the boundary cells) is what a later load depends on, C19; the dictionaries of two loads of a file have the same keys, so they add as many edges |
| C84 | Model/VtkText.lean: the characters that are written, `ist.ignore(1024, '\n')` for the two lines of the header, and the words that `>>` reads, by the place in the file, in front of the token models of C22 to C25 and C51 | section by section: a word and what follows it are read as one token; induction over points, cells, vertices of a cell and codes |
| C85 | Model/SignedRaw.lean: the bytes that are hashed; Model/Signed.lean: the member meshSignature (not initialised by a constructor), with the readers of Model/FailedLoad.lean and the writers of Model/Cache.lean | an invariant of all histories of calls: the stored signature is that of the elements as long as the last change of them was signed; the contents of two loads are equal by C19 |
| C86 | Model/Uninit.lean: the readers of Model/Fpma.lean, Model/Vtk.lean and Model/Vtk3.lean with an arbitrary value in the boundary element of each new cell | induction over the cells of the file: what the loop does apart from the boundary elements does not depend on them; an accepted cell with a facet has its own one; every template of a 3D cell has faces |
| C87 | Model/SubInterface.lean: the calls of SubelementContainer<IndexType, 0> and of SubelementContainer<IndexType, Reserve> (Model/Mesh.lean), those that are inherited from std::vector and std::array included | a simulation between the vector and the array over any history; for each call outside of it, a content of the memory for which the results differ |
| C88 | Model/MeshVertex.lean: MeshElement<MeshDim, 0, …> with the operators of Model/Vector.lean, its own assignment of a list, the converting constructor | induction over the statements, with the formulas for the coordinates of C35 |
| C89 | Model/CutFile.lean: saveToFile with the number of bytes that reach the file, then Model/Serializer.lean | the reads of the values that are complete do not look behind them; at the end of the file resetIteratorIfNotValid starts again, so the next passes read the same values; a cut encoding is never read without leaving the buffer (C34) |
| C90 | Model/ContBinary.lean: a container, of one type or of a type for each array, is written and read array by array, with Model/Serializer.lean and Model/DataContainer.lean | induction over the arrays with C30; the sizes after allocateData are those of C17 |
| C91 | Model/CopySerializer.lean: the implicit copy and move operations of the class, with Model/Serializer.lean; an iterator of another buffer counts as one that may not be compared | the values read depend on the bytes and the iterator only, by induction over the reads |

Everything can be expressed in a model; what the model cannot carry is stated per property in
MANIFEST.json and below (rounding outside of C71, text formatting of numbers, compilation and overload resolution).

Where the code does not satisfy the property, the property keeps its full statement in `properties.jsonl`, the theorem
`..._violated` (or a descriptive name) proves the violation on the model, and the `_partial` theorem proves the largest part
we found true; the status in MANIFEST.json is then `partial`.

## Trusted base

* Lean 4.33.0's kernel and the axioms `propext`, `Classical.choice`, `Quot.sound`. AXIOMS.md lists the axioms of every
  theorem named in MANIFEST.json (generated by `tools/axioms.py` from `#print axioms`). No axioms of our own, no `native_decide`.
* Mathlib's definitions used in statements (ordered fields, real numbers, square root, sums).
* The faithfulness of the hand-written model to the cited lines, and the meaning of the small definitions in `Verif/Spec`.

### What is modelled

| file of /repo/src/GTMesh | model | not modelled there |
|---|---|---|
| UnstructuredMesh/UnstructuredMeshDefine.h | Model/Index | - |
| UnstructuredMesh/MeshElements/CellConnection.h, CellBoundaryConnection.h | Model/CellConn | stream operator |
| UnstructuredMesh/MeshElements/MeshElement.h, MeshElements.h | Model/Mesh, Model/Geometry, Model/Cache | begin/end iterators as objects (their sequence is), `appendElement`-like wrappers, memory reserve |
| UnstructuredMesh/MeshElements/ComputationalySignificantElement.h | Model/Geometry (center, measure) | colour and flag accessors are plain fields |
| UnstructuredMesh/MeshFunctions/*.h | Model/Apply, Connections, Coloring, Geometry | the random generator itself (any sequence of draws is allowed), template dispatch |
| UnstructuredMesh/MeshDataContainer/MeshDataContainer.h and traits | Model/DataContainer, Model/Meta | `MeshDataContainer` of user types with throwing constructors |
| UnstructuredMesh/MeshDataContainer/MeshDataIO/*.h | Model/VtkData | overloads that do not compile (below) |
| UnstructuredMesh/MeshIO/MeshReader/*.h, MeshWriter/*.h, MeshNativeType.h | Model/EdgeTable, Fpma, Vtk, Vtk3, Vtk3w, ToString, Print, Cache | number formatting; the state of a writer after an exception |
| UnstructuredMesh/UnstructuredMesh.h | Model/FileFormat (load, write, cell data), wrappers of the functions above | - |
| NumericStaticArray/*.h | Model/Vector | the stream operators |
| Traits/TraitsAlgorithm/TraitsAlgorithm.h | Model/TraitsAlgorithm, Model/AbsOverload | conversions between number types (but for `abs`), the commented overloads |
| Traits/TraitsAlgorithm/TraitsAlgorithm.h | Model/TraitsAlgorithm | conversions between number types; `abs` of a non-class type |
| Traits/TraitsBind/TraitsBind.h | Model/Meta (merging of the selections), Model/Export (their use in printing) | the tuple of bound objects |
| Traits/Traits.h, MemberAccess/* | Model/Traits (and as the trees of named members used by Serializer, TraitsAlgorithm, JsonLog, VtkData) | types of values, `std::bind` accesses, SFINAE of `HasDefaultTraits` |
| CustomTypeTraits.h, FunctionTraits.h, Interfaces/* | Model/Export (as what a class has) | template machinery |
| Singleton/Singleton.h | Model/Singleton | the order of memory accesses below the interleaving of steps |
| Debug/JSONLogger.h, Printers/*, VariableExport.h | Model/JsonLog, Model/Export | pointers other than texts |
| Debug/HTMLLogger.h | Model/HtmlLog, Model/HtmlScript | how a browser parses the document and compares values (`Compare` is a parameter) |
| Debug/ConsoleLogger.h, Debug.h macros | Model/ConsoleLog, Model/ConsoleThreads, Model/DebugMacros, Model/DebugSwitch | the branch for Windows, floating point in the printf variant |
| Utils/*.h | Model/Meta | - |
| Macros/MacroForEach.h | Model/MacroForEach | the branch for MSVC (the same macros with `UNFOLD`) |

### Simplifications

General
* Unsigned indices are `Nat`; overflow of `std::size_t` is modelled only where the code depends on it (the index encoding, C28, C45).
* Memory never runs out; `std::vector` growth is modelled only in the serializer (C50), where it invalidates iterators.
* `&v[0]` of an empty vector is taken as a null-like address that is not read when the length is 0.
* `std::sort` is `insertionSort` (any correct sort gives the same lists, the orders used are total).
* An element's `getIndex()` equals its position in its container. The readers and writers establish this.
* The recursion of templates over dimensions is recursion over `Nat`, with the base where the code specialises it.
* Conversion-to-bool overloads: the non-template `serialize(vector&, const bool)` (SerializeSimple.h) captures any type
  implicitly convertible to `bool`; the model has only types that are not.

Text files
* A file is a list of tokens (words, naturals, reals) and ends of line. The models of the mesh writers put the exact coordinates into the tokens; what is in the
  file are the tokens with `Tok.printed stored` applied, where `stored x` is the value of the text of `x` (Model/Print: six significant digits). C59 and
  Props/PrintMesh carry the results over to the printed files. Reading gives the exact value of a text (C++: the nearest `double`; the C59 theorems about readers hold for
  any change of numbers `fmt`). In `Model/VtkData` the parameter `fmt` stands for print-then-parse.
* Extraction of a number: at the end of the text, and after a failure, the variable keeps its value (undefined behaviour in the model when it has none);
  a word in its place makes it 0 and the stream fails. A real number where an index is read (C++ would read a part of its text) and an index
  where a real number is read (tokens of coordinates are `real`) are undefined behaviour in the model. In `Model/Fpma` a word or a real
  number in the place of a count is undefined behaviour.
* `ist.ignore(k, '\n')` is assumed long enough for the line. Leading blanks and numbers in title lines are simplified to tokens.
* Opening a file succeeds or fails as a whole; exceptions leave the file as written so far and are not followed further, except in Model/CacheThrow (C29).
* the text by which the VTK writer identifies an appended center is a parameter `key` of the model of the writer; Model/ToString gives the text `std::to_string` makes of an exact number (six digits after the point, ties to even), and Props/VtkCenters instantiates the parameter with it.

Geometry
* Exact arithmetic except in C71: the other theorems are over ordered fields or the reals. C71 has the standard model of rounding: every operation returns the exact result with a relative error of at most u; overflow, underflow, NaN, extended precision and fused operations are not modelled.
* Division by zero is the model's `x / 0 = 0` and the theorems assume non-degenerate elements where the C++ would divide by zero.

Logging
* nan and inf are excluded (they are not JSON). `\u` escapes are not in the specification parser. Line numbers are `Nat`.

## Findings (places where the code and the property disagree)

Each is proved as a theorem about the model; see MANIFEST.json for the names.

* C05 swapCellsLR leaves the successor pointers. C08 clear() leaves the boundary cells.
* C19 the FPMA reader appends to existing edges, the VTK readers keep boundary cells and the cell types of the previous file.
* C26 unknown VTK codes are accepted: the exception object is made but not thrown (VTKMeshReader.h).
* C28 the number of integers is kept in an `int`. C29 the signature is blind to faces and types, `lastHash` may be uninitialised or 0, and it is kept when indexing throws although the index is lost.
* C33 reading a set or a map merges with the old content. C34 no read is bounds-checked. C49, C50 cursor after load / after growth.
* C35 `v *= v[i]` uses the changed factor; `v / k` with an integer `k` multiplies by `1 / k = 0`.
* C40 the normal of a face in dimension >= 4 points to the left cell. The method given is dropped in the recursion, so tessellated
  measures are never used by the dimension-generic entry. C41 the center difference has the same sign for a missing left or right side.
* C44 `a - temporary` has no return statement, `pow(number, object)` uses the object as base, empty arrays have maximum 0;
  `-temporary` and `exp(temporary)` return references to temporaries.
* C45 generated names collide. C46 other extensions are accepted; load looks for the extension anywhere in the path.
* C47 texts are not escaped, paths only partly, pairs with non-text keys are not JSON, `create` twice and `destroy` leave a broken file.
* C48 arrays whose length is not the dimension of the mesh; titles that mention a column; an empty container throws.
* C21, C48, C51, C53 coordinates and data are printed with six significant digits (no writer sets the precision): longer numbers do not survive.
* C51, C53 the VTK writer takes two centers for the same point when `std::to_string` gives the same text: split cells of small meshes collapse.
* C52 missing sections of a VTK file are silently skipped.
* C54 the center difference of a face without a left cell changes its sign when boundary cells are added.
* C56 a cell that is the right cell of its base face is exported inside out when the first edge of the face has the orientation `false` (`indexFace` reverses the edge only for the left cell).
* C57 no reader looks at the state of the stream: an FPMA text cut anywhere is undefined behaviour, a VTK text cut after the keywords is read with zeros (or
  undefined behaviour at a count), data cut off repeat the last value.
* C58 the HTML logger does not escape names (`'`, backslash) and texts (`"`, `</script`): the script of the document does not run;
  calls without a place write no row and spoil the array; a second `create` leaves the first file without its end; `destroy` leaves a dangling pointer.
* VTKMeshDataReader.h:184 calls a member `writeToStream` of the reader's iterator, which does not exist: a mesh data container with a second exportable container does not compile.
* `initializeCenters(const centers&)` (UnstructuredMesh.h:52-62) calls the non-const `setCenter` through `const auto&`: it does not compile when used.
* C60 `ConsoleLogger::reset` sets the indentation `...` instead of `||`; `DBGVAR_STDIO` passes (line, file, function) to parameters (line, function, file); the
  `printf` format for `unsigned int` is `%ud`. (`writeMessageC` with several messages, and `DBGVAR_STDIO` of an `unsigned long`, do not compile.)
* C61 `FOR_EACH` with more than 40 arguments whose 41st is a number written with two digits (`DBGVAR(..., 05)`) silently drops arguments instead of failing to
  compile (part of C61_for_each_many). `DBGVAR_CSV` never compiles (`DBGStatics` has no CSV logger).
* C62 The page of an HTML log: 'filter' on a page without filters shows nothing (`apliedRule` is undefined, no case applies; C62_no_filter_violated); a filter
  without a name matches nothing (`varData[3] == ""` tests the name of the variable, not of the filter; C62_any_name_violated); 'add filter' clears the fields
  of the other filters (`innerHTML +=`; C62_add_filter_violated); variables can be shown twice when filters of rows and groups are mixed (C62_mixed_violated);
  the first filter that matches decides about row or group (C62_order_violated); names with `<` are shown wrong (C62_tag_violated).
* C63 Printing: an array of characters is put without quotes and prints `true` with printf (C63_char_array_violated, C63_char_array_stdio_violated);
  `int8_t`, `uint8_t` are put as characters, not as numbers (C63_byte_violated); with printf, `unsigned` gets a `d` ("%ud") and `long`, `size_t` and containers
  of them are ambiguous (C63_unsigned_violated); classes with `<<` alone or with only the stream PrintTo do not compile with printf (C63_class_stdio_violated);
  traits bound to a part drop those bound to the whole (C63_nested_violated).
* C64 Serialization with bound traits: traits for the classes of attributes have no effect (C64_secondary_violated), nor traits bound to pairs and tuples
  (C64_pair_violated); a container of simple values with bound traits does not compile (C64_simple_container_violated), nor a set or map (C64_bound_set_violated).
* C65 Threads: when the first uses of the HTML or JSON macros overlap, two objects are made and a thread is left with a reference to a destroyed one
  (C65_overlap_violated; it is safe to use the macros once before the threads start, C65_warm). Two threads using DBGVAR: a variable is shown below the place of
  the other thread (C65_console_violated).
* C66 `abs`: without `<math.h>` in front of the header the attributes are cut to integers (C66_real_violated); `abs` of a short, a char or an unsigned number, or of an
  array of them, calls itself without end, also in user code that has nothing to do with traits (C66_endless_violated); unsigned attributes do not compile or are
  wrong (C66_unsigned_violated); containers of the standard library as attributes do not compile (C66_namespace_violated).
* C67 `if (c) DBGVARCOND(d, v); else a;`: the else goes to the macro (C67_else_violated); `DBGTRY` in front of an else does not compile (C67_try_else_violated), with
  several expressions as a branch it is not one statement under UNDEBUG (C67_try_branch_violated); it calls exit(1) for an exception (C67_exception_violated); the
  stdio macros have no definition under UNDEBUG, DBGVAR_CSV compiles only there (C67_undefined_violated).
computeCenters takes the mean of the centers of the sub-elements for the center of a face, which is not its center of gravity unless the face is a triangle, a parallelogram or similar: on a truncated corner with trapezoids the flux of (0, 0, z) is 5/2 and the volume 7/3 (C73_violated_3d), so a finite volume scheme is not exact for linear functions on such cells.
computeMeasures takes the height of the pyramid over a face from the plane through the center of the face and its first edge. For a face that is not flat the volume therefore depends on which edge comes first, and it can change when the mesh is saved and loaded.
allocateData(mesh, container.getDataByPos<0>()[0]) with two or more arrays reads released memory when the first array is moved (or loses the entry) and a later array gets new entries (C75_violated). Also, allocateData(otherContainer) without an initial value does not compile: the overload of allocateMemory it needs takes MeshDataContainer<_DataTypes..., _Dimensions...>, whose arguments cannot be deduced.
Two arrays with a column of the same name (such as two arrays of one class) are both written, but the second one is read with the data of the first one (C76_same_name_violated). A container in which another array than the first one has traits cannot be read: the recursion of VTKMeshDataReader calls MeshDataIterator<Index - 1>::writeToStream, which does not exist (C76_reader_violated). The overloads of VTKMeshDataWriter::writeToStream and VTKMeshDataReader::readFromStream for a single DataContainer call functions that do not exist (writeData, readData).
The calls with a place, those of `DBGVAR_JSON` and `DBGVAR_HTML`, never flush the stream: a crash may lose the complete log, which is the situation it is written for.
A FPMA file that ends within the digits of its last number, the last face of the last cell, is read without an error as another mesh: 10 becomes 1 (C80_other_mesh_violated). A file that ends further in front is read with undefined behaviour (a count or a face number that was never set is used), not with an exception (C80_cut_violated).
* FPMAMeshReader accepts files in which a cell lists a face twice or three cells list the same face, and files with vertices that do not exist; the walk along the boundary of some cell then does not give its faces (C81_not_a_mesh_violated), an edge leads to a vertex that is not there (C81_vertex_violated). The invalid index is accepted in the middle of a cell (C81_accepted_partial).
* VTKMeshReader accepts every complete 2D file whose types belong to cells, and every complete 3D file with 4, 5, 6 or 8 vertices in each cell (C82_accepted2_partial, C82_accepted3_partial), also with types that contradict the vertices. When three cells have the same side or face the walk along the boundary of some cell is wrong (C82_three2_violated, C82_three3_violated); an edge can lead to a vertex that is not there (C82_vertex_violated).
* A load that fails does not keep the mesh: a VTK reader clears it behind the keywords. A 3D file with a cell of an unknown number of vertices leaves its vertices and its number of cells, some without a boundary element (C83_unfinished_violated). An FPMA file with a face number that does not exist leaves all its edges, which every later load keeps in front of its own (C83_fpma_violated). A face that does not fit in the static reserve is left with the edges that fit: in 3D VTK without a number (C83_full_vtk3_violated), in FPMA with the edge that did not fit in the mesh (C83_full_fpma_violated); the face is then full, and the mesh refuses every later file with a polygon of that number (C83_full_stays_violated). `UnstructuredMesh::load` also loses the reader object then (a plain pointer, UnstructuredMesh.h:252-261; memory is not modelled).
* C84: a name of the data set with an end of line in it, or with more than 1024 characters, is written as it is. `VTKMeshReader` takes the rest of it for the kind of the file and refuses the file (C84_name_violated).
* C85: VTKMeshReader<2> does not update the signature of the mesh (the 3D readers do): after a load getSignature returns the one of the previous content, or an uninitialised member for a new mesh (C85_vtk2_violated, C85_vtk2_stale_violated). A 3D load that throws has changed the mesh and not its signature (C85_failed_violated). The signature is a hash of the memory of the elements (MeshElements.h:225-307): bytes that belong to no member, such as those behind the `int flag` of a cell, and places of a static list of sub-elements that were never written change it, so equal meshes can have different signatures and a writer repeats work or a check of the signature fails without a reason (C85_padding_violated, C85_reserve_violated, C85_same_file_violated).
* The constructor of a cell does not initialise its boundary element (MeshElement.h:247-255). An FPMA file with a cell without faces and a 2D VTK file with a cell without vertices are accepted, and this member of the cell stays indeterminate (C86_fpma_violated, C86_vtk2_violated); a 3D VTK load always sets it (C86_vtk3).
* A list of sub-elements with a static reserve inherits `at`, `front`, `back`, `rbegin`, `rend` and `empty` from std::array, which see all reserved places: `empty()` is always false, `back()` and a loop backwards give places that were never written, `at(i)` behind size() does not throw (C87_observable_violated, C87_never_empty_violated). `removeSubelement` compiles neither with a reserve (a braced pair is assigned to an index) nor without (`erase` gets a number).
* `MeshElement<MeshDim, 0, …>::operator=(std::initializer_list<Real>)` (MeshElement.h:189-192) has no return statement: `mesh.getVertices().at(0) = {0, 1}`, as in the tests of the project, is undefined behaviour (C88_braces_violated). It also names `Vertex<MeshDim, double>`, so it does not compile for another Real. `vertex = 3` compiles, it makes 3 the index and moves the vertex to the origin (C88_number_violated).
* `saveToFile` empties the file and does not look at the stream after `write`: on a full device it returns as if all was saved (C89_not_reported_violated). A file that was cut off is not recognised: behind its last complete value the next `read` starts at the beginning again, so records 7, 8, 9 come back as 7, 7, 7 without an error (C89_other_values_violated); cut within a value, or empty, the read is undefined behaviour (C89_within_violated, C89_empty_violated).
* A mesh data container that is read from a serializer takes the sizes of the arrays from the data. For a mesh with more elements than the one it was written for, `container[element]` then leaves the array (C90_other_mesh_violated). The dimensions are not stored: a container for other elements with as many arrays takes them without an error (C90_other_dimensions_violated).
* `BinarySerializer` keeps an iterator into its buffer and has implicit copy operations. A copy of a serializer that was read from has an iterator of the other buffer, and `isIteratorValid` compares it with the own one: every read from the copy is undefined behaviour (C91_copy_violated; libraries that compare addresses start again at the first value, not at the next one). The same happens with a serializer that was moved away and is written to again without `clear()` (C91_moved_from_violated).
* Code that does not compile when instantiated (read, not modelled): the data reader's iterator for several containers calls
  `writeToStream`; `writeData`/`readData` are undeclared in the DataContainer overloads. The bool overload of deserialize is never
  selected; std::list and vector<bool> are not deserializable; a traited class given with a traits tuple ignores nested traits
  (SerializeTraitedClass.h:22-29). `operator[]` of a tuple MeshDataContainer with an integer_sequence gives the array at the position as the type of the
  array of that dimension (MeshDataContainer.h:621-641).

## Wrong programs

`seeded/LOG.jsonl` has one line per wrong program tried on a scratch copy: the definition edited, the edit, the claim it breaks, the
theorems that no longer prove, and the theorems tightened because of it.
