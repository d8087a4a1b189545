{"id": "C01", "title": "Index lists obey list semantics", "statement": "For an indexlist holding a range or a list, list() enumerates the indices; size is the length of list() whenever the range is not reversed by more than one; append(l) makes list() the old list() followed by l; shift(n) makes a new object whose list() is every index plus n and leaves its type unchanged; a + b has list() equal to the concatenation. An unset index raises on list().", "quantifier": "every range [a,b], every list of integers, every shift, every appended list, and every finite sequence of these operations", "why_tests_cant": "ranges and lists are interchangeable representations; tests can only sample a few operation sequences and boundaries (empty range, reversed range)", "anchors": ["cfdtools/meshbase/_connectivity.py: indexlist.size, list, append, shift, __add__, set_range, set_list"]}
{"id": "C02", "title": "compress() never changes the indices", "statement": "After compress(), list() returns exactly the same indices in the same order; the representation is a range if and only if the indices were consecutive increasing (or it already was a range). An empty list raises IndexError.", "quantifier": "every indexlist content", "why_tests_cant": "the compression test is arithmetic over the whole list; a wrong boundary only shows on particular lists", "anchors": ["cfdtools/meshbase/_connectivity.py: indexlist.compress"]}
{"id": "C03", "title": "Default element numbering is a bijection in every history", "statement": "After any sequence of add_elems calls without explicit index, in any order and with repeated element types, the k-th row ever added (counting rows over all calls, from 0) is stored with index k under its element type, rows of each type keep their order, nelem is the total number of rows, and all_elems lists each type once in first-use order.", "quantifier": "every finite sequence of add_elems(etype, rows) calls with rows of the right width", "why_tests_cant": "interleavings of element types are unbounded", "anchors": ["cfdtools/meshbase/_connectivity.py: elem_connectivity.add_elems, all_elems, all_index, nelem"]}
{"id": "C04", "title": "Connectivity check accepts exactly valid numberings", "statement": "elem_connectivity.check() accepts a non-empty connectivity exactly when its element indices are 0..n-1, each used once. (The code additionally requires the concatenated indices to be already sorted in type order, so a valid numbering whose types interleave is rejected: the exact condition is proved, and the English claim is refuted by a witness.)", "quantifier": "every connectivity with any mix of element types and any indices", "why_tests_cant": "validity is a global condition over an unbounded index set", "anchors": ["cfdtools/meshbase/_connectivity.py: elem_connectivity.check"]}
{"id": "C05", "title": "Compressed face connectivity survives import then export", "statement": "Importing a compressed (offset, value) face connectivity with faces of 1 to 4 nodes and exporting it again yields the same offsets and the same values: no face is lost, reordered or rotated. A face with any other number of nodes raises KeyError.", "quantifier": "every list of faces of 1..4 nodes, in any mix and order, any node numbers", "why_tests_cant": "the import regroups faces by node count and the export re-sorts them; every interleaving of face sizes must be undone exactly", "anchors": ["cfdtools/meshbase/_connectivity.py: elem_connectivity.importfrom_compressedindex, exportto_compressedindex", "cfdtools/meshbase/_elements.py: face_from_nnode"]}
{"id": "C06", "title": "Compressed export lists the nodes of face k at position k", "statement": "For a connectivity whose indices are 0..n-1 each used once (in any type order), the exported offsets start at 0, are non-decreasing, end at the length of the value array, and the slice between offsets k and k+1 is exactly the node list of the element with index k. Re-importing gives the same (index, nodes) pairs when elements have 1..4 nodes.", "quantifier": "every validly numbered connectivity", "why_tests_cant": "the claim is about all positions of an unbounded array produced by sort and cumulative sum", "anchors": ["cfdtools/meshbase/_connectivity.py: elem_connectivity.exportto_compressedindex, index_elem_tuples"]}
{"id": "C07", "title": "Merging connectivities renumbers them one after the other", "statement": "importfrom_merge((c1,...,cm)) of validly numbered connectivities yields a validly numbered connectivity in which element j of ci has index j plus the total number of elements in c1..c(i-1), with unchanged nodes. (Holds for m <= 2, which is all the package uses; refuted for m >= 3 because the shifts are not accumulated.)", "quantifier": "every tuple of validly numbered connectivities", "why_tests_cant": "requires reasoning about all list lengths and all index contents", "anchors": ["cfdtools/meshbase/_connectivity.py: elem_connectivity.importfrom_merge"]}
{"id": "C08", "title": "Generated faces cover every cell face exactly once", "statement": "When face generation succeeds, every face of every cell (as a node set, per face type) occurs exactly once among the generated faces: as a boundary face if exactly one cell face has this node set, as an internal face if at least two have it; nothing else is generated and no node set appears twice.", "quantifier": "every cell connectivity (any mix of supported element types, any size, any node numbering) for which create_faces_from_elems returns", "why_tests_cant": "meshes are unbounded; a missed or duplicated face in one configuration is invisible on sample meshes", "anchors": ["cfdtools/meshbase/_connectivity.py: elem_connectivity.create_faces_from_elems", "cfdtools/meshbase/_mesh.py: Mesh.make_face_connectivity"]}
{"id": "C09", "title": "Generated faces know their cells", "statement": "Generated faces are numbered from 0 and row k of the face-to-cell table belongs to the face with index k: for a boundary face it is (c,-1) where c is the index of the only cell having that face; for an internal face it is (c1,c2), the cells of two different cell faces with these nodes (the only two in a conforming mesh), and the node order of the generated face is the reversed table order of c1, i.e. it is oriented outward from c1.", "quantifier": "every cell connectivity for which create_faces_from_elems returns, every generated face", "why_tests_cant": "alignment of two independently built arrays over all meshes", "anchors": ["cfdtools/meshbase/_connectivity.py: elem_connectivity.create_faces_from_elems, _find_duplicates, face_from_ufacedict"]}
{"id": "C10", "title": "Non-conforming meshes are refused", "statement": "If some face node set is shared by three or more cell faces, face generation raises instead of silently dropping a cell. (Refuted: the count assertion only catches it when there are not enough boundary faces; the exact acceptance condition and the exact face counts are proved.)", "quantifier": "every cell connectivity", "why_tests_cant": "needs the exact set of accepted meshes, not samples", "anchors": ["cfdtools/meshbase/_connectivity.py: elem_connectivity.create_faces_from_elems (assertions)"]}
{"id": "C11", "title": "Element face tables are closed and inward oriented", "statement": "For each supported linear volume element the face table lists each geometric face of the reference element once, every edge of the element is shared by exactly two faces and traversed in opposite directions, and every face normal points inward; consequently, for every tetrahedron, parallelepiped, prism or pyramid with positive volume in any ordered commutative ring, every generated boundary face is oriented outward.", "quantifier": "all element types in the tables; all affine images (all coordinates) of the reference elements with positive determinant", "why_tests_cant": "the orientation claim ranges over all coordinates", "anchors": ["cfdtools/meshbase/_elements.py: cgns_elem2faces, gmsh_elem2faces, set_inward_normal, group_faces_by_type"]}
{"id": "C12", "title": "Node-ordering conversions are inverse permutations", "statement": "For every element type, the CGNS to Gmsh and Gmsh to CGNS node orderings are permutations inverse of each other, so converting a connectivity row one way and back returns the same row.", "quantifier": "every element type in the tables and every connectivity row of the right width", "why_tests_cant": "rows range over all node numbers", "anchors": ["cfdtools/meshbase/_elements.py: cgns2gmsh_perms, gmsh2cgns, cgns2gmsh"]}
{"id": "C13", "title": "Extruded element types are supported types", "statement": "The element type obtained by extruding a supported 2D element is one for which faces can be generated and the node count doubles. (Refuted for tri3, which becomes 'penta6', unknown to the face tables, whereas 'prism6' is expected; proved for the others.)", "quantifier": "all element types in the extrusion table", "why_tests_cant": "needs consistency between separate tables and the generation code on any mesh of that type", "anchors": ["cfdtools/meshbase/_elements.py: extruded_face, elem_properties", "cfdtools/meshbase/_connectivity.py: elem_connectivity.extrude, create_faces_from_elems"]}
{"id": "C14", "title": "Mixed face export keeps faces and cells aligned", "statement": "Whenever export_mixedfaces() returns, boundary faces come first with unchanged index, then internal faces shifted by the number of boundary faces, and row k of the returned face-to-cell table is the row of the face with index k in its own connectivity. For faces generated from cells it returns exactly when each face type of the cells has a face belonging to a single cell (otherwise it raises, although the faces were generated). Without the cells of the boundary or of the internal faces it raises.", "quantifier": "every mesh with boundary and internal faces (as produced by make_face_connectivity, reindexed or not)", "why_tests_cant": "alignment property over all face counts and type mixes", "anchors": ["cfdtools/meshbase/_mesh.py: Mesh.export_mixedfaces, add_faces, make_face_connectivity"]}
{"id": "C15", "title": "Node marks become exactly the boundary faces they enclose", "statement": "After bocomarks_set_node_to_face(), a mark that was node based contains exactly the indices of the boundary faces all of whose nodes are in the mark's node list; face-based marks are unchanged; names and order of marks are unchanged.", "quantifier": "every mesh with boundary faces and every set of marks", "why_tests_cant": "set comprehension over all faces and all node subsets", "anchors": ["cfdtools/meshbase/_mesh.py: Mesh.bocomarks_set_node_to_face"]}
{"id": "C16", "title": "Every boundary face ends up marked", "statement": "After make_unmarked_BC(name), every boundary face index belongs to at least one mark and other marks are untouched; the returned list is exactly the previously unmarked face indices; a second call returns an empty list. When there are boundary faces, a mark that is not on faces, or one without index, is refused. (Requires that no mark already has this name: otherwise that mark is overwritten and its faces become unmarked: refuted by witness.)", "quantifier": "every mesh with boundary faces and every set of marks", "why_tests_cant": "set difference over unbounded index sets and a name collision corner", "anchors": ["cfdtools/meshbase/_mesh.py: Mesh.make_unmarked_BC, list_boco_index, add_boco"]}
{"id": "C17", "title": "Checking a mesh does not change the verdict", "statement": "Mesh.check() called twice gives the same verdict. (Refuted: a failing first call creates a mark for the unmarked faces so that the second call succeeds; proved: after a successful check the mesh is unchanged and every later check succeeds.)", "quantifier": "every mesh state and every number of repeated calls", "why_tests_cant": "a statement about all histories of calls", "anchors": ["cfdtools/meshbase/_mesh.py: Mesh.check, make_unmarked_BC, _check_cell2node"]}
{"id": "C18", "title": "Boundary reindexing is a consistent renumbering", "statement": "When reindex_boundaryfaces() succeeds on face-based marks, it is a permutation of the boundary faces applied consistently: there is a bijection of face numbers such that each renumbered face keeps its nodes and its cell row, each mark designates the same faces as before, and every mark becomes a contiguous range, the ranges following each other in mark order from 0 to nface-1. Internal faces are untouched. If marks overlap, leave faces out or designate unknown faces it raises.", "quantifier": "every mesh with boundary faces and every set of face marks (including overlapping, empty or incomplete marks)", "why_tests_cant": "three arrays must be permuted consistently for every permutation", "anchors": ["cfdtools/meshbase/_mesh.py: Mesh.reindex_boundaryfaces"]}
{"id": "C19", "title": "Face count is right after every history of face edits", "statement": "After any sequence of add_faces and pop_faces, the stored faces are those last added and not popped. nface equals the total number of stored faces whenever the last edit was an add_faces. (Refuted for histories ending with pop_faces, which leaves nface stale.)", "quantifier": "every finite sequence of add_faces / pop_faces on any face type names", "why_tests_cant": "unbounded histories", "anchors": ["cfdtools/meshbase/_mesh.py: Mesh.add_faces, pop_faces, nface"]}
{"id": "C20", "title": "Extrusion builds the product mesh", "statement": "export_extruded(direction, extrude, domain) on N nodes with p >= 2 planes has p*N nodes, node k*N+j being node j translated by extrude[k]*direction, and (p-1) cells per original cell, layer k of a cell with nodes (v1..vm) having nodes (v1+k*N..vm+k*N, v1+(k+1)*N..vm+(k+1)*N); all its nodes exist if the original ones did. Fewer than 2 planes raises, as does a mesh without cells or with cells of another type than node, bar, triangle and quadrangle.", "quantifier": "every 2D mesh, every number of planes, every direction and distribution of planes", "why_tests_cant": "index arithmetic over all sizes", "anchors": ["cfdtools/meshbase/_mesh.py: Mesh.export_extruded", "cfdtools/meshbase/_connectivity.py: elem_connectivity.extrude"]}
{"id": "C21", "title": "Extruded cells are numbered 0..ncell-1", "statement": "The extruded mesh's cell indices are 0..ncell-1, each used once. (Refuted as soon as there are at least 2 layers: the code shifts cell indices by the number of nodes instead of the number of cells; proved exact index values, uniqueness condition, and the full claim for one layer.)", "quantifier": "every 2D mesh and every number of planes", "why_tests_cant": "holds for some sizes (one layer) so sample tests pass", "anchors": ["cfdtools/meshbase/_connectivity.py: elem_connectivity.extrude"]}
{"id": "C22", "title": "Extrusion keeps boundary marks", "statement": "Each node mark of the extruded mesh contains exactly the copies in all planes of the nodes of the original mark, and two marks domain0/domain1 contain exactly the nodes used by cells in the first and last plane. (When a mark is already named domain0/domain1 it is replaced.)", "quantifier": "every 2D mesh, all marks, all plane counts", "why_tests_cant": "ranges over all node sets and plane counts", "anchors": ["cfdtools/meshbase/_mesh.py: Mesh.export_extruded", "cfdtools/meshbase/_connectivity.py: elem_connectivity.nodelist"]}
{"id": "C23", "title": "Cube numbering is a bijection", "statement": "For Cube(nx,ny,nz), (i,j,k) -> node number and (i,j,k) -> cell number are bijections onto 0..nnode-1 and 0..ncell-1, in the order the coordinates and cells are stored: node number n has coordinates (i/nx,j/ny,k/nz), and every cell's 8 nodes are its corners in positively oriented hexahedron order.", "quantifier": "all nx, ny, nz >= 1", "why_tests_cant": "tests use fixed sizes", "anchors": ["cfdtools/meshbase/simple.py: Cube.nodeglobindex, elemglobindex, nodes_ijk, elem_ijk, _elems, nodes_xyz"]}
{"id": "C24", "title": "Cube faces and marks are complete", "statement": "For a Cube mesh with at least two cells, make_face_connectivity() succeeds with 2(nx*ny+ny*nz+nx*nz) boundary faces and 3nx*ny*nz-nx*ny-ny*nz-nx*nz internal faces; after bocomarks_set_node_to_face() every boundary face belongs to exactly one of the six marks and none is left unmarked; each internal face separates the two neighbouring cells. (A one-cell cube raises an assertion.)", "quantifier": "all nx, ny, nz >= 1", "why_tests_cant": "parametric in the mesh size", "anchors": ["cfdtools/meshbase/simple.py: Cube.export_mesh", "cfdtools/meshbase/_mesh.py: Mesh.make_face_connectivity, bocomarks_set_node_to_face"]}
{"id": "C25", "title": "Binary section headers round-trip", "statement": "A restart section header written with either byte order and read with the same one yields the same name (ASCII, at most 52 characters, no NUL), identifier, skip, 8 integers and 16 reals, and takes exactly 256 bytes. Longer names are cut to 52 characters; out-of-range integers and non-ASCII names raise.", "quantifier": "all header contents and both byte orders", "why_tests_cant": "2^2048 headers", "anchors": ["cfdtools/ic3/_ic3.py: restartSectionHeader.write, readVar, BinaryWrite, BinaryRead"]}
{"id": "C26", "title": "Byte order and version are detected", "statement": "Opening an IC3 file written with any version number in either byte order selects the right byte order and the right version. (That a file with a wrong magic number is refused is refuted: any other content is read as little endian.)", "quantifier": "all 32-bit versions, both byte orders; all 8-byte prefixes", "why_tests_cant": "ranges over all versions and all prefixes", "anchors": ["cfdtools/ic3/_ic3.py: binreader._ReadRestartHeader", "cfdtools/ic3/writerV2.py: writer.__WriteRestartHeader"]}
{"id": "C27", "title": "Section scan terminates and finds the first match", "statement": "Scanning the sections of any byte string terminates (each step moves forward); on a well-formed file it returns the first section at or after the start with one of the wanted identifiers, positioned at its payload, or reports absence when the end-of-file section comes first; section names beginning with DEOF stop the scan early.", "quantifier": "every byte string; every well-formed sequence of sections with any payload", "why_tests_cant": "termination on every input and search over unbounded files", "anchors": ["cfdtools/ic3/_ic3.py: restartSectionHeader.readVar, binreader.read_headers"]}
{"id": "C28", "title": "IC3 mesh write/read round trip", "statement": "Writing a mesh with the V2 or V3 IC3 writer and reading it back with the IC3 reader, in either byte order and with or without the integrity check, returns the same node coordinates (bit for bit), face-to-node lists, face-to-cell rows, cell/face/node counts, boundary marks (name, type, range, periodic data padded to 16 values) and partition; the only additional mark is the zone of internal faces.", "quantifier": "all meshes written without exception whose content fits the format: faces of 1 to 4 nodes, cell numbers up to the last cell which has at least one face, marks that are ranges of faces with distinct names other than 'internal-domain', ASCII names up to 52 characters not starting with DEOF, data as in C29", "why_tests_cant": "format round trip over unbounded arrays", "anchors": ["cfdtools/ic3/writerV2.py: writer.write_data and sections", "cfdtools/ic3/writerV3.py: writer", "cfdtools/ic3/reader_legacy.py: reader.read_data, _ReadRestartConnectivity"]}
{"id": "C29", "title": "IC3 data write/read round trip", "statement": "Cell scalars, vectors and tensors, node scalars, iteration, time and time step written by the IC3 writers are read back with the same names and values (doubles bit for bit; integer scalars too with V3) and nothing else appears, provided the number of cells differs from the numbers of nodes and faces. Outside these conditions the claim fails and this is shown: with as many cells as nodes cell data come back as node data, node vectors disappear, averaging weights come back under another name.", "quantifier": "all data arrays, all meshes of C28, both writers and byte orders", "why_tests_cant": "ranges over all names/values and coincidence of counts", "anchors": ["cfdtools/ic3/writerV2.py: __WriteRestartVar, __WriteInformativeValues", "cfdtools/ic3/writerV3.py: __WriteRestartVar", "cfdtools/ic3/reader_legacy.py: _ReadRestartVar, _ReadInformativeValues"]}
{"id": "C30", "title": "A partially written IC3 file is never accepted", "statement": "If writing is interrupted at any byte (crash, or an exception raised by the writer itself), reading the resulting file raises an error: no strict prefix of a written file is accepted as a mesh.", "quantifier": "every crash point (every strict prefix) of every file written for a mesh whose names fit the format (ASCII up to 52 characters, not starting with DEOF)", "why_tests_cant": "crash points are unbounded", "anchors": ["cfdtools/ic3/writerV2.py: writer.write_data", "cfdtools/ic3/reader_legacy.py: reader.read_data", "cfdtools/ic3/_ic3.py: BinaryRead"]}
{"id": "C31", "title": "Re-writing a read IC3 file is byte-identical", "statement": "Reading a file produced by the V2 (resp. V3) writer and writing it again with the same writer and byte order gives the same bytes, when the data have no averaging weight and no vector at the nodes (with a node vector the claim fails, and this is shown). Writing what was read with the other version or in another byte order gives the bytes that the first mesh gives with this version and order, except that going through V2 loses integer types and degrees of freedom: there, for real data with one degree of freedom.", "quantifier": "all meshes and data covered by the round trip (scalars/vectors/tensors at cells, scalars at nodes)", "why_tests_cant": "byte equality over all files", "anchors": ["cfdtools/ic3/writerV2.py: writer", "cfdtools/ic3/writerV3.py: writer", "cfdtools/ic3/reader_legacy.py: reader"]}
{"id": "C32", "title": "Face zones tile the faces", "statement": "The zones of an IC3 file (marks then the internal zone) cover every face exactly once when there is at least one mark and the marks designate the first faces 0..k-1, each once. With no mark at all this fails, and this is shown: face 0 belongs to no zone.", "quantifier": "all face counts and all lists of marks given as non-empty ranges, all meshes of C28", "why_tests_cant": "off-by-one boundaries over all partitions", "anchors": ["cfdtools/ic3/writerV2.py: writer.__WriteRestartConnectivity"]}
{"id": "C33", "title": "IC3 V4 boundary ranges round-trip", "statement": "Names, kinds and face ranges of the marks written by the V4 writer are read back identically, with the first three values of their periodic data, when the marks designate the first faces 0..k-1 (k >= 1), each once, by non-empty ranges, and the names have at most 128 characters; the internal zone read holds the other faces and there is no other mark. In general each mark is read up to the first face of the next one: with faces between two marks that belong to no mark, with no mark, with names longer than 128 characters or with a periodic mark called 'labels', 'offsets' or 'kinds' the claim fails, and this is shown.", "quantifier": "all meshes of C28 with numbers on 32 bits, all lists of marks", "why_tests_cant": "offset encoding over all lists", "anchors": ["cfdtools/ic3/writerV4.py: writer", "cfdtools/ic3/readerV4.py: reader"]}
{"id": "C34", "title": "IC3 V4 arrays round-trip", "statement": "Counts, coordinates and faces (nodes and cells) written by the V4 writer are read back identically; so are the arrays RHO, RHOU, RHOE and the statistics (names with _AVG, _RMS or _REY, in upper case), with one row per cell (a tensor comes back with its 9 components in a row), the iteration, the time and the averaging weights; no other array is read. A solution lacking RHO, RHOU or RHOE is refused by the reader. When the mesh has a cell connectivity the file also holds, for each cell type, the nodes of its cells in the order of the mesh (not their numbers).", "quantifier": "all meshes of C28 with numbers on 32 bits, all numbers of cells and components", "why_tests_cant": "reshape arithmetic over all sizes", "anchors": ["cfdtools/ic3/writerV4.py: writer", "cfdtools/ic3/readerV4.py: reader.read_vars"]}
{"id": "C35", "title": "Safe output names never exist and are minimal", "statement": "find_safe_newfile() terminates and leaves a file name that does not exist, in the same folder and, unless the name ends with a dot, with the same suffix; it is the original name if free (returning False), otherwise the stem followed by (i) with the smallest i >= 1 that is free (returning True).", "quantifier": "every finite file system content and every file name", "why_tests_cant": "unbounded set of existing files", "anchors": ["cfdtools/api.py: _files.find_safe_newfile"]}
{"id": "C36", "title": "Conversion never overwrites an existing file", "statement": "The mesh conversion command (write_generic) and the HDF5 dump of a vtkList write only to a path that did not exist when it was chosen: every existing file, in particular the input file, is preserved whatever --outpath and suffix are given, and the conversion terminates. (The cube command and the XDMF file written beside a dump do not look for a safe name and do overwrite: shown by witnesses.)", "quantifier": "every file system content, every input name, options and output format", "why_tests_cant": "ranges over all file systems", "anchors": ["cfdtools/_cli.py: cli_argparser/write_generic, cfdwritecube", "cfdtools/api.py: _files.change_suffix, change_dir, remove_dir"]}
{"id": "C37", "title": "Removing data removes it", "statement": "After pop_nodedata(name) or pop_celldata(name) (and --remove-cell-data name) the mesh has no data called name, other data being unchanged; remove_boco(name) removes exactly the mark of this name, and raises KeyError if there is none. (Refuted for cell data: the data is returned but not removed; and for node data read from an IC3 file: AttributeError.)", "quantifier": "every mesh data set and name", "why_tests_cant": "state property over all data sets", "anchors": ["cfdtools/meshbase/_mesh.py: Mesh.pop_celldata, pop_nodedata, remove_boco", "cfdtools/_cli.py: write_generic"]}
{"id": "C38", "title": "Format detection is deterministic in every registration history", "statement": "After any sequence of reader/writer registrations, a file name is attributed to a format if and only if exactly one registered format has its extension (last registration wins); none or several raise; an explicit --fmt always wins. Registering a reader never discards a writer of the same format and conversely.", "quantifier": "all registration histories and file names", "why_tests_cant": "unbounded histories", "anchors": ["cfdtools/api.py: fileformat_reader, fileformat_writer, _fileformat_map", "cfdtools/_cli.py: cli_argparser.parse_filenameformat"]}
{"id": "C39", "title": "Timer accounts for all running intervals", "statement": "Over any sequence of start/pause/stop/reset calls, start raises exactly when running, pause raises exactly when not running, stop raises when not running (and, by a division by zero, when it is given zero elements), and the elapsed time is the sum of the closed intervals since the last stop/reset, hence non-negative with a monotonic clock. Leaving a with-block closes the interval even on exceptions.", "quantifier": "all call sequences and all clock readings", "why_tests_cant": "unbounded histories", "anchors": ["cfdtools/api.py: Timer.start, pause, stop, reset, elapsed"]}
{"id": "C40", "title": "Memoization is transparent", "statement": "A memoized function with hashable arguments returns, in every call sequence, what the function returns for these arguments (provided that it returns the same for arguments that are equal in Python), evaluates it at most once successfully per class of equal arguments, and its statistics satisfy hits+misses = number of calls with hashable arguments, currsize = number of classes of equal arguments successfully evaluated. A function that reads a state keeps returning its first value.", "quantifier": "all functions (including raising ones) and all call sequences", "why_tests_cant": "unbounded histories", "anchors": ["cfdtools/api.py: memoize"]}
{"id": "C41", "title": "Gmsh 4.1 nodes all receive their coordinates", "statement": "Reading a well-formed Gmsh 4.1 file whose node tags are 1..n, in any blocks and any order, gives node tag t the coordinates listed for tag t, provided the last block that has nodes has at least two. Otherwise the claim fails and this is shown: the only node of such a last block gets no coordinates, silently.", "quantifier": "all block decompositions and tag orders", "why_tests_cant": "depends on how nodes are distributed over blocks", "anchors": ["cfdtools/gmsh/reader.py: reader.__read_sections_V4"]}
{"id": "C42", "title": "Gmsh 2.2 elements and families are read exactly", "statement": "Reading a Gmsh 2.2 file whose node numbers are 1..n in this order, whose elements have documented types of the reader and whose physical group numbers are distinct over all dimensions returns each element's type, nodes and physical family in file order and each node's coordinates, whatever the white space between words. Outside these conditions the claim fails and this is shown: node numbers are ignored, group names are cut at the first space (and lose their last character), groups of the same number in two dimensions are confused.", "quantifier": "all element lists, node lists and physical names; all spacings of the text", "why_tests_cant": "parsing of unbounded input", "anchors": ["cfdtools/gmsh/reader.py: reader.__read_sections_V2"]}
{"id": "C43", "title": "Gmsh cells and boundaries are separated by dimension", "statement": "From parsed elements, the mesh's cells are exactly the elements of highest dimension present (in file order per type), node tags lowered by one; each boundary family becomes a node mark with exactly the nodes of its elements of lower dimension (families 'fluid' and 'int_fluid' excluded), provided all boundary elements of one geometric entity are in the same family; a file without element of dimension 2 or 3 is refused. When an entity has elements of two families the last one takes all: shown.", "quantifier": "all lists of elements of supported types, with at least two tags on boundary elements", "why_tests_cant": "ranges over all mixes of element types and families", "anchors": ["cfdtools/gmsh/reader.py: reader.read_data, export_mesh, __create_bnd"]}
{"id": "C44", "title": "Extracting VTK cells preserves the cells", "statement": "For a non-empty list of cell numbers within range (cells with fewer than 255 points), vtk_extract_cells(mesh, ids) returns a valid grid whose k-th cell has the type and the same point coordinates in the same order as cell ids[k] of the mesh, and whose points are exactly the used ones, each once. An empty list or a number beyond the last cell is refused.", "quantifier": "all unstructured grids, all non-empty lists of existing cell numbers, all iteration orders of the set of used points", "why_tests_cant": "renumbering over all grids", "anchors": ["cfdtools/vtk/_vtk.py: vtk_extract_cells"]}
{"id": "C45", "title": "Reordering of a VTK series puts values on the right cells", "statement": "vtkList.read() stores, for each file, arrays in the cell order of the first file: if the cells of each file are the cells of the first one in another order (centers equal up to tol, distinct cells further apart than 2*tol), every file gives one step, in order, with its time, and the value stored at position j is the value of the file's cell located at center j. A series with a file that has a cell without counterpart within tol, or another number of cells (files of one cell apart), is refused. check_order() says yes exactly when all files have their cells in the same order up to tol. When it says yes, read() with this tolerance keeps the arrays of every file as they are. When the cells of each file are further apart than 2*tol (two cells or more per file), read() accepts the series exactly when every file has the cells of the first one up to tol: whatever it returns has its values on the right cells, without knowing anything else on the files.", "quantifier": "all permutations of all meshes, all data, all lists of files with times other than 0", "why_tests_cant": "n! permutations", "anchors": ["cfdtools/vtk/_vtkList.py: vtkList.read"]}
{"id": "C46", "title": "z-planes partition the cells", "statement": "vtk_zconvolution's plane detection splits the cells into planes such that each cell is in exactly one plane, planes are sorted, consecutive z within a plane differ by at most the tolerance and consecutive planes are separated by more than it; it is accepted exactly when there are at least two planes of equal sizes at regular distances. When the cells of every plane are above those of the first one up to tol (themselves more than 2*tol apart), the columns built list each cell of each plane once, at the place of the cell of the first plane it is above. When the cells of each plane are more than 2*tol apart, the columns are built exactly when every plane is above the first one up to tol: columns that have been built are always right.", "quantifier": "all lists of z coordinates, all positions and tolerances", "why_tests_cant": "ranges over all coordinates", "anchors": ["cfdtools/vtk/_vtk.py: vtk_zconvolution"]}
{"id": "C47", "title": "Convolution directives resolve per variable", "statement": "The slice returned by vtk_zconvolution shows the cells of the first plane in order, and its arrays are exactly those requested by the general options changed by the variable's own items (the last item that mentions an option decides), each computed over the column of each cell: snapshot, average, modes 1..nmode, phases, rms. An unknown variable is refused, as are as many modes as planes.", "quantifier": "all grids with cells in regular planes and columns, all data, all selections whose arrays have distinct names", "why_tests_cant": "combinations of options", "anchors": ["cfdtools/vtk/_vtk.py: vtk_zconvolution"]}
{"id": "C48", "title": "Probe quantities resolve through their dependencies", "statement": "check_data(var) terminates whatever the files and what is already loaded (the dependency relation has no cycle). When files and loaded arrays can be used together (same non-empty shape for all physical variables, steady coordinates), it succeeds exactly when var is already loaded, or has a file, or is a computed variable whose dependencies are all available (recursively); on success var is available, with the value given by what was loaded, else by the file, else point by point by its formula from its dependencies, and this value is unique; otherwise NameError. Whatever the contents and shapes of the files, and whether or not the call succeeds: what was loaded before is kept, what is added is the time or available in this sense, a success leaves var in the dictionary with its value and every added variable with its own (from its file, or from its formula at each time and point, an array with a single line or point being used for all, as numpy does; the time from the second column of a file), and a var that is not available is refused. Calling again changes nothing.", "quantifier": "all sets of available files and variables", "why_tests_cant": "recursive closure over all availability sets", "anchors": ["cfdtools/probes/data.py: phydata.check_data, dependency_vars"]}
{"id": "C49", "title": "Interpolation weights are exact on polynomials", "statement": "interp_weights(x) of a point set with as many points as basis functions, reproduces at x every function of the basis' span from its point values; weights sum to 1, are the Kronecker delta at points, and do not depend on the basis of the space.", "quantifier": "all orders, all distinct points in any field, all x, all polynomials of degree < order", "why_tests_cant": "polynomial identities over all orders", "anchors": ["cfdtools/utils/polybase.py"]}
{"id": "C50", "title": "Gradient weights are exact on polynomials", "statement": "diff_weights(x) gives the exact derivative at x of every polynomial of degree < order from its point values; weights sum to 0.", "quantifier": "all orders, points, x, polynomials", "why_tests_cant": "polynomial identities over all orders", "anchors": ["cfdtools/utils/polybase.py"]}
{"id": "C51", "title": "Time statistics and spectrogram shapes are consistent", "statement": "dtstats' average time step over the samples between the bounds (negative ones count from the end) is (last-first)/(n-1), between the smallest and largest steps. A spectrogram with even window 2h of more than h samples has one value per time and frequency when h does not divide the number of samples. (Refuted otherwise: the last window is one sample short and the call raises; with odd windows the shapes disagree silently.) A spectrum of at least one sample has one value per frequency (refuted when bounds are given); a spectrum of variables without samples raises ValueError.", "quantifier": "all sample numbers and windows", "why_tests_cant": "arithmetic over all sizes", "anchors": ["cfdtools/data.py: DataSet.dtstats, dataSet_spectrogram, dataSet_spectrum"]}
{"id": "C52", "title": "XDMF output is well formed and its references resolve", "statement": "For every series of steps with scalar or vector arrays on a grid of known cell types other than lines, the HDF5 dump succeeds and the XDMF text is a document with one temporal collection holding exactly one grid per stored step, in order and numbered; the grid of step i refers to the nodes, to the cells of each type present and to the variables of step i, in order, at paths where the HDF5 file holds exactly these arrays, with their dimensions. Paths of groups and data sets are pairwise different and every data set is referred to. When file and variable names have no XML character (<, >, &, \"), the text is well-formed XML. Arrays of other dimensions raise ValueError, line cells KeyError.", "quantifier": "all numbers of steps, variables and mesh types", "why_tests_cant": "string generation over unbounded series", "anchors": ["cfdtools/data.py: DataSetList.xdmf_content, _dumphdfgroup", "cfdtools/vtk/_vtk.py: vtkMesh.xdmf_content", "cfdtools/vtk/_vtkList.py: _dumpxdmf"]}
{"id": "C53", "title": "Degrees of freedom only with spectral representation", "statement": "In every history of attribute changes, a data set with ndof different from 1 has the 'spectralcell' representation. (Refuted: the representation can be changed afterwards; proved for histories that never reset the representation after ndof, and invalid values always raise and leave the state unchanged.)", "quantifier": "all sequences of attribute assignments", "why_tests_cant": "unbounded histories", "anchors": ["cfdtools/data.py: DataSetBase.Xrep, Trep, ndof"]}
{"id": "C54", "title": "Time values stay aligned with stored steps", "statement": "In a DataSetList, the i-th stored step (and the i-th group of the dumped file) holds the data and the time given at the i-th addition. (Refuted: a time equal to 0 is dropped, and a field named time is replaced by the time of the step, or dumped as an attribute; proved when times are non-zero. In all cases, group i holds the entries of the i-th dictionary other than time in their order, and the attribute time is the time given if it is not zero, otherwise the entry time of the dictionary.)", "quantifier": "all sequences of added steps", "why_tests_cant": "unbounded histories, falsy value corner", "anchors": ["cfdtools/data.py: DataSetList.add_datalist, DataSet.add_data"]}
{"id": "C55", "title": "Scaling composes and preserves topology", "statement": "When the coordinates are arrays (IC3, CGNS, VTK imports, cube, extruded mesh): scale(s) multiplies each coordinate by the factor of its direction and changes nothing else; scaling by a then b equals scaling by a*b; scaling by 1 is the identity; morph with coordinate functions applies them point by point and requires the same number of points. A mesh imported from Gmsh keeps Python lists and cannot be scaled: any float factor raises TypeError, so the conversion of a Gmsh file with --scale always fails (shown), writing nothing.", "quantifier": "all meshes and factors, all Gmsh files", "why_tests_cant": "algebraic law over all coordinates", "anchors": ["cfdtools/meshbase/_mesh.py: Mesh.scale, morph", "cfdtools/gmsh/reader.py: reader.export_mesh", "cfdtools/_cli.py: write_generic"]}
{"id": "C56", "title": "CGNS sections become 0-based connectivities", "statement": "Each CGNS element section of a supported type (node, bar, triangle, quad, hexa) becomes elements of the mapped type with nodes and numbers lowered by one; cell and boundary sections are separated by dimension, type by type in section order; a dimension is numbered from 0 exactly when its file numbers are 1..n. The exported mesh has the coordinates of the zone, these cells and, for each name, the last condition of that name that is not the whole domain (nodes listed, nodes of the listed faces, or cells listed, from 0) and no other mark. Unsupported section types are refused. With supported sections and distinct names, a zone is exported exactly when it has one position per node and each condition has a list, a known location, where it lists faces lists boundary elements of the file, and lists something unless it is the whole domain.", "quantifier": "all section lists, all boundary condition lists", "why_tests_cant": "ranges over all section orders and ranges", "anchors": ["cfdtools/cgns/cgns.py: cgnsMesh.elemcon, export_mesh, export_BC"]}
{"id": "C57", "title": "Face generation does not depend on files read before", "statement": "Generating faces of a mesh gives the same result whatever files were read earlier in the process. (Refuted for 2D triangle meshes, supported only after a Gmsh file was read; proved for meshes of quad4, hexa8, prism6, tetra4, pyra5 cells.)", "quantifier": "all meshes and all histories of reads", "why_tests_cant": "depends on process history", "anchors": ["cfdtools/meshbase/_elements.py: elem2faces, cgns_elem2faces, gmsh_elem2faces", "cfdtools/gmsh/reader.py: reader.read_data"]}
{"id": "C58", "title": "Lazy properties are computed once", "statement": "A lazyprop is evaluated at most once successfully per object and always returns this first value; objects do not share values.", "quantifier": "all access sequences over several objects", "why_tests_cant": "unbounded histories", "anchors": ["cfdtools/utils/_dev.py: lazyprop"]}
{"id": "C59", "title": "Gmsh 4.1 volume meshes get the boundaries of their surfaces", "statement": "Reading a well-formed Gmsh 4.1 volume mesh gives the cells of highest dimension, the nodes' coordinates and one node mark per physical family of the boundary surfaces (first physical group of the entity), provided there is at least one curve, every boundary surface has a physical group and none has the tag of the last curve. Outside these conditions the claim fails and this is shown: a surface with the tag of the last curve is mistaken for it, and in plane files the families of the surfaces are given to the curves.", "quantifier": "all entity tables, node blocks and element blocks", "why_tests_cant": "the entity search depends on the positions and numbers of all entities", "anchors": ["cfdtools/gmsh/reader.py: reader.__read_sections_V4, find_ent, export_mesh"]}
{"id": "C60", "title": "Whatever the IC3 reader accepts is a consistent mesh", "statement": "For every byte string that the IC3 reader accepts, with or without the integrity check: the faces are numbered from 0 with 1 to 4 nodes and one row of two cells each, the face count is their number, no cell number exceeds the last cell, which has a face, there is one coordinate triple per node and mark names are distinct. Names of marks and data have at most the length of the format and no NUL; every mark is a range with 16 periodic values and a type known to the writer; node data have one value per node, cell data one or several rows per cell. The consistency of faces, cells and coordinates also holds for every content of a V4 (HDF5) file with as many face sizes as its face count. Node numbers of faces are not checked: a file referring to a node that does not exist is accepted (shown). The V4 reader does not check that there are as many face sizes as faces (shown).", "quantifier": "all byte strings, all contents of V4 files", "why_tests_cant": "ranges over all possible (also corrupt) files", "anchors": ["cfdtools/ic3/reader_legacy.py: reader._ReadRestartConnectivity, export_mesh", "cfdtools/ic3/readerV4.py: reader._read_connectivity, export_mesh"]}
{"id": "C61", "title": "VTK conversion keeps cells and coordinates", "statement": "For a mesh whose cells are of types known in VTK: set_mesh then export_mesh gives back the coordinates and, type by type, the same cells in the same order; so does dumphdf then importhdfgroup, whatever the order in which the groups are listed. Cells of other types are refused. (Cell numbers may change: cells are grouped by VTK code; marks are lost.)", "quantifier": "all meshes, all mixes of cell types", "why_tests_cant": "ranges over all meshes and all orders of types", "anchors": ["cfdtools/vtk/_vtk.py: vtkMesh.set_mesh, export_mesh, dumphdf, importhdfgroup", "cfdtools/hdf5/_hdf5.py: write_unsmesh"]}
{"id": "C62", "title": "An IC3 file written from cells and node marks holds the mesh", "statement": "For a mesh given only by its cells and by marks on nodes (what the Gmsh and CGNS imports, the extrusion by one layer and the structured cube give, with cells numbered from 0), with no face shared by three cells: if the IC3 writer (either version, any byte order) succeeds, the file is read back as a mesh with the same node and cell counts and the same coordinates, each face of a cell exactly once, with its own cell (boundary) or its two cells (internal); each mark becomes a zone of the same name and type holding exactly the boundary faces with all their nodes in the mark; boundary faces in no mark are in a zone 'unmarked', present only if there are some; every face is in one zone. The mesh can be completed exactly when faces can be generated, each mark holds a boundary face and no boundary face is held by two marks. When cells are not numbered from 0, the file can still be written, but it is read only if some cell has number ncell-1 and no cell with a face of one or two cells has a larger number.", "quantifier": "all meshes of cells and node marks, both writers, all byte orders", "why_tests_cant": "composes face generation, mark conversion, renumbering, writing and reading over all meshes", "anchors": ["cfdtools/meshbase/_mesh.py: make_face_connectivity, bocomarks_set_node_to_face, make_unmarked_BC, reindex_boundaryfaces", "cfdtools/ic3/writerV2.py: writer.set_mesh, write_data", "cfdtools/ic3/reader_legacy.py: reader.read_data, export_mesh"]}
{"id": "C63", "title": "The IC3 writers accept every mesh within the limits of the format, in particular every cube", "statement": "A mesh of cells and node marks is written without exception by both IC3 writers, in every byte order, and read back as in C62, provided: no face is shared by three cells, each face shape occurs both shared and unshared, each mark holds a boundary face and no two marks hold the same one, mark types are those of the format, numbers fit in 32 bits and data have the right sizes. In particular a structured Cube of two cells or more within 32-bit numbers, with any such data, is written, and read back as that cube: the same counts and coordinates, its (nx+1)nynz + nx(ny+1)nz + nxny(nz+1) grid faces with their cells, and as zones exactly its six sides (each with the boundary faces lying in its plane) and the internal faces. A cube of one cell is always refused.", "quantifier": "all meshes of cells and node marks within the stated limits, all cubes, both writers, all byte orders, all data", "why_tests_cant": "success of a long chain of assertions and struct packings for all sizes, orders and data; tests only write a few small cubes", "anchors": ["cfdtools/meshbase/simple.py: Cube.export_mesh", "cfdtools/ic3/writerV2.py: writer.set_mesh, write_data", "cfdtools/ic3/writerV3.py: writer", "cfdtools/ic3/reader_legacy.py: reader.read_data, export_mesh"]}
{"id": "C64", "title": "Converting a Gmsh file to IC3 keeps the mesh", "statement": "When the conversion command succeeds on a Gmsh file (format 2.2 with nodes in order, or 4.1 with volumes; known element types, no face in three cells, boundary names accepted by IC3), the file written did not exist before, no other file changes, and reading it gives the mesh of the Gmsh file: each point with its coordinates at its number, each cell, each face of a cell once with its one or two cells, and one zone per boundary of the Gmsh file holding the boundary faces with all their nodes in this boundary; if the boundary elements of the Gmsh file cover the boundary, these are exactly the faces that are elements of this boundary, and there is no other zone than the internal faces. The command does succeed when in addition every shape of face occurs both on the boundary and inside, each boundary holds a boundary face, no boundary face has all its nodes in two boundaries, and numbers fit in 32 bits.", "quantifier": "all Gmsh files of these forms, both IC3 writers, all byte orders, all file systems, all output folders", "why_tests_cant": "end-to-end composition of parser, importer, face generation, mark conversion, renumbering, binary writer and reader over all files", "anchors": ["cfdtools/_cli.py: write_generic, write_ic3v2, write_ic3v3", "cfdtools/gmsh/_gmsh.py: reader.read_data, export_mesh", "cfdtools/ic3/writerV2.py: writer.set_mesh, write_data", "cfdtools/ic3/reader_legacy.py: reader.read_data, export_mesh"]}
{"id": "C65", "title": "Which extruded plane meshes can be stored in an IC3 file", "statement": "A plane mesh of quadrangles with node marks (no two quadrangles on the same nodes, no edge in three cells, some edge in two cells, an edge of the boundary in each mark, none in two marks, no whole cell in a mark, names known to the format) extruded by one layer is written by both IC3 writers in any byte order, and read again as one hexahedron per quadrangle between the two planes of nodes (each at its translated position), whose faces are, each once, the quadrangles (zone domain0), their copies (zone domain1) and the sides above the edges, each with its cells; a mark becomes the zone of the sides above its edges, the other sides above boundary edges are in 'unmarked', and every face is in one zone. Extruded by two layers or more, such a mesh never gives a readable file unless it has as many cells as nodes. With triangles it is refused by both writers, whatever the number of layers.", "quantifier": "all plane meshes of quadrangles with these properties, all directions and positions of the planes, both writers, all byte orders; all meshes with triangles", "why_tests_cant": "end-to-end composition of extrusion, face generation, mark conversion, renumbering, writing and reading, over all meshes and numbers of layers", "anchors": ["cfdtools/meshbase/_mesh.py: export_extruded, make_face_connectivity, bocomarks_set_node_to_face, make_unmarked_BC, reindex_boundaryfaces", "cfdtools/meshbase/_connectivity.py: extrude, create_faces_from_elems", "cfdtools/ic3/writerV2.py: writer.set_mesh, write_data", "cfdtools/ic3/reader_legacy.py: read_connectivity, export_mesh"]}
{"id": "C66", "title": "Converting a CGNS file of hexahedra to IC3 keeps the mesh", "statement": "When the conversion command succeeds on a CGNS file (any HDF5 tree, as in C88) whose zone to read is unstructured, of hexahedra numbered 1, 2, ... (boundary conditions on nodes or faces, no side in three cells, names accepted by IC3), the file written did not exist before, no other file changes, and reading it gives the mesh of the zone: each point with its coordinates, each cell under its number in the CGNS file minus one, each side of a cell once with its one or two cells, and one zone per boundary condition (the last one of each name, conditions on the whole domain apart) holding the boundary faces with all their nodes in this condition; if the conditions list all outer sides as faces, exactly the faces it lists. The command does succeed when in addition some side belongs to one cell and some to two, each condition holds an outer side, no outer side is in two conditions, and numbers fit in 32 bits. When the cells are not numbered first in the CGNS file (a section of faces before or between the cells), the file written is never accepted by the IC3 reader.", "quantifier": "all zones of hexahedra with these properties, both IC3 writers, all byte orders, all file systems, all output folders", "why_tests_cant": "end-to-end composition of import, face generation, mark conversion, renumbering, binary writer and reader over all zones", "anchors": ["cfdtools/_cli.py: write_generic, write_ic3v2, write_ic3v3", "cfdtools/cgns/cgns.py: cgnsMesh.read_data, export_mesh, cgnszone.elemcon, export_BC", "cfdtools/ic3/writerV2.py: writer.set_mesh, write_data", "cfdtools/ic3/reader_legacy.py: read_connectivity, export_mesh"]}
{"id": "C67", "title": "IC3 files are copied by the conversion commands without loss", "statement": "Every IC3 file that the reader accepts, whatever program wrote it, in V2 or V3 and any byte order, can be written again in V2 and in V3 if its zones of boundary faces end before the last face, its partition has one value per cell, no parameter is called WGT, and its cell data have a common number of degrees of freedom (one for V2). The file written can be read, with and without the integrity check, and has the same nodes, faces (nodes and cells, in the same order), zones of boundary faces with type and periodicity, partition, iteration, time and data (integers become reals in V2). Writing once more gives the same bytes; going through V3 gives the same V2 file as directly, so that V2 to V3 and back gives the first V2 file. The commands cfdwrite_ic3v2 and cfdwrite_ic3v3 on such a file with at least one cell succeed and write this in a new file, leaving all other files unchanged. The condition on zones is needed: a file with a zone ending beyond the last face is accepted and copied without error into a file that cannot be read (shown).", "quantifier": "all byte strings accepted by the reader, both writers, all byte orders, all file systems", "why_tests_cant": "files of other programs, any sections in any order; byte equality", "anchors": ["cfdtools/_cli.py: write_generic, write_ic3v2, write_ic3v3", "cfdtools/ic3/reader_legacy.py: reader", "cfdtools/ic3/writerV2.py: writer", "cfdtools/ic3/writerV3.py: writer"]}
{"id": "C68", "title": "ic3brief lists exactly the sections of a written file", "statement": "For every mesh with data that a writer of IC3 files completes (V2 or V3, any byte order, names that fit the 52 bytes of a header), `read_headers`, the function behind the command ic3brief, succeeds on the file, finds the byte order and the version used, and lists one header per section in the order of the file: counts, (V2: checks), connectivities, one zone per mark, internal faces, partition and coordinates, parameters, variables, end of file. The line of counts holds the numbers of nodes, faces and cells of the mesh, the line of every boundary mark its kind, its first and its last face.", "quantifier": "all meshes and data that the writers complete, both versions, all byte orders", "why_tests_cant": "the list of sections depends on marks, parameters and variables; the scan must neither stop early nor skip one", "anchors": ["cfdtools/ic3/reader_legacy.py: read_headers", "cfdtools/_cli.py: ic3brief", "cfdtools/ic3/writerV3.py: writer"]}
{"id": "C69", "title": "HDF5 files carry their type and version", "statement": "Opening an `h5File` for writing ('w', 'w-', 'x') succeeds exactly when the file may be created (always for 'w', only if it does not exist otherwise), the type is one of external, dataset, datalist, probes, cfdmesh, and a version is given; any object that opens the file later for reading finds this type, this version and the release of the package, whatever was put into the file in between. Opening for reading never changes the file; a version missing beside a type (neither empty nor 0) is read as 0, and is absent in files of other programs. 'w-' and 'x' never change an existing file; 'a' is always refused. `printinfo` after opening for reading shows release, type and version of the file, each exactly when it is there and neither empty nor 0. Two weak points are part of the claim and shown: opening with 'w' without valid type or version is refused only after the existing file was emptied; `printinfo` raises AttributeError exactly when the object has opened a file for writing and none for reading, over all histories of calls.", "quantifier": "all file contents, modes, types, versions, all histories of calls of open", "why_tests_cant": "histories of calls and all contents of files", "anchors": ["cfdtools/hdf5/_hdf5.py: h5File.open, h5File.printinfo"]}
{"id": "C70", "title": "Commands use the right reader and writer, or change nothing", "statement": "With the formats registered by the package: the option --fmt (IC3, GMSH, CGNS), or without it the suffix of the file name (.ic3, .msh, .cgns), decides which reader cfdwrite_ic3v2, cfdwrite_ic3v3 and cfdinfo use; any other --fmt makes the command exit, other suffixes are refused, .vtu has no reader (TypeError), and in all these cases no file is written. Whatever the arguments and files, a conversion changes no existing file. `cfdwritecube` for IC3, with two cells or more within 32-bit limits, writes the named file (existing or not), changes no other, and the file is read as the cube with the nodes at (i/nx, j/ny, k/nz); one cell, no cell in a direction, or a format without writer (GMSH, CGNS) raise without writing. `cfdinfo` succeeds on an IC3 file exactly when the reader accepts it (with the integrity check if --check) and it has a node, on a Gmsh file exactly when all node numbers up to the largest are defined, and never on a CGNS or VTK file.", "quantifier": "all arguments, all file systems, all contents of files, all sizes of cubes", "why_tests_cant": "combinations of option, suffix, content and existing files", "anchors": ["cfdtools/_cli.py: parse_filenameformat, write_generic, cfdwritecube, cfdinfo", "cfdtools/api.py: fileformat_reader, fileformat_writer", "cfdtools/meshbase/_mesh.py: printinfo", "cfdtools/meshbase/simple.py: Cube"]}
{"id": "C71", "title": "cfdwrite_vtk writes the mesh of a Gmsh or CGNS file, extruded and scaled as asked, or changes nothing", "statement": "A Gmsh file of surfaces or volumes with all points given is written by cfdwrite_vtk to a new .vtu file: the grid has the points of the file in their order and, type by type, its cells in order; no other file changes. With --extrude n (n > 0) a file of quadrangles gives the points at the n+1 heights of np.linspace(0,1,n+1) and n layers of hexahedra, layer after layer, each cell over its quadrangle; --scale then multiplies the coordinates. In all other cases (missing point, cell on a node that does not exist, n < 0, layers over triangles or volumes, --scale without --extrude) the command ends with an exception and no file changes. The same holds for a CGNS file (any HDF5 tree, as in C88) whose zone to read is unstructured, of supported sections, where --scale also works alone. No IC3 file is ever converted to VTK, whatever the options, and other formats are refused; nothing changes then.", "quantifier": "all contents of files, all options, all file systems, any arithmetic", "why_tests_cant": "combinations of meshes, options and existing files; the refusals are for all inputs", "anchors": ["cfdtools/_cli.py: write_generic, cfdwrite_vtk", "cfdtools/vtk/_vtk.py: vtkMesh.set_mesh, write_data", "cfdtools/meshbase/_mesh.py: export_extruded, scale", "cfdtools/gmsh/reader.py", "cfdtools/cgns/cgns.py"]}
{"id": "C72", "title": "cfdwrite_ic3v2/v3 with --extrude, --scale and --remove-cell-data: what is written, what cannot be read, what is refused", "statement": "A plane Gmsh or CGNS file of quadrangles whose marks are on distinct boundary edges, converted with --extrude 1 (and possibly --scale), gives a new IC3 file that is read as one layer of hexahedra: coordinates at heights 0 and 1 times the factors, every face once with its cells, the marks of the edges over the lateral faces and two marks for the planes; no other file changes. With --extrude n, n >= 2, the same files only give IC3 files that the reader refuses (unless there are as many cells as nodes); no existing file is changed. A negative number of layers, layers over other cells, and --scale alone on a Gmsh file are refused and nothing changes. A CGNS file of hexahedra with --scale gives an IC3 file that is read as the file with multiplied coordinates. An IC3 file with --scale and --remove-cell-data, the names being in the file, gives a new file with the multiplied coordinates and all the data: the data to remove are still there. An unknown name, or --extrude, is refused for an IC3 file and nothing changes. Without these options the commands are those of C70.", "quantifier": "all contents of files, all options, all file systems, any arithmetic", "why_tests_cant": "combinations of meshes, marks, options and existing files; that no number of layers above 1 gives a readable file, and the refusals, are statements about all inputs", "anchors": ["cfdtools/_cli.py: write_generic, cfdwrite_ic3v2, cfdwrite_ic3v3", "cfdtools/meshbase/_mesh.py: export_extruded, scale, pop_celldata", "cfdtools/ic3/writerV2.py", "cfdtools/ic3/writerV3.py", "cfdtools/ic3/reader_legacy.py"]}
{"id": "C73", "title": "vtkpack writes the series it was given, in one new file", "statement": "If all the files given to vtkpack exist and their cells are those of the first file in any order, up to the tolerance, distinct cells being more than twice the tolerance apart, the command writes one new file, dumped.h5 or the first free dumped(i).h5, and changes no other file. This file holds the points of the first grid, its cells type by type, and for the i-th file of the list a group with its time and its variables, each value at the number, in the first grid, of the cell at the same place; nothing else. Whatever the files and the errors, no existing file is changed. If a file is missing, has another number of cells than the first one (none of them having a single cell) or has a cell far from all those of the first one, the command fails and no file changes. For files of two cells or more, each with its own cells further apart than twice the tolerance, the command succeeds exactly when every file has the cells of the first one up to the tolerance, and a file it has written always holds each value at the right cell.", "quantifier": "all series of files, all orders of cells, all data, all file systems, any distance", "why_tests_cant": "arbitrary orders of cells, numbers of files, variables and existing file names; the refusals are about all files that do not fit", "anchors": ["cfdtools/_cli.py: vtkpack", "cfdtools/vtk/_vtkList.py: vtkList", "cfdtools/vtk/_vtk.py: vtkMesh.export_mesh", "cfdtools/data.py: DataSetList.dumphdf", "cfdtools/hdf5/_hdf5.py: h5File.write_unsmesh"]}
{"id": "C74", "title": "Numbers of cells in the mesh and in the data of a packed series", "statement": "In the mesh and the data of a packed series, number j denotes the same cell. (Refuted: the mesh lists its cells type after type while the data keep the order of the first grid. Proved: for the mesh in memory this holds exactly when the first grid lists its cells by increasing VTK code; for a grid read again from a file it holds exactly when the cells are listed by alphabetical order of the names of their types.)", "quantifier": "all grids of known cell types", "why_tests_cant": "every order of cells of several types; tests have one type of cells", "anchors": ["cfdtools/vtk/_vtk.py: export_mesh, dumphdf, importhdfgroup", "cfdtools/vtk/_vtkList.py: dumphdf"]}
{"id": "C75", "title": "ic3probe_plotline maps the requested variable", "statement": "For a line of probes whose files agree (same points, same times, coordinates that do not change), ic3probe_plotline saves the map of the requested variable, read or computed, against the requested coordinate: the figure prefix.var.time.png with the value at every point and every time of the files, or prefix.var.freq.png with the amplitudes of the frequencies of ranks 1 to m/200 - 1 for m times. It never saves the map of another variable. (Refuted for names of several characters: the plots use the first character of the name, so that with RHO, U-X, Mach, Asound, INVX+ ... no map is ever saved, whatever the files. Proved: the maps for names of one character; whatever the files and options, a saved map holds the values (or the frequencies of the values) of the requested variable against those of the requested coordinate and the time; frequency maps of less than 600 times and axes other than coordinates always fail.)", "quantifier": "all files, prefixes, variables, axes, numbers of points and times", "why_tests_cant": "the failures are about all files; the maps depend on which files exist and which variables are computed", "anchors": ["cfdtools/_cli.py: ic3probe_plotline", "cfdtools/probes/plot.py: plot_timemap, plot_freqmap, check_axis", "cfdtools/probes/data.py: phydata.check_data"]}
{"id": "C76", "title": "What an accepted mesh check says", "statement": "Mesh.check() accepts exactly the meshes with at least one cell and one node, whose cell count is that of their cell connectivity (when they have one) and, when they have boundary faces, whose marks are all on faces and together cover every boundary face; the mesh is then unchanged. Every other mesh is refused by an assertion. Nothing else is checked: an accepted mesh may have no coordinates, cells on nodes that do not exist, two cells with one number and marks on faces that do not exist (shown by a witness).", "quantifier": "every mesh whose marks have an index and whose boundary face connectivity is well formed (one number per face)", "why_tests_cant": "an exact characterisation over all meshes", "anchors": ["cfdtools/meshbase/_mesh.py: Mesh.check, _check_cell2node, make_unmarked_BC"]}
{"id": "C77", "title": "Cell volumes of a VTK mesh", "statement": "vtkMesh.volumes() returns the volumes of the cells of the grid now in the object, whatever was set, read and asked before; volumes of an earlier grid are never returned and without grid it raises AttributeError. The first time volumes are asked after a grid was given they are returned; asking again gives the same (false: with two cells or more every later call raises ValueError, because the truth value of the stored array is tested).", "quantifier": "every history of set_mesh, set_pvmesh, read and volumes calls, every grid", "why_tests_cant": "the property is about arbitrary histories of one object", "anchors": ["cfdtools/vtk/_vtk.py: vtkMesh._reset, set_mesh, set_pvmesh, read, volumes"]}
{"id": "C78", "title": "Arguments given to a data list or a spectrum can be used again", "statement": "The data and the time written for each step of a DataSetList are those given when the step was added, and a list of variable names given to dataSet_spectrum or dataSet_spectrogram can be given again. (Refuted: the list keeps the caller's dictionary and writes the time in it, so adding the same dictionary again replaces the time of the earlier step; 'time' is removed from the caller's list, so a second call raises ValueError, or computes all variables when the list held only 'time'. Proved when the dictionary of a step is not changed after its addition.)", "quantifier": "every history of additions and assignments to shared dictionaries, every list of names", "why_tests_cant": "aliasing over arbitrary histories", "anchors": ["cfdtools/data.py: DataSetList.add_datalist, _dumphdfgroup, DataSet.dataSet_spectrum, dataSet_spectrogram"]}
{"id": "C79", "title": "One mesh object can be given to several IC3 writers", "statement": "When an IC3 writer could be constructed from a mesh object, all files written from this object afterwards (V2, V3 or V4, any byte order, any number of times) are exactly those that would be written first from the mesh as it was given, although the writers complete the mesh in place. Cells and nodes of the object are not changed. The marks are changed into face marks: a mesh with marks cannot be extruded any more (export_extruded raises).", "quantifier": "every mesh with set marks and well-formed cells or boundary faces, every sequence of writers, every order of Python sets", "why_tests_cant": "idempotence of the in-place completion over all meshes and sequences of writers", "anchors": ["cfdtools/ic3/writerV2.py: writer.set_mesh", "cfdtools/ic3/writerV4.py: writer", "cfdtools/meshbase/_mesh.py: bocomarks_set_node_to_face, make_unmarked_BC, reindex_boundaryfaces, export_extruded"]}
{"id": "C80", "title": "Positions of the nodes have no influence on anything but positions", "statement": "Two meshes that differ only in the positions of their nodes are treated alike: the same faces are made, the same marks, the same verdict and message of check(), the same renumbering; the extruded meshes, the VTK grids and the V4 files differ in the positions only; the IC3 V2/V3 writers succeed or fail in the same way, and complete files are byte-identical except for the block of 3*nnode doubles of the coordinates. In particular a mesh read from an IC3 file, moved with morph() and written again is read as the same mesh at the new positions.", "quantifier": "every mesh, every two sets of positions (one triple per node), every function given to morph that keeps the number of nodes, every byte order and version", "why_tests_cant": "noninterference: a statement about pairs of executions on all meshes and positions", "anchors": ["cfdtools/meshbase/_mesh.py: morph, scale, set_nodescoord_xyz, make_face_connectivity, check, export_extruded", "cfdtools/ic3/writerV2.py: writer", "cfdtools/ic3/writerV4.py: writer", "cfdtools/vtk/_vtk.py: vtkMesh.set_mesh"]}
{"id": "C81", "title": "Files written are byte for byte those of the IC3 restart format", "statement": "A file written without exception by the V2 or V3 writer is exactly the concatenation the format prescribes: magic number 123581321 and version; then sections of 256 bytes of header (name on 52 bytes, code, distance to the next section, 8 integers, 16 doubles, in the chosen byte order) followed by their content: counts of nodes, faces, cells and nodes of faces (code 10); in version 2 only, the numbers of nodes, faces and cells (30, 20, 40); sizes and nodes of the faces (21); cells of the faces (22); one zone of first and last face per mark, with its kind 1 to 5 and its periodicity (23), then the internal zone of kind 6 from the face after the last marked one to the last face; partition of the cells (41); positions (31); start of data (50); STEP (11), DT and TIME and averaging weights (12); data at nodes and in cells, scalars then vectors then tensors (32, 33, 34 and 42, 43, 44, 45), integers only in version 3 scalars; end of file (51). For a mesh given by its cells the faces written are those of the cells, each once, boundary faces first.", "quantifier": "every mesh, data, byte order, version and host the writer accepts (names that fit 52 bytes)", "why_tests_cant": "other programs read these files: reading back with the same package cannot reveal a code, a size or an order of sections that is wrong on both sides, and comparing with a few sample files covers a few meshes", "anchors": ["cfdtools/ic3/_ic3.py", "cfdtools/ic3/writerV2.py", "cfdtools/ic3/writerV3.py"]}
{"id": "C82", "title": "Trying again after an IC3 writer refused a mesh", "statement": "A mesh of cells and node marks that an IC3 writer refused is refused by every later writer, V2, V3 or V4, however often one tries. When every mark holds a boundary face, the refusal has lost nothing: once the offending marks, and the mark `unmarked` the writer made, are removed from the mesh object, the files written from it are those of the mesh as given without these marks. (False when a mark holds no face: after it is removed, the mesh is accepted and the other marks may designate wrong faces.)", "quantifier": "every mesh of cells and node marks a writer refuses, every number of further attempts, every set of marks removed, every order of Python sets, every format", "why_tests_cant": "the state left by exceptions in the middle of loops, for all meshes; the wrong file is accepted without any message", "anchors": ["cfdtools/ic3/writerV2.py: writer.set_mesh", "cfdtools/meshbase/_mesh.py: reindex_boundaryfaces, bocomarks_set_node_to_face, make_unmarked_BC, remove_boco"]}
{"id": "C83", "title": "Generated faces close every cell and conserve fluxes", "statement": "With the faces and face-to-cell pairs that the library generates for a mesh of consistently oriented volume cells (two cells sharing a face list its nodes in opposite directions): the area vectors of the faces of each cell, counted positively where the cell is the first one of the face and negatively where it is the second one, add up to zero whatever the positions of the nodes, even for warped faces; the boundary is closed; for every flux given per face the sum of the balances of all cells is the flux through the boundary; and in cells which are affine images of positive volume of the reference elements every face normal leaves its first cell and enters its second one. The same holds for the faces read back from the IC3 files written from such cells, in particular from Gmsh files, from CGNS zones of hexahedra (each face is listed as the CGNS standard lists this side of its first cell), from the Cube generator (every face has exactly the area and the direction of the grid face between its two cells) and from a plane mesh of consistently oriented quadrangles extruded by one layer.", "quantifier": "all meshes of consistently oriented tetrahedra, pyramids, prisms and hexahedra, all positions of nodes in any commutative ring, all fluxes in any abelian group, both element tables, all grid sizes, all IC3 formats and byte orders", "why_tests_cant": "conservation ranges over all meshes, positions and fluxes; a wrong orientation of one kind of face does not change any count", "anchors": ["cfdtools/meshbase/_connectivity.py: create_faces_from_elems", "cfdtools/meshbase/_elements.py: cgns_elem2faces, gmsh_elem2faces", "cfdtools/meshbase/_mesh.py: make_face_connectivity", "cfdtools/meshbase/simple.py: Cube", "cfdtools/ic3/writerV2.py: writer.__WriteRestartConnectivity"]}
{"id": "C84", "title": "IC3 files of any origin: which are accepted and what is read", "statement": "For a file of the IC3 section format made by any program (sections in any order, sections of unknown kinds, any bytes after the end): the reader accepts it exactly when it has counts, a table of faces of one to four nodes, their cells (the number of the last cell appears, none above it), points and a partition, zones of known types that begin at existing faces, and non-empty data whose number of values is that of nodes, faces or cells (and, if the verification is asked for, consecutive numberings). The mesh read is then exactly what the sections tell: counts, faces with their cells, points, partition, the last zone of each name among those after the table of cells up to the first internal one, the last array of each name on nodes and on cells with its shape and values, the degrees of freedom, and the parameters. In particular the result does not depend on the order of sections of different kinds, on sections of unknown kinds or on what follows the end, and a file written by this library which another program extends or reorders in that way is still read as the mesh that was written, with its data.", "quantifier": "all lists of sections whose contents have the announced sizes, all versions, byte orders, ends and trailing bytes; all writable meshes for the last part", "why_tests_cant": "the tests only read a few files made by one solver or by this library, in one order of sections", "anchors": ["cfdtools/ic3/reader_legacy.py:101-622", "cfdtools/ic3/_ic3.py:244-298"]}
{"id": "C85", "title": "IC3 V4 (HDF5) files of any origin: which are accepted and what is read", "statement": "For a mesh file of the IC3 V4 (HDF5) format made by any program, with or without a solution file: the reader accepts them exactly when the file has the three counts, the sizes and nodes of the faces (at least one face, each of one to four nodes), two cells per counted face (the number of the last cell appears, none above it), three coordinates per counted node, and either no boundaries or labels, kinds of a known type and offsets that begin at existing faces, with real periodic transformations; and the solution has non-empty real fields rho, rhou and rhoe and only such fields among its statistics, whose number of values can be cut into the rows announced. The mesh read is then exactly what these items tell: counts, faces with their cells, points, the last zone of each label with its type, faces and periodic transformation, the last field of each name in upper case with its values in order, and the parameters (those of the mesh, replaced by the attributes of the solution, replaced by those of the statistics). Nothing else in the files (other groups, datasets, attributes, shapes of the tables of cells and points, order of items) has an influence. The files of the writer have the documented items with the values of the mesh and of the solution, and such a file in which another program adds, moves or removes other items is still read as it was written. It is not true that the fields read always have one row per cell.", "quantifier": "all HDF5 files (groups with attributes and datasets of integers, reals or texts, of any shapes), with or without a solution; all writable meshes for the last part", "why_tests_cant": "the tests read one file made by one solver; the acceptable files of other programs, and what must be read in them, are infinitely many", "anchors": ["cfdtools/ic3/readerV4.py:125-306", "cfdtools/ic3/writerV4.py:81-255"]}
{"id": "C86", "title": "IC3 V4 files of meshes of cells and node marks", "statement": "The V4 writer accepts a mesh that can be completed (faces made, marks on faces, renumbered) and exported, with numbers on 32 bits and names of at most 128 characters, exactly when each zone has its own name, is on faces, has a known type and, if it has periodic data, at least three values and a name other than labels, offsets, kinds; with a solution, exactly when moreover step and time are numbers, and, if there are statistics, their weights are numbers and the names of the statistics in lower case are distinct. The V4 file of a mesh of cells and node marks (no faces given), read again, has the counts and coordinates of the mesh, as faces those of the cells, each once, boundary faces first, with the right cells, and as zones: for each mark the boundary faces with all their nodes in the mark, 'unmarked' for those in no mark, 'internal-domain'; every face is in exactly one zone. Every structured cube of two cells or more, with less than 2^31 nodes and faces, is written and read as the same cube; a cube of one cell is refused. The meshes of the Gmsh files of C64 (no boundary named labels, offsets or kinds), of the CGNS files of C66, and the plane meshes of C65 extruded by one layer are written too, and read again with the points, cells, faces and zones stated there.", "quantifier": "all meshes of cells and node marks, all cubes, all Gmsh and CGNS files and plane meshes in the limits of C64, C65, C66; with and without solution", "why_tests_cant": "all meshes, cell types, marks and sizes; the repository tests write V4 files of one mesh", "anchors": ["cfdtools/ic3/writerV4.py: writer.__init__, write_data, _write_boundaries, _write_solution", "cfdtools/ic3/readerV4.py: reader.read_data, export_mesh", "cfdtools/meshbase/simple.py: Cube", "cfdtools/gmsh/reader.py: reader.export_mesh; cfdtools/cgns/cgns.py: cgnsMesh.export_mesh; cfdtools/meshbase/_mesh.py: Mesh.export_extruded"]}
{"id": "C87", "title": "Gmsh files of any origin: which are accepted and what is read", "statement": "A file with the sections of format 2.2 is read if and only if: every element is of one of the eight types node, bar, triangle, quadrangle, tetrahedron, hexahedron, prism, pyramid; one of them has dimension 2 or 3; all cells of a type have as many nodes as each other, and all boundary elements of a type and of an entity too; boundary elements have two numbers at least after their number of tags; and, if there are names, the group given to each entity has a name. Then the nodes are in file order, whatever their numbers; the cells are the elements of highest dimension, by type in file order; and the boundaries are made of the elements of one dimension less, each entity having the group of its last element and each group the last name of its number, whatever the dimension (fluid and int_fluid dropped; all in 'fluid' if there is no name). The same holds for format 4.1, elements having as group the first group of the last curve or first surface of their entity number (the number of its bounds if it has none). For files as documented this is the mesh of C42. So elements of second order are always refused, but cells without the number of nodes of their type are not.", "quantifier": "all files of formats 2.2 and 4.1 (4.1: nodes numbered from 1 on, one curve at least): any elements, tags, entities, groups and names", "why_tests_cant": "all element lists, repeated groups, shared numbers and missing names; refusals; the repository tests read a few files of one generator", "anchors": ["cfdtools/gmsh/reader.py: reader.read_data, export_mesh, __create_bnd, __read_sections_V2, __read_sections_V4", "cfdtools/gmsh/_gmsh.py: gmshtype_elem", "cfdtools/meshbase/_elements.py: dim_elem"]}
{"id": "C88", "title": "CGNS files of any origin: which are accepted and what is read", "statement": "A CGNS file is any HDF5 tree of labelled groups and datasets. The zone read is the one of the name given, or the only one, in the last base; the dimension is that of the first base. If the sections have as many nodes as their ranges ask for, the file is read if and only if: the library version is there, bases and groups of conditions are groups, the zone is of type Unstructured with counts of nodes and cells and with the three coordinates of that many nodes (even for a plane mesh), every section (labelled Elements_t in the zone) is of one of the types node, bar, triangle, quadrangle and hexahedron, sections of cells (and of faces, if a condition lists faces) have a range and a table of nodes, and every condition (in the groups of conditions, then of connections; of those of one name the last one) has a type, a list of points at vertices, faces or cells or a list of elements, and for faces, elements of faces for all of them, and lists something unless it is the whole domain. Then the nodes, the cells by type, and the marks (by family name if there is one, by name of the condition otherwise; the last of each name; without those of the whole domain) are those told by these items: nothing else in the file, neither other groups, nor order, nor labels elsewhere, changes the mesh. The tree that the standard gives to a zone is read as this zone (C56). So tetrahedra, PointRange conditions and plane files without CoordinateZ are refused; a range that does not fit its table is accepted.", "quantifier": "all HDF5 trees and zone names, all contents (integers, reals, shapes), any iteration order of sets", "why_tests_cant": "any arrangement of groups, repeated names, missing items, other types of sections; the repository tests read a few files", "anchors": ["cfdtools/cgns/cgns.py: dict_cgnstype, cg_gridlocation, cgnszone.__init__, nnode, ncell, coords, elemcon, export_BC, cgnsfile.open, cgnsMesh.read_data, export_mesh", "cfdtools/hdf5/_hdf5.py: h5_str"]}
{"id": "C89", "title": "The information printed on a mesh and on variables is that of the mesh and of the variables", "statement": "cfdinfo and the other commands print information on a mesh (printinfo): number of nodes; least, mean and greatest value of each coordinate of the nodes; number of cells and, for each type of cell, the number of cells and of nodes per cell and the numbers they carry (ends of a range, or least, greatest and count of a list); number of faces and the same for each set of faces; names of the marks and for each one its kind and the numbers in it. There is something to print exactly when printinfo does not raise. For well-formed cells and faces the counts per type add up to the counts of the mesh. On a cube of nx by ny by nz cells it prints (nx+1)(ny+1)(nz+1) nodes, coordinates 0 : 1/2 : 1, nx ny nz cells numbered from 0, no face, and six marks with their lowest and highest nodes and their number of nodes. The IC3 readers print the least value, mean and greatest value of each variable, component by component for vectors. (The reader of V2 and V3 files prints for each component the values of the whole vector array; the V4 reader prints those of the component.)", "quantifier": "all meshes (any coordinates in a linearly ordered field, cells, faces, marks), all cubes, all variables", "why_tests_cant": "the printed values are never compared in the tests; they depend on all nodes, cells and marks", "anchors": ["cfdtools/meshbase/_mesh.py: printinfo, submeshmark.__str__", "cfdtools/meshbase/_connectivity.py: indexlist.__str__, elem_connectivity.print", "cfdtools/utils/maths.py: minavgmax", "cfdtools/ic3/reader_legacy.py: print_stats_scalar, print_stats_vector", "cfdtools/ic3/readerV4.py: print_stats_scalar"]}
{"id": "C90", "title": "A dumped series and its XDMF description stand beside each other and describe each other", "statement": "vtkList.dumphdf(filename, xdmf=True) without overwrite in a folder with finitely many files, for a series that XDMF can describe: the name returned was free and is the given one or the first free numbered one; the HDF5 file of this name holds the series; the file beside it, whose name is the same one with its extension replaced by .xmf, holds the text of a document with a grid for each step whose references are the returned name and the paths of the nodes, cells and arrays of the step in the HDF5 file; every other file is as before. With overwrite the same two files are written at the name given. Without xdmf only the HDF5 file is written. A grid with line cells (KeyError) or an array with neither one nor two dimensions (ValueError) cannot be described: the call raises with the HDF5 file complete and no other file modified. Without overwrite no call that raises modifies an existing file, and no call, raising or not, modifies an existing file of the same folder and extension nor its description: successive dumps to the same name keep each other's files. (Refuted: a name ending with .xmf, the file returned holds the description and the arrays are nowhere; two names that differ by their extension only share one description, which the second dump replaces.)", "quantifier": "all file systems, file names, grids, series of steps, array shapes; with and without overwrite and xdmf", "why_tests_cant": "the outcome depends on what exists in the folder and on all arrays of all steps; the tests dump one series in a fresh folder and never read the description", "anchors": ["cfdtools/vtk/_vtkList.py: vtkList.dumphdf, _dumpxdmf", "cfdtools/data.py: DataSetList.dumphdf, xdmf_content", "cfdtools/api.py: _files.find_safe_newfile", "cfdtools/vtk/_vtk.py: vtkMesh.xdmf_content"]}
{"id": "C91", "title": "The spectrum of a series shows its oscillations at their frequencies", "statement": "For a variable that is a mean value plus oscillations of different frequencies, sampled at n regular times over a whole number of periods of each (more than two samples per period), dataSet_spectrum returns n frequencies and n values: each oscillation of amplitude A and frequency f shows as n|A|/2 beside f and -f, the mean M as n|M| beside 0, all other values are 0, whatever the phases and the first time. For every series: the first value is the modulus of the sum of the samples, the values are symmetric, the sum of their squares is n times the sum of squares of the samples, and they do not depend on which sample of a period comes first. The call succeeds exactly for time evolutions with times, a filter (if any) with 'time', and known variables with at least one sample. (Refuted with bounds: the frequencies are those of the selected samples, the values those of all, so that oscillations show beside wrong frequencies.)", "quantifier": "all series of real samples, all numbers of samples and steps, all sets of oscillations, all filters and bounds", "why_tests_cant": "statement over all real series and all sets of oscillations, exact", "anchors": ["cfdtools/data.py: DataSet.dataSet_spectrum, DataSet.dtstats"]}
{"id": "C92", "title": "The spectrogram of a series shows its oscillations around each time", "statement": "For samples at regular times with step dt and a window of 2h or 2h+1 samples, row i of a variable in dataSet_spectrogram is, for k from 2 to h, the logarithm of the modulus of the sum of the samples h i ... h i + 2h, under the window of Hann, times exp(-2 pi i f t) at their times t, with f = k/((2h+1) dt); the time of row i is the time of the middle sample h i + h. Samples outside have no influence on the row; a variable times c has the same rows plus log|c|. The call succeeds exactly under the conditions of C51. The frequencies returned are these f with odd windows. (Refuted for every even window of four samples or more: the frequencies are k/(2h dt), too high by (2h+1)/(2h), and the last one is the negative -1/(2 dt).)", "quantifier": "all series of real samples, all numbers of samples, steps, windows and filters", "why_tests_cant": "statement over all real series and windows, exact", "anchors": ["cfdtools/data.py: DataSet.dataSet_spectrogram, DataSet.dtstats"]}
{"id": "C93", "title": "Averages and modes over planes show the mean and the oscillations of a field", "statement": "On a mesh of n regular layers with the same columns, its cells in any order, vtk_zconvolution succeeds; the slice has the cell of the first layer of each column. The average of a variable is the mean of its values up each column, the rms its standard deviation, and the squares of all the modes sum to n times the square of the rms. For a variable that is in each column a mean plus oscillations of whole numbers of periods over the layers, the average is the mean, the rms the root of half the sum of the squared amplitudes, mode k is sqrt(n)/2 times the amplitude of the oscillation of k (or n-k) periods and 0 without one, and the phase of mode k is its angle at the first layer.", "quantifier": "all numbers of layers and columns, all orders of the cells, all fields of real numbers, all selections of arrays with distinct names", "why_tests_cant": "statement over all meshes in layers and all real fields, exact", "anchors": ["cfdtools/vtk/_vtk.py: vtk_zconvolution"]}
{"id": "C94", "title": "Averages over the planes of an extruded mesh are on the plane mesh", "statement": "A plane mesh of quadrangles with middles more than 2 tol apart, extruded along the third direction to n >= 2 layers of constant height above tol, is converted to VTK as the hexahedra over the quadrangles, layer after layer; vtk_zconvolution of this grid succeeds. The slice has one cell for each quadrangle of the plane mesh: the hexahedron over it in the first layer. Each requested array of a variable has, for each quadrangle, the reduction of the values above its middle at the middle heights of the layers. A variable that depends only on the position in the plane is given back: its average is its value at the middle of each quadrangle and its rms is 0.", "quantifier": "all plane meshes of quadrangles with node marks, all numbers of layers, heights, levels and tolerances, all variables and selections of arrays with distinct names", "why_tests_cant": "composition of three operations of the library over all meshes, all numbers of layers and all real fields", "anchors": ["cfdtools/meshbase/_mesh.py: export_extruded", "cfdtools/vtk/_vtk.py: set_mesh, vtk_zconvolution"]}
{"id": "C95", "title": "The computed probe quantities are those of a perfect gas", "statement": "With files of pressure, density and velocity of the same shape, with positive pressures and densities, and no file of a computed quantity, check_data of Asound, S, U, Mach, INVX+ or INVX- succeeds, and at each time and point the stored value is the one of the perfect gas of ratio 7/5 there: rho a^2 = 7/5 p, p = rho^(7/5) exp(2/5 S), the speed is the length of the velocity, the Mach number the speed over the speed of sound, the invariants 5 a + u and 5 a - u. Hence Mach times Asound is U, two points have the same S exactly when p rho^(-7/5) is the same, and in an isentropic simple wave along x the quantity INVX+ (or INVX-, for the other family) does not change.", "quantifier": "all real pressures, densities, velocities, all shapes of files, all differentiable simple waves", "why_tests_cant": "identities over all real states, and invariance along every smooth simple wave", "anchors": ["cfdtools/probes/data.py: phydata.check_data, compute_U, compute_Mach, compute_Asound, compute_invxp, compute_invxm, compute_entropy"]}
{"id": "C96", "title": "Gradients and volumes computed with the generated faces are exact for linear fields", "statement": "In a mesh of consistently oriented tetrahedra, pyramids over parallelograms, prisms with translated triangles, parallelepipeds and plane quadrangles of any shape extruded along a vector, with the faces and face-to-cell pairs that the library generates: for a field linear in the position, the sum over the faces of a cell of the mean value at the nodes of the face times the area vector (positive for the first cell, negative for the second) is the gradient times the volume of the cell; for a linear velocity field what leaves the cell is divergence times volume; the volume of each cell is a third of the sum of face middle times area vector, and the volumes of all cells add up to this sum over the boundary faces alone. In a Cube each cell has volume 1/(nx ny nz) and the boundary encloses the volume 1; a quadrangle extruded along the third direction has its area times the height as volume. The same holds for the faces of an IC3 file written from such cells and read back, and in plane meshes of triangles and quadrangles of any shape with edges as faces.", "quantifier": "all meshes of such cells, all positions, all linear fields, over any field of characteristic zero", "why_tests_cant": "exactness over all meshes, positions and fields; tests only compare face counts on a few meshes", "anchors": ["cfdtools/meshbase/_mesh.py: make_face_connectivity", "cfdtools/meshbase/_connectivity.py: create_faces_from_elems", "cfdtools/meshbase/_elements.py", "cfdtools/meshbase/simple.py: Cube"]}
{"id": "C97", "title": "A data set shows the positions and the mesh it was given", "statement": "After `set_nodes(x, y, z)` and `set_mesh(mesh)` in any order and any number, `geoprop` holds, under each name, what was last given; a call that raises changes nothing; `DataSetList.dataSet` gives a data set of the steps of the list.", "quantifier": "for every history of calls of set_nodes (lists, numpy arrays or None) and set_mesh on a data set, including calls that raise, and every list of names given to dataSet", "why_tests_cant": "A test gives one sort of argument once (tests/test_1_data.py gives x alone). Whether y and z are kept depends on their type, their number of values and these values, and what is shown after several calls depends on the whole history.", "anchors": ["cfdtools/data.py:54-75", "cfdtools/data.py:182-189"]}
{"id": "C98", "title": "--info changes nothing of what a conversion writes", "statement": "cfdwrite_ic3v2, cfdwrite_ic3v3 and cfdwrite_vtk with --info do exactly what they do without it (same file, same name, same exception), or end with an exception and change no file. When the conversion succeeds without --info, it gives the same with it exactly when: the Gmsh file has points and, unless it is extruded, none is missing (a missing point, written as NaN without --info, stops the command); the IC3 file has a node; the CGNS zone, of sections that are not empty, has a node. In particular extruded meshes can always be described, whatever the number of layers and the scale.", "quantifier": "all contents of files, all options, all file systems, any arithmetic", "why_tests_cant": "the description is made from the whole mesh after all transformations; that it never fails on meshes that can be written, but for the exact cases given, is about all files and options", "anchors": ["cfdtools/_cli.py: write_generic (--info)", "cfdtools/meshbase/_mesh.py: printinfo, export_extruded, scale", "cfdtools/meshbase/_connectivity.py: indexlist.__str__, elem_connectivity.print"]}
