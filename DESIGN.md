# Formal model of cfdtools: design

Subject: `jgressier/cfdtools`, pinned source in `/repo` (read as text, never run).
Prover: Lean 4.33.0, Mathlib modules imported one at a time. Project in `/verif/lean`.

## Layout

* `Verif/Py.lean` : Python-level conventions (exceptions as values, insertion ordered dict, numpy indexing).
* `Verif/Model/*.lean` : the model, one file per Python module; every definition cites file and lines.
* `Verif/Spec/*.lean` : small specifications, written without using the model's helpers.
* `Verif/Lemmas/*.lean` : helper lemmas.
* `Verif/Props/*.lean` : the property theorems (`Cxx_...`), each followed by an `example` that meets its hypotheses.

* `Verif/Props/Exact.lean` : exact conditions under which the partial claims C07, C16, C17, C19, C51, C53, C54, C57 hold.

Naming: `Cxx_name` fully proves (part of) the English property; `Cxx_name_partial` proves it under an
additional hypothesis; `Cxx_name_refuted` proves that the code violates the English claim (concrete witness).

## Trusted base

* Lean's kernel. Axioms used by the theorems: at most `propext`, `Classical.choice`, `Quot.sound`.
  No own axioms, no `sorry`, no `native_decide`, no `bv_decide`.
* The hand transcription Python -> Lean (function by function, cited lines).
* Semantics assumed for Python/numpy/struct/h5py/pathlib primitives, stated next to their model.

## What is modelled, and what is not

One line per Python module; the line ranges are cited next to each definition.

| Python module | Lean module | modelled | not modelled, or abstracted |
|---|---|---|---|
| `meshbase/_connectivity.py` | `Model/IndexList`, `Model/Connectivity`, `Model/Faces` | `indexlist`, `compressed_listofindex`, `singleindex`, `doubleindex`, `elem_connectivity` with all its operations, face generation | printing; integer overflow (Python and int64 are integers) |
| `meshbase/_elements.py` | `Model/Elements` | all tables, `elem2faces`, renumbering maps | plotting helpers |
| `meshbase/_mesh.py` | `Model/Mesh`, `Model/Extrude` | coordinates, cells, faces, marks, `check`, `reindex_boundaryfaces`, extrusion, `scale`, `morph`, `pop_*` | printing; floats are elements of a ring (no rounding) |
| `meshbase/simple.py` | `Model/Cube` | `Cube` | `linspace` values are a parameter |
| `data.py` | `Model/Data`, `Model/DataGeo`, `Model/Spectrum`, `Model/Spectrogram`, `Model/Xdmf`, `Model/Shared` | `DataSetBase`, `DataSet`, `DataSetList`, `dtstats`, spectrum and spectrogram (values in exact arithmetic), HDF5 and XDMF dumps | variables of several dimensions in spectra; rounding; except in `C54_entries`, a step has no field named `time` |
| `api.py` | `Model/Files`, `Model/Api` | `_files`, `Timer`, registry of formats, `memoize`, `lazyprop` | logging |
| `_cli.py` | `Model/Files`, `Model/Api` | format detection, output names of the conversion, `--remove-cell-data`, `cfdwritecube` | argparse itself |
| `ic3/_ic3.py`, `reader_legacy.py`, `writerV2.py`, `writerV3.py` | `Model/Bytes`, `Ic3Format`, `Ic3Writer`, `Ic3Reader` | the file as bytes: headers, search of sections, writers, reader | float arithmetic: a double is its 8 bytes |
| `ic3/readerV4.py`, `writerV4.py` | `Model/Ic3V4`, `Model/Ic3H5`, `Model/Ic3Object`, `Model/Ic3Retry` | content of the HDF5 file, both ways | the HDF5 library: a file is its tree of groups, sets, attributes |
| `gmsh/reader.py`, `_gmsh.py` | `Model/Gmsh` | splitting of lines, sections, formats 2.2 and 4.1, families, export | float parsing is a parameter |
| `cgns/cgns.py` | `Model/Cgns` | zones, sections, boundary conditions, export | the HDF5 tree of CGNS is given by its zones; links between files not modelled |
| `cgns/cgns.py`, `hdf5/_hdf5.py` (`h5_str`) | `Model/CgnsTree` | the same reader on any HDF5 tree: labels, lookups, optional items, choice of base and zone; the commands (C66, C71, C72) read such trees | members in the order h5py lists them, with distinct names; datasets hold integers or reals, another type than the one expected is refused (numpy may convert or fail later); library version required, value unused |
| `_cli.py` `write_generic` with the Gmsh or CGNS reader and the IC3 writers | `Model/Convert` | composition of the modelled parts | decoding of the text of the file and rounding of its decimal numbers are parameters |
| `_cli.py` `cfdwrite_ic3v2/v3`, `cfdwritecube`, `cfdinfo`; `_mesh.py` `printinfo` | `Model/Commands` | the commands with the shipped formats; the exceptions of `printinfo` | texts printed; options `--extrude`, `--scale`, `--remove-cell-data` in this composition |
| `_mesh.py` `printinfo`, `submeshmark.__str__`; `_connectivity.py` `indexlist.__str__`, `print`; `utils/maths.py`; `print_stats_*` of the IC3 readers | `Model/Report` | the values put in each line | formatting of numbers, `params` line, option `detailed`, rounding of means |
| `_cli.py` `cfdwrite_ic3v2/v3` with `--extrude`, `--scale`, `--remove-cell-data` | `Model/Ic3Options` | readers, options, IC3 writers, new file | values of `np.linspace` |
| `_cli.py` `cfdwrite_vtk` with `--extrude`, `--scale` | `Model/VtkConvert` | readers, options, `vtkMesh`, new file | bytes of the VTU file (parameter) |
| `_cli.py` `write_generic` with `--info` | `Model/InfoOption` | the same commands with the exceptions of `printinfo` before the writer | texts printed (C89) |
| `vtk/_vtk.py`, `_vtkList.py` | `Model/Vtk`, `Model/PlaneValues`, `Model/VtkObject`, `Model/Xdmf` | extraction of cells, conversion both ways, series, planes, convolution, dumps | pyvista grids are their cells, points, data; the kd-tree and sort are parameters with hypotheses; deviation and FFT are parameters in C46 and C47, exact in C93 |
| `_cli.py` `vtkpack` | `Model/VtkPack` | missing files, series, dump in a new file | what pyvista reads in a file and the bytes of the HDF5 file are parameters |
| `probes/data.py` | `Model/Probes` | dependencies, loading, time | float functions are parameters; exact reals in C95 |
| `utils/polybase.py` | `Model/PolyBase` | bases, weights | exact field instead of floats |
| `utils/_dev.py` | `Model/Api` | `lazyprop`, `memoize` | |
| `hdf5/_hdf5.py` | `Model/Xdmf`, `Model/H5File` | `write_unsmesh`, `open`, `printinfo` | text of the printed lines |
| `_cli.py` `ic3probe_plotline`, `probes/plot.py` | `Model/Plotline` | the arrays, labels and file name given to matplotlib | averages, FFT, colour maps, drawing are parameters; printed lines |
| `plot.py`, `physics/dicovar.py` | none | | colour maps; a table without code |

Iteration order of a Python `set` is a parameter `so` of the model, only assumed to be a permutation.
Exceptions are values (`Except PyErr`); which exception is raised is part of the model.

## Axioms

`#print axioms` on every theorem of the manifest gives a subset of `propext`, `Classical.choice`, `Quot.sound`.

## Method

Theorems are tested against wrong programs: the model is edited in a scratch copy (`tools/mutate.py`), the
theorems of the properties concerned are rebuilt, and the survivors are analysed. The log is `seeded/LOG.jsonl`.

## Validation against the repository's tests

Nothing of the repository is run. The model is compared with what the repository's tests expect in two ways.

- `Props/RepoTests.lean` states the assertions of `tests/test_0_connectivity.py`, `test_0_elements.py`, `test_0_h5.py`,
  `test_1_simple.py`, `test_1_data.py` and of the plane averages and XDMF test of `test_1_vtk.py` of the model. They are
  tests of the model, not claims.
- `tools/fidelity.txt` is a program that reads the files of `tests/data` with the model. `Box3x3x2v2.ic3` and
  `nrg-tinycube-v2.ic3` are read and rewritten by the V2 writer byte for byte, as `test_1_ic3.py` asserts.
  `Box3x3x2v3.ic3` and `nrg-o1hllc-vf-v3.ic3` are read, checked and rewritten with the same size (the zone
  `default-internal` becomes `internal-domain`). `multi.msh`, `test_2d_small.msh`, `test_2d.msh`, `box3d-v22.msh`,
  `box3d-v41.msh` and `test_3d.msh` are read, `check()` is true, and the IC3 files written from them are read back with
  the same counts and zones.

Not compared: the VTU files (compressed), the CGNS files (HDF5 containers) and the tests of the numerical values of
polynomial weights and spectra.

## Where the code and the expected behaviour disagree

Each item is proved (`_refuted` theorem, `example`, or the exact characterisation named in MANIFEST.json).

Connectivity and meshes
* `elem_connectivity.check` requires the numbers in increasing order: valid interleaved numberings are refused (C04).
* `importfrom_merge` does not accumulate the shift: three connectivities get overlapping numbers (C07).
* Non-conforming meshes are accepted as long as no face is used three times (C10).
* `extrude` of triangles gives 'penta6', unknown to every table (C13), hence cannot be converted to VTK (C61) nor written to IC3 (C65).
* `export_mixedfaces` of generated faces raises exactly when a face type of the cells has no boundary face (C14).
* A mark for unmarked faces replaces a mark of the same name (C16).
* A failing `check()` may succeed when called again (C17); when a boundary face is marked only by an existing mark called
  `unmarked_faces` and another is not marked, `check()` raises for ever (`C17_exact`). `nface` is wrong after `pop_faces` (C19).
* `check()` accepts meshes without coordinates, with cells on nodes that do not exist, with two cells of one number and with marks on
  faces that do not exist (C76).
* `extrude` shifts the numbers of the cells of a layer by the number of nodes (C21): with two layers or more, the IC3 file
  written from the extruded mesh is refused by the reader of the package (C65).
* A CGNS file whose cells are not numbered first (boundary sections before the cells) is converted to an IC3 file without
  any error, and this file is refused by the reader of the package (C66).
* Reading Gmsh files replaces the table `elem2faces` of triangles for the whole process (C57).
* `pop_celldata` never removes (C37), raises KeyError for an unknown name; `pop_nodedata` raises AttributeError on a `DataSet`.
* A cube of one cell is refused; 0 cells raise ValueError (C23, C24).

IC3 files
* A wrong magic number is accepted as little endian (C26).
* The reader needs a face, faces of 1 to 4 nodes, and does not check node numbers (C60).
* Averaging weights and node vectors are lost, node tensors are silently not written, arrays of shape (n,1) raise `struct.error` (C29, C31).
* Data are classified by their number of values: nodes first, then faces, then cells (C29).
* A mark called 'internal-domain' is overwritten on reading. Without mark, face 0 belongs to no zone (C32).
* A mesh with marks that was given to an IC3 writer cannot be extruded any more (C79).
* The reader only looks at the first face of a zone: a zone ending beyond the last face is accepted, and copied without error into a
  file that cannot be read (C67).
* V4: the number of face sizes is not compared with the face count (C60); zones that do not tile come back different, labels are cut at 128 bytes, marks called 'labels', 'offsets' or 'kinds' are refused,
  other variables than the three conserved ones and their statistics are silently not written, names are upper-cased (C33, C34).
* `reader_legacy.print_stats_vector` prints on the line of each component the minimum, mean and maximum of the whole array
  (reader_legacy.py:48-52: `dnp.min()`); `readerV4` prints those of the component (C89).

Files and command line
* A name ending with a dot gets another suffix (C35). `cfdwritecube` and the `.xmf` of `dumphdf(xdmf=True)` overwrite (C36).
* `.vtu` has no reader, `.h5` is refused since the V4 classes are not imported (C38).
* `h5File.open('w')` with a bad type or no version raises after the existing file was emptied; `open('a')` always raises; `printinfo`
  after a write-open raises AttributeError (C69).
* `cfdinfo` raises TypeError on every CGNS file (argument `cIntegrity`), `cfdwritecube` on names .msh and .cgns; `--fmt VTK` is refused
  although there is a VTK writer; a CGNS or IC3 file of 0 cells raises ZeroDivisionError (C66, C67, C70).
* `cfdwrite_vtk` fails with AttributeError on every IC3 file (no cells to nodes); `--scale` without `--extrude` fails with TypeError on every
  Gmsh file; triangles are extruded to a type that no writer knows (C71).
* `--remove-node-data` and `--remove-face-data` are parsed and ignored; `--remove-cell-data` removes nothing and raises KeyError on an
  unknown name (C37, C72).
* The help of `--extrude` says "total number of planes": it is the number of layers. With two layers or more the IC3 file cannot be
  read; on an IC3 file the option always fails (C65, C72). Extruded marks have no periodic data.
* `Timer.stop(nelem=0)` raises ZeroDivisionError without reset (C39). The key of `memoize` is Python equality (C40).

Gmsh
* Quoted names with spaces are cut; physical numbers are unique per dimension only: the last wins (C42).
* Coordinates are Python lists: `scale` and `--scale` raise TypeError (C55).
* 4.1: a last block of one node loses it (C41); `find_ent` looks in the last curve and the surfaces only, plane meshes
  get wrong or missing families (C43, C59); of several groups the last wins.
* Elements without the number of nodes of their type are accepted (C87).

VTK, series, dumps
* `vtk_extract_cells` accepts negative cell numbers, which do not count from the end: the cell returned may be none of the grid
  (`C44_negative_accepted`).
* `vtkList` ignores `reorder`; duplicate cell positions are silently mixed (C45). A file with a single cell may be accepted in a series
  over a grid of many cells (C73).
* The data of a packed series are in the order of the first grid, its mesh is listed type after type: numbers differ when types are
  interleaved (C74).
* `zconvolution`: 'nmode' means one mode, unknown words are ignored, too many modes raise IndexError (C47).
* A time equal to 0 is dropped, a field named `time` is replaced by the time of its step (C54). The XDMF time is the step number (C52). Line cells have no XDMF name (C52).
* An IC3 writer given a mark without any face raises IndexError in the middle of `reindex_boundaryfaces` and leaves marks renumbered, faces
  not: removing that mark and writing again gives a file with other marks on wrong faces, without any message (C82).
* The three IC3 writers are classes of the same name `writer`: their private methods have the same mangled names, so those of V3
  replace those of V2 also in inherited calls (the model follows this).
* IC3 files of other origins (C84): a zone that comes before the table of cells (`CVOFA`) is silently ignored, as are
  the zones after the first one of internal faces; the size of a section is only used to skip it, so data followed by
  padding are misread; the place of the data (nodes, faces, cells) is told by their number only, not by the code of the
  section, and data on faces and vectors on nodes are read then dropped; the verification of the numberings accepts
  wrong numbers beyond the first 100 000 (`np.allclose`), and is skipped when the nodes are not numbered.
* IC3 V4 files of other origins (C85): a field whose number of values is not that of the cells is accepted (8 values for 3
  cells become 4 rows of 2, 2 values for 3 cells stay 2 values); attributes of the solution replace parameters of the mesh
  of the same name, among them the counts; statistics replace fields of the same name in upper case.
* `vtkList.dumphdf(xdmf=True)` to a name ending with `.xmf` writes the description over the arrays; dumps to `a.h5` and `a.hdf` share the
  description `a.xmf`, which the second one replaces (C90).
* `vtkMesh.volumes()` raises ValueError when asked again, for two cells or more (C77).
* A dictionary added twice to a `DataSetList` loses its first time; the spectra remove 'time' from the caller's list (C78).
* Spectrograms: shapes differ for odd windows, bounds change the frequencies of spectra but not the values: oscillations
  show beside wrong frequencies (C51, C91). Even windows: the frequencies are those of one sample less than used, the last one is
  negative (C92).
* A CGNS condition with an empty list makes `export_mesh` raise ValueError when it prints the mark (C56, C88).
* `Xrep` can be changed after `ndof` to a forbidden pair (C53).

Probes
* What was loaded before a NameError stays; another prefix does not reload; no consistency test of times (C48).
* `ic3probe_plotline` uses the first character of `--data`: names of several characters never give a map. `check_axis` raises TypeError
  for several lines; frequency maps need 600 times (C75).

CGNS
* Five element types only. Cells keep their file number minus one: not 0-based when boundary sections come first.
* Two conditions of the same name: the last one stays. A vertex condition with as many points as nodes is dropped.
* Any section of another type than node, bar, triangle, quadrangle, hexahedron is refused, even if it is not needed; `PointRange` is
  ignored and the condition refused; plane files must have CoordinateZ; the zones are those of the last base, the dimension that of the
  first base; `ElementRange` is not compared with the number of elements (C88).

## Plan per property

| id | what is modelled | how it is proved |
|---|---|---|
| C01,C02 | `indexlist` as unset/range/list, operations as total functions with errors | list algebra, induction |
| C03,C04 | `elem_connectivity` as ordered dict type -> (index, rows) ; `add_elems`, `check` | invariant by induction over calls |
| C05,C06 | import/export of compressed connectivity, numpy unique/argwhere/sort/cumsum | permutation + sorting lemmas, prefix sums |
| C07,C14 | `importfrom_merge`, `export_mixedfaces` | case analysis on dictionaries |
| C08-C10 | `create_faces_from_elems` with ordered grouping dict | grouping invariant by induction over face occurrences |
| C11-C13 | tables of `_elements.py` | `decide` over the (finite) tables, `ring` identities for geometry over all coordinates |
| C15-C19 | `Mesh` methods on marks and faces | state transformers with errors, permutation lemmas |
| C20-C22 | `extrude`, `export_extruded` | index arithmetic |
| C23,C24 | `Cube` through the same `create_faces_from_elems` model | arithmetic + multiplicity count |
| C25-C32 | IC3 binary format at byte level (bytes = `UInt8`), header, scan, writer V2/V3, reader | encode/decode lemmas, section-level refinement of the byte-level reader, prefix monotonicity |
| C33,C34 | V4 HDF5 as abstract tree, offsets | list lemmas |
| C35,C36 | file names as (folder, name) lists of characters, file system as finite set | pigeonhole for termination |
| C37 | cell data dictionary | state, refutation |
| C38 | registry dictionary | induction over histories |
| C39,C40,C53,C54,C58 | small state machines | induction over histories |
| C41-C43 | gmsh sections as token lines | induction over blocks |
| C44 | VTK flat cell array | renumbering lemmas |
| C45 | nearest neighbour search given by specification; whole series: refusal, unchanged arrays, exact condition of acceptance for separated cells (`Props/VtkAccepted`) | pigeonhole: injective on finite = permutation; induction over the files |
| C46,C47 | plane splitting, directives, and their composition over a whole slice | induction on sorted list; columns are built exactly when the planes are above each other, for separated cells (`Props/VtkPlanesAccepted`) |
| C48 | dependency recursion | well-founded recursion on table rank; for arrays of any shapes an invariant of `check_data` (all values in the dictionary are values of the specification), each operation of numpy read point by point (`bin_broadcast`) |
| C49,C50 | weights as solution of the Vandermonde system over a field | Mathlib matrices/polynomials |
| C51 | sizes only (values: C91, C92) | `omega`-style arithmetic |
| C52 | line lists with tags | bracket matching by induction |
| C55 | coordinates over a commutative ring (floating point rounding not modelled) | algebra |
| C56 | section list | list lemmas |
| C58 | `lazyprop` as a state machine | induction over histories |
| C59 | families of Gmsh 4.1 boundaries | search of the bounded curve/surface |
| C60 | the IC3 reader alone, any bytes | inversion of the reader: what accepted implies; names, marks and data by an invariant over the sections |
| C61 | `set_mesh`, `export_mesh`, `dumphdf`, `importhdfgroup` | permutation lemmas by type |
| C62 | `writeIc3` then `readIc3` on a mesh without faces | composition of C08, C09, C15, C16, C18, C28, C32; exact success condition from C10 and C18 |
| C63 | `writeIc3` on meshes within the limits, on cubes | every write of the file is shown to succeed (`writeIc3_of`), composed with C62, C14 and the grid faces of C24 |
| C64 | Gmsh reader, import, IC3 writer, IC3 reader, over the file system of C36 | composition of C42, C43, C59, C62, C63, C36; translation of faces and marks to the elements of the Gmsh file |
| C65 | extrusion, face generation, IC3 writers and reader | faces of the hexahedra in terms of the edges of the quadrangles, then C62/C63; largest cell number of a stack of layers against the assertion of the reader; missing table entry for prisms |
| C66 | CGNS reader, import, IC3 writers, IC3 reader, over the file system of C36 | composition of C56, C62, C63, C36; sides of hexahedra of the CGNS standard matched with the face table; cell numbers by C62_numbers_read |
| C67 | IC3 reader and writers, commands over the file system of C36 | invariants of the reader over the positions in any accepted file give the hypotheses of C28, C29, C31, C36, C63; version changes by C31_other_version |
| C68 | `read_headers` on written files | C27_read_headers on the sections that the writers are proved to produce; `Spec/Ic3Brief` lists them from mesh and data |
| C69 | `h5File.open`/`printinfo`, modes of h5py | cases on modes; histories of calls by induction; weak points by witness |
| C70 | `parse_filenameformat` with the registrations of the package, `cfdwrite_ic3v2/v3`, `cfdwritecube`, `cfdinfo`, exceptions of `printinfo` | finite registry by evaluation, suffixes by cases; C36, C63, C42 and the invariants of accepted files |
| C71 | `cfdwrite_vtk`: readers, `--extrude`, `--scale`, `vtkMesh`, over the file system of C36 | composition of C43, C56, C20, C55, C61, C36; for the refusals, success of each step is inverted (types of the extruded connectivity, nodes of the grid) |
| C72 | `cfdwrite_ic3v2/v3` with all their options, over the file system of C36 | composition of C64-C67 and C36 (one layer: C65; scaled CGNS zones are CGNS zones; scaled IC3 meshes satisfy the invariants of accepted files); refusals by inverting each step |
| C73 | `vtkpack`: `vtkList.read`, `export_mesh`, `dumphdf`, over the file system of C36 | composition of C45 (per file), C52 (paths of the HDF5 file are distinct), C35; times by induction over the steps; refusals by the first file that fails; `Props/VtkPackAccepted`: success holds exactly for files with the same cells |
| C74 | `export_mesh`, `dumphdf`/`importhdfgroup` | grouping by increasing keys is the identity exactly on lists sorted by key |
| C75 | `ic3probe_plotline`, `plot_timemap`, `plot_freqmap` on the arrays | C48 for the values; two invariants of `check_data` for any files (time column; arrays of one dimension are computed from such arrays), by induction on the dependencies |
| C76 | `check`, `_check_cell2node`, `make_unmarked_BC` (the model of C16, C17) | case analysis of the checks in order; the unmarked faces are a permutation of a filtered list |
| C77 | `vtkMesh` object: `_reset`, `set_mesh`, `set_pvmesh`, `read`, `volumes` over any history | invariant: the stored volumes are those of the current grid |
| C78 | `add_datalist` and the spectra with the caller's dictionaries and lists in a heap | induction over histories: an object that is not changed later keeps its content |
| C79 | sequences of V2, V3, V4 writers on one mesh object completed in place | completing a completed mesh changes nothing (uses C18 for the renumbered marks) |
| C80 | two meshes that differ in the positions, through the models of C08, C16, C17, C18, C20, C28, C33, C61, C67 | each function commutes with replacing the positions; the bytes written before and after those of the positions are the same |
| C81 | `Model/Ic3Writer` (the writers of C28–C31) against `Spec/Ic3Layout`, a specification of the format with literal codes, sizes and base-256 digits | the bytes written are those of the list of sections (C68, C27); each section, each table and each default is then compared with the layout; for meshes given by cells the faces are those of C62 |
| C82 | `Model/Ic3Retry`: the steps of `set_mesh` returning the mesh they leave also when they raise (marks changed before the exception stay changed) | same outcome as the model of C28–C32 by case analysis; refusals: the mesh left is the given one, or has a mark without face (invariant of all later attempts), or has all faces marked and cannot be renumbered (fixed point); repair: the mesh left without the marks is the one reached from the given mesh without them. Refuted for marks without face: two tetrahedra, marks exchanged |
| C83 | nothing new: faces of C08/C09 as a list of (nodes, first cell, second cell) | sums over faces rearranged into sums over cells (each generated face of a cell appears once in the list, as itself or as the reverse of the face kept); each cell: directed edges of its faces are paired (C11_closed), the circulation of an antisymmetric function around paired edges is zero; conservation: each internal face counted once with each sign; direction: C11 for both cells; files: through C62, C63, C64, C65 and C66; cube and extruded quadrangles: orientation proved from the tables |
| C84 | nothing new: the reader of C28 on `fileOf` (magic number, version, a list of sections, an end, trailing bytes) | reads inside a payload are local, so each scan is `first`/`only`/`after` on the list of sections and each loop a fold on it: the reader equals a function of the list (`readOf`); from it noninterference, content (inversion of each step, last value of each name by induction on the fold) and acceptance (each step succeeds if and only if its section is acceptable); written files are such lists (C81) |
| C85 | `Model/Ic3H5`: an HDF5 file as groups by path with attributes and datasets (integers, reals, texts, with shapes), the accesses of `readerV4` to it, and the files of `writerV4` as such groups | each access succeeds if and only if the item is there (`dataset_iff`, …), so reading is a function of the items: acceptance both ways, content by folds over zones and fields, noninterference by rewriting each access; the written groups are read as the contents of C33–C34 (`readH5_written`) |
| C86 | nothing new: `Model/Ic3V4` on completed meshes | each step of the writer succeeds if and only if its condition holds (`meshFile_iff`, `solFile_iff`: folds over zones and over statistics with distinct names); content: C33–C34 (file read as written) with the completed mesh of C62 (`fromCells_read`, `cells_ready`, shared with C62 and C63); cube: C63_cube's completed cube; Gmsh, CGNS and extruded meshes: they have the form of C86_cells (`convert_ready`, `layer_cells`, `layer_fits`) |
| C87 | nothing new: `Model/Gmsh` | each step of the analysis succeeds if and only if its condition holds (`maxDim_known`, `addBnd_tags`, `loweredAll_same`, `patches_same`, `addFamily_eq`); the dictionaries hold the last group of an entity and the last name of a number (`bnd2fam_last`, `nameDicts_last`); the mesh by the lemma `mesh_of_parts` shared with C43 |
| C88 | `Model/CgnsTree`: HDF5 trees of labelled groups and datasets | each lookup succeeds if and only if the item is there (`count_eq`, `hasData_cons`, …), so that the reader on a tree is the reader of C56 on the zone told by the tree (`exportMesh_tree`, `readTree_eq`); dictionary of conditions = last of each name (`conditions`, induction on the fold); conversely an accepted tree tells a zone (`exists_tells`); acceptance and content then come from C56 |
| C89 | `Model/Report`: lines of `printinfo` and of the statistics, as values before formatting | each function by cases against the specification of a summary (least, mean, greatest); counts by induction on the table; cubes: sums over the product of ranges by induction, monotony of the numbering. Components of vectors of V2/V3 files: refuted, exact content proved |
| C90 | `Model/SeriesDump`: `vtkList.dumphdf` with both files over the file system of `Model/Files`, contents of `Model/Xdmf`; `os.path.splitext` on strings | composition of C35 and C52 with the writes; name of the description against `HasExt`/`DescriptionName`; pairs kept: two files of the folder with the same extension and different stems have different descriptions. Names ending with `.xmf`, names that differ by the extension: refuted |
| C91 | `Model/Spectrum`: `dataSet_spectrum` for any field and any complex numbers over it; `numpy.fft.fft` and `fftfreq` by their documentation | instance with ℝ and ℂ of Mathlib (`Spec/Spectrum`): sums of roots of unity are geometric, hence orthogonality of oscillations (tones), Parseval (energy), reindexing modulo n (rotation). With bounds: refuted, witness of eight samples |
| C92 | `Model/Spectrogram`: `dataSet_spectrogram` with its values; `rfft` is the first half of `fft`; `hanning` and `log` are parameters, given in `Spec/Spectrogram` | rows are lines of the transform of `2 h + 1` samples, rewritten with the times of the samples (`content`); success equivalent to that of the shapes of C51. Frequencies of even windows: refuted in general |
| C93 | `Model/PlaneValues`: the numerical functions of `vtk_zconvolution` (parameters of `Model/Vtk`) by their documentation, real and complex numbers given in `Spec/PlaneValues` | a mesh in layers satisfies the conditions of `C47_slice`: the levels of sorted planes are strictly increasing, hence `0 .. n - 1`; columns are samples of the field; sums over layers from the transform of C91 |
| C94 | `Model/Extrude`, `Model/Vtk`, `Model/PlaneValues` composed; `Spec/PlaneExtrude`: centers of hexahedra, plane meshes | the cells of the grid are the hexahedra layer after layer (C20, C61); their centers are the middles of the quadrangles at the middle heights, so the grid is a `LayeredMesh` and C93 applies; the cells of the slice are found back from the distinct middles |
| C95 | `Model/Probes` with the parameters given as real numbers (`exactPhy`); `Spec/Gas`: laws of the gas | the values of the computed variables are those of the formulas of C48 at each entry; the laws by algebra on real powers; the invariants have derivative 0 (the speed of sound is a power of the density at constant entropy) |
| C96 | faces as in C83 (`FacesOf`); `Spec/Gauss`: mean over a face, volume of a cell as a sum of tetrahedra, affine cells | the balance of a cell is the sum over the faces of its element (C83's lemmas), which is a polynomial identity for each element type; total volume by C83_conservation; files by C62 |
| C97 | `Model/DataGeo`: `set_nodes`, `set_mesh`, `DataSetList.dataSet`; truth values of lists and arrays; `Spec/DataGeo`: what a call gives, the last call giving it | refuted by arrays of several values (ValueError, `x` already replaced), by an array of the single value 0 (dropped) and by a second call with `x` alone (former `y` kept); for every history, by induction on its end, each name shows what the last call giving it gave; `DataSetList.dataSet` never returns (the class has neither `keys` nor `dtstats`) |
| C98 | `Model/InfoOption`: the commands of C71 and C72 with `printinfo` between the transformations and the writer | same outcome or nothing written, for every file and option; exact condition for each format: an invariant (every type of elements and every mark has an item, there is a node) is kept by extrusion and scaling, by induction on the tables of cells and the marks |
| C57 | tables equality | `decide`, congruence of the generation function |
