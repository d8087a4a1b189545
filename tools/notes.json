{
 "C01": {
  "status": "proved",
  "note": "size of a range reversed by more than one is negative (C01_size_reversed_refuted); such ranges are excluded in C01_size."
 },
 "C04": {
  "note": "The exact acceptance condition and soundness are proved; completeness of the English claim is refuted: interleaved valid numberings are rejected."
 },
 "C07": {
  "note": "Proved for one and two connectivities (all the package uses); law for any number (C07_merge_law) and exact condition for a valid result (C07_merge_iff: no two connectivities with elements have another one between them); refuted for three: shifts are not accumulated."
 },
 "C10": {
  "note": "Refuted (C10_nonconforming_refuted). The exact acceptance condition, the acceptance of conforming meshes and the face counts are proved."
 },
 "C11": {
  "status": "proved",
  "note": "Proved for the linear volume elements named in the statement; for hexa27, C11_hexa27_faces describes what the table lists and C11_hexa27_midedges_refuted shows that the middles of edges do not follow the corners."
 },
 "C13": {
  "note": "Proved for bar2 and quad4; refuted for tri3 ('penta6' is unknown everywhere)."
 },
 "C57": {
  "note": "Proved for the linear types common to both tables; refuted for triangles; C57_linear_iff: for meshes of known linear cells, history independent exactly when there is no table of triangles."
 },
 "C14": {
  "status": "proved",
  "note": "Alignment proved for every export that returns; C14_generated_iff gives the exact success condition on the cells; C14_missing_type_raises is a mesh of pyramids, all of whose triangles are internal, which cannot be exported (finding)."
 },
 "C16": {
  "note": "Proved when the name of the new mark is unused; refuted when an existing mark has this name (it is replaced); exact condition for any name in C16_exact. Marks that are not on faces or have no index are refused (C16_refused)."
 },
 "C17": {
  "note": "Success is stable (proved); a failing check() followed by a second one may succeed (refuted). C17_exact gives the verdict of every check of every history of checks: always success, failure then success for ever, or failure for ever (a face marked only by a mark called unmarked_faces)."
 },
 "C19": {
  "note": "Stored faces proved for all histories; the count is proved after an add and refuted after a pop; C19_count_exact: it is always the count at the last accepted add."
 },
 "C21": {
  "note": "The numbers the code gives are proved exactly, and they number the cells 0..n-1 iff there is one layer or as many nodes as cells; refuted for a mesh extruded over two layers."
 },
 "C37": {
  "note": "Proved for node data kept in a dictionary. Refuted for cell data on every mesh (nothing is ever removed, by the method or by the command line option), for unknown names (KeyError) and for node data read from IC3 files (AttributeError)."
 },
 "C51": {
  "note": "Average, bounds, spectra without bounds and the exact condition for even windows are proved; refuted for odd windows (shapes disagree silently) and for bounded spectra, with the exact shapes for all odd windows (C51_odd_window) and all bounds (C51_spectrum_bounds); no sample: C51_spectrum_no_sample."
 },
 "C53": {
  "note": "Allowed values and exceptions proved for all histories; the implication is refuted when the representation is changed after the degrees of freedom, proved otherwise; exact condition on histories in C53_exact."
 },
 "C54": {
  "note": "Proved for non-zero times; a time equal to zero is dropped; C54_aligned_iff: aligned exactly when no time is zero (dictionaries without entry time). C54_entries: dictionaries with any entries; C54_field_time_refuted: a field named time is lost."
 },
 "C29": {
  "status": "proved",
  "note": "The conditioned claim is proved; the _refuted theorems exhibit the failures outside the stated conditions (as many cells as nodes, node vectors, averaging weights)."
 },
 "C31": {
  "status": "proved",
  "note": "Proved without node vectors and averaging weights; C31_node_vector_refuted shows the condition is needed. C31_other_version: any pair of versions and byte orders."
 },
 "C32": {
  "status": "proved",
  "note": "Proved with at least one mark; C32_no_mark_refuted shows that with no mark face 0 belongs to no zone."
 },
 "C28": {
  "note": "The writer completes the mesh in place; the theorem compares the mesh read with the completed mesh, which is the one the user holds after writing."
 },
 "C35": {
  "status": "proved",
  "note": "C35_final_dot_refuted shows that the suffix changes for a name ending with a dot: 'a.' becomes 'a.(1)'."
 },
 "C36": {
  "status": "proved",
  "note": "Proved for the conversion command and for dumphdf: with overwrite=false the file written is free before, and every existing file keeps its content, except the .xmf file when xdmf=True. Refuted for cfdwritecube and for that .xmf file, as the statement says. The file system does not change between the choice of the name and the writing (no concurrency)."
 },
 "C38": {
  "note": "Registry.get with the extension of pathlib; the modules actually imported by the command line are C38_shipped."
 },
 "C39": {
  "status": "proved",
  "note": "C39_zero_elements_refuted: stop(nelem=0) raises ZeroDivisionError and leaves the timer unreset. Clock readings are integers (any ordered unit); rounding of float additions is not modelled."
 },
 "C40": {
  "status": "proved",
  "note": "C40_equal_arguments_refuted shows that the proviso is needed: f(1) then f(True) gives f(1)."
 },
 "C33": {
  "status": "proved",
  "note": "C33_round_trip is the claim, C33_zones describes what is read for any marks; the _refuted theorems exhibit the failures outside the stated conditions. HDF5 itself is modelled by the content of the file."
 },
 "C34": {
  "status": "proved",
  "note": "Other arrays than those named are silently not written (the theorem says that nothing else is read). C34_lower_case_refuted: a statistic whose name has lower case letters comes back under another name."
 },
 "C41": {
  "status": "proved",
  "note": "C41_last_node_refuted proves in general that the single node of a last block is lost; sparse tags raise IndexError (not part of the claim)."
 },
 "C42": {
  "status": "proved",
  "note": "C42_words/C42_text: splitting of lines; C42_sections: sections; C42_mesh: the mesh. The _refuted theorems are witnesses outside the conditions."
 },
 "C43": {
  "status": "proved",
  "note": "C43_entity_refuted is the witness outside the condition."
 },
 "C59": {
  "status": "proved",
  "note": "C59_curve_refuted and C59_plane_refuted are witnesses outside the conditions."
 },
 "C60": {
  "status": "proved",
  "note": "C60_node_numbers_refuted and C60_v4_sizes_refuted show the two missing checks mentioned in the statement. C60_content: names, marks and data. Negative counts in the file are clipped to 0 by the model when the mesh is exported; they are refused earlier except a negative number of cells, which only makes the counts conditions weaker."
 },
 "C44": {
  "note": "Negative numbers are not covered by the claim: C44_negative_accepted shows that they do not count from the end and can give, without error, a cell the grid does not have. Sizes are stored as uint8, hence the bound on the number of points of a cell."
 },
 "C45": {
  "status": "proved",
  "note": "C45_series: the claim for a whole series; C45_refused: refusal of a whole series; C45_ordered: after a positive check_order, read keeps every array as it is in its file. C45_duplicates_refuted shows that without the hypothesis on the cells values are silently put on cells the file does not have. The kd-tree is a parameter assumed to return a nearest center. Time 0 is dropped by add_datalist, and a cell field named time is replaced by the time (C54): the claim is about the other fields. C45_accepted, C45_accepts_iff, C45_space: for files whose own cells are separated, a series is read exactly when the cells are the same, and what is returned is in the right order; C45_space has the Euclidean distance of maths.distance on exact reals."
 },
 "C46": {
  "note": "argsort and the standard deviation are parameters: the first is assumed to sort, the second to be at most the largest distance to a given position. Numbers are an ordered group, not floats. C46_columns_iff: for planes with separated cells, the exact condition of success, and what is built is right."
 },
 "C47": {
  "status": "proved",
  "note": "Averages, deviations and Fourier modes are parameters applied to the columns. C47_zconvolution takes the planes and columns of C46 as hypotheses, C47_slice conditions on the positions of the cells; C47_refused: as many modes as planes. Findings: the word 'nmode' asks for one mode, unknown words are accepted and ignored, arrays with the same name overwrite each other."
 },
 "C61": {
  "note": "pyvista is modelled by its list of cells and points. The table of types is finite. 'node1' and 'penta6' (which the extrusion of triangles gives) are refused."
 },
 "C48": {
  "note": "Real operations (sqrt, log, pow...) are parameters; files are a function from names to arrays. C48_always and C48_any_shape (values with numpy's broadcasting) have no hypothesis on the files. Found: what was loaded before a NameError stays; once a variable is loaded another prefix does not reload it; time comes from the first two-dimensional file read without any consistency check; empty arrays raise ValueError in the statistics; a scalar file raises OSError."
 },
 "C49": {
  "note": "Exact arithmetic over any field (characteristic 0 for the Legendre basis); np.linalg.inv is the exact inverse, refused when the determinant is zero. The Gauss points of scipy are a parameter, only assumed distinct; equal points are proved to be refused. Monomial and Legendre bases of the code are both covered."
 },
 "C50": {
  "note": "As C49; derivatives are the formal derivatives of polynomials."
 },
 "C52": {
  "note": "The XML text is compared line by line with the text of a tree. Found: the time value written is the step number, not the time; names are not escaped; a grid with several cell types has several Topology elements; line cells (bar2) have no XDMF name (KeyError after the HDF5 file was written)."
 },
 "C56": {
  "status": "proved",
  "note": "Findings: cells keep their file number minus one, hence are not 0-based when boundary sections come first; two conditions of the same name: the last replaces the first; a vertex condition listing as many points as the zone has nodes is silently dropped; only five element types are known, any other section (even of another dimension) is a KeyError. A condition with an empty list is a ValueError (printing the mark in a message asks for the smallest index)."
 },
 "C62": {
  "note": "End to end: hypotheses on the cells and marks only, plus the success of the writer. The names of the marks must not be 'unmarked' nor 'internal-domain' (reserved) nor their type 'internal'. C62_completes_iff gives the exact condition under which the mesh can be completed."
 },
 "C63": {
  "note": "C63_writes is the general success theorem, C63_cells the case of cells and node marks stated on the cells only, C63_cube every cube of two cells or more; C63_one_cell: the cube of one cell is refused (finding)."
 },
 "C64": {
  "note": "C64_mesh and C64_converts compose C42/C43/C59 (what the Gmsh reader returns) with C62/C63; C64_command, C64_msh2, C64_msh4 and C64_command_succeeds are about the command on a file system (C36). The conversion of a coordinate to a binary64 is a parameter (store)."
 },
 "C55": {
  "status": "proved",
  "note": "C55_lists_float_refuted, C55_lists_int and C55_gmsh_command_refuted show the Gmsh case of the statement."
 },
 "C65": {
  "note": "C65_one_layer: one layer, stated on the quadrangles and their edges only (Spec/Ic3Extrude.lean). C65_more_layers: with two layers or more the file, if written, is refused by the reader (consequence of C21); a concrete file is shown in an example. C65_other_cells: triangles become 'penta6', which no face table knows (C13)."
 },
 "C66": {
  "note": "C66_mesh: what is read, stated on the sections and conditions of the zone (Spec/CgnsConvert.lean). C66_readable: readable exactly when the cells come first. C66_converts: when the writer accepts. C66_command, C66_command_succeeds: the command over the file system. Zones of quadrangles or triangles, and conditions on cells, are not covered. The objects of the HDF5 file are an arbitrary function of its bytes; the zone is told by them (TellsFile, C88)."
 },
 "C67": {
  "note": "Conditions: Copyable in Spec/Ic3Copy.lean (also: numbers below 2^31, and if all cell data are tensors the numbers of cells, nodes and faces differ, a consequence of the classification of data by size). What is kept: Kept, same file. C67_command: over the file system of C36; a file of 0 cells raises ZeroDivisionError (Timer.stop), which the model has."
 },
 "C68": {
  "note": "Length limits on names are those of the header (NamesFit). The integers and reals printed for other sections than counts and zones are those of C27."
 },
 "C69": {
  "status": "proved",
  "note": "h5py.File is modelled by what its modes do to the file. C69_refused_write_keeps_file_refuted shows the weak point stated in the claim (refused 'w' empties the file). C69_printed: what printinfo shows."
 },
 "C70": {
  "note": "The conversions are those of C64, C66, C67 (equality with the functions of these claims). argparse itself, options --extrude, --scale and --remove-cell-data are not in this model; the VTK writer is a parameter of cfdwritecube."
 },
 "C71": {
  "note": "What pyvista writes for a grid (enc), np.linspace and the objects of an HDF5 file are parameters; numbers are any type with any sum and product. For CGNS with layers, marks on part of the cells are excluded by hypothesis. The grid itself is the one of C61. CGNS: the zone is told by the tree (TellsFile, C88)."
 },
 "C72": {
  "note": "Composition of C36, C64-C67, C70 over the file system. np.linspace, the conversion of numbers to doubles and the objects of an HDF5 file are parameters; numbers are any type with any sum and product. The conditions on marks (LayerFits), and for CGNS marks on all cells or none, are hypotheses. --info is in C98. CGNS: the zone is told by the tree (TellsFile, C88)."
 },
 "C73": {
  "note": "pyvista reading, cell centers, the distance (symmetric, triangle inequality), the k-d tree (nearest position) and the bytes of HDF5 files are parameters. Times are other than 0 (C54). C73_single_cell_accepted: a file with a single cell at the place of the first cell is accepted and gives one value for all cells. C73_success, C73_succeeds_iff: for files whose own cells are separated, success is equivalent to having the same cells, and whatever a successful command wrote is the packed series; otherwise nothing changes."
 },
 "C74": {
  "note": "Exact conditions proved (increasing VTK codes; alphabetical names); refuted by a hexahedron followed by a tetrahedron."
 },
 "C75": {
  "note": "C75_long_names_refuted holds for all files and options. Averages, FFT, colour maps and matplotlib drawing are parameters; the figure is given by the arrays passed to contourf. C75_requested and C75_values hold without hypotheses on the files."
 },
 "C76": {
  "note": "C76_accept_iff (exact condition, error and state); C76_unchecked_witness: what is not checked."
 },
 "C77": {
  "note": "Missing: asking again, refuted by C77_again_refuted; C77_again_partial is the exact answer for every grid (one cell: the volumes; two or more: ValueError; none: depends on numpy)."
 },
 "C78": {
  "note": "Missing: dictionaries and lists used again (refuted by C78_same_dictionary_refuted, C78_names_refuted, C78_time_only_refuted)."
 },
 "C79": {
  "note": "C79_write_again (all later files), C79_cells_kept, C79_no_extrusion. What a writer whose construction raises leaves in the mesh: C82."
 },
 "C80": {
  "note": "C80_mesh: faces, marks, unmarked faces, renumbering, check; C80_extruded, C80_vtk, C80_v4: results differ in the positions only; C80_ic3: bytes; C80_morph_file: read, morph, write, read."
 },
 "C81": {
  "note": "The specification (Spec/Ic3Layout.lean) spells out codes, sizes, orders and bytes with literal numbers, without the writer's tables."
 },
 "C82": {
  "note": "C82_same_outcome (the steps with the state they leave), C82_refused_again, C82_repair_partial (every mark holds a boundary face), C82_remove (remove_boco), C82_repair_refuted (a mark without face: marks exchanged silently)."
 },
 "C83": {
  "note": "C83_closed, C83_boundary_closed, C83_conservation and C83_directed for the generated faces; C83_closed_plane for the edges of plane meshes; C83_file, C83_gmsh, C83_gmsh_directed, C83_cgns, C83_cube and C83_extruded for the faces read from IC3 files. Consistent orientation of the cells is a hypothesis on the given mesh (it is proved for the Cube and for extruded quadrangles)."
 },
 "C84": {
  "note": "C84_accepts (if and only if), C84_content, C84_same, C84_order, C84_unknown, C84_written; C84_early_zone states what is lost: a zone before the table of cells is ignored. Sections whose payload is longer or shorter than the counts announce are not covered (the reader does not use the size of the section after having read it)."
 },
 "C26": {
  "note": "Detection proved for all versions and byte orders; refusal of a wrong magic number refuted: any other content is read as little endian."
 },
 "C85": {
  "status": "proved",
  "note": "C85_accepts: acceptance is equivalent to a condition on the items. C85_content: what is read, for solutions whose groups have one attribute of each name (always so in HDF5). C85_same: noninterference of all other items. C85_layout and C85_layout_solution: the items written. C85_written: a written file changed elsewhere is read as C33 and C34 say. C85_rows_refuted: 8 densities for 3 cells are read as 4 rows of 2, and 2 densities for 3 cells are accepted. Integers are assumed stored in datasets of integer type, counts as integer attributes; text attributes are not represented."
 },
 "C86": {
  "note": "h5py as in C33 (32-bit integers kept). Same specification of what is read (FromCells, CubeRead) as for the binary files of C62 and C63. Without boundary face the zones do not cover face 0 (C33_no_mark_refuted): the partition is claimed when there is a boundary face."
 },
 "C87": {
  "note": "Numbers of a file as in C42 (int and float of words, any functions). Format 4.1 with a boundary node block of one node at the end: see C41_last_node_refuted. C87_node_counts_accepted: tetrahedra of three nodes are accepted."
 },
 "C88": {
  "note": "Specification: Spec/CgnsTree (paths of items). HDF5 lists the members of a group in one order with distinct names; items of other types than expected are refused in the model. C88_accepts has the hypothesis Complete (as many nodes as the range asks for); C88_range_unchecked: otherwise the file may be accepted with a wrong numbering."
 },
 "C89": {
  "note": "The statistics of the components of a vector in V2 and V3 files are those of the whole array (C89_vector_refuted; C89_vector_partial says exactly what is printed). The values put in the lines are modelled, not their formatting; means are exact."
 },
 "C90": {
  "note": "C90_both, C90_both_overwrite (whole call: names, contents of both files, other files), C90_alone, C90_not_describable, C90_refusal_keeps_files, C90_pairs_kept. C90_xmf_name_refuted (every describable series, every free name base.xmf) and C90_two_extensions_refuted (every two extensions). Bytes of HDF5 files and encoding of texts are parameters."
 },
 "C91": {
  "note": "C91_succeeds, C91_tones, C91_energy, C91_rotated, C91_bounds in exact arithmetic (real and complex numbers of Mathlib), numpy.fft.fft and fftfreq by their documented definitions, variables with one value per sample. C91_bounds_refuted: with bounds, an oscillation of frequency 1/4 beside -1/2."
 },
 "C92": {
  "note": "C92_succeeds, C92_rows, C92_times, C92_local, C92_scaled, and the frequencies with odd windows (C92_frequencies_partial) in exact arithmetic, for variables with one value per sample; numpy.hanning, rfft, fftfreq by their documentation, log 0 is -inf. C92_even_frequencies_refuted: every even window."
 },
 "C93": {
  "note": "C93_layers (from the positions of the cells to the columns), C93_energy, C93_waves: exact arithmetic, variables of one component, the default splitcoords; numpy average, std, fft(norm='ortho'), angle by their documentation; argsort and KDTree by what they find (SortTools). As many modes as layers: C47_refused."
 },
 "C94": {
  "note": "C94_layers, C94_slice, C94_plane_field: exact arithmetic, default splitcoords; the center of a hexahedron is the mean of its points (documentation of VTK). Triangles: extruded to penta6, which the conversion refuses (C61_unknown_type, C13)."
 },
 "C95": {
  "note": "Numbers are exact reals, the literals of the code are read as decimal numbers; rounding of floats and NaN (negative pressures) are outside."
 },
 "C96": {
  "note": "Positions and values are exact numbers. Cells that are not affine images of the reference element (warped hexahedra) are outside in space, not in the plane: there the mean of the nodes of a face is not its centre."
 },
 "C97": {
  "note": "The code refutes the claim (C97_refuted): arrays of several values raise ValueError after x is replaced, an array of the single value 0 is dropped, and a later call with x alone leaves the former y. Proved for every history: exactly what is shown (C97_history_partial), when a call is accepted (C97_accepted_partial), and when a new data set shows exactly what was given (C97_new_partial). DataSetList.dataSet never returns (C97_dataset_of_list_refuted)."
 },
 "C98": {
  "note": "Only the exceptions of printinfo matter here (the lines are C89). For Gmsh and CGNS files the content of the file is told by IsMeshOf and TellsFile (C43, C88); elements have nodes and there is a cell. numpy's set order, linspace and arithmetic are parameters."
 }
}