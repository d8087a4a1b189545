{
 "claims": [
  {
   "property": "C01",
   "status": "proved",
   "theorems": [
    "Cfd.C01_range_list",
    "Cfd.C01_list_list",
    "Cfd.C01_size",
    "Cfd.C01_size_reversed_refuted",
    "Cfd.C01_append",
    "Cfd.C01_shift",
    "Cfd.C01_add",
    "Cfd.C01_unset",
    "Cfd.C01_getitem",
    "Cfd.C01_history"
   ],
   "note": "size of a range reversed by more than one is negative (C01_size_reversed_refuted); such ranges are excluded in C01_size."
  },
  {
   "property": "C02",
   "status": "proved",
   "theorems": [
    "Cfd.C02_compress_same_indices",
    "Cfd.C02_compress_range_iff"
   ],
   "note": ""
  },
  {
   "property": "C03",
   "status": "proved",
   "theorems": [
    "Cfd.C03_default_numbering"
   ],
   "note": ""
  },
  {
   "property": "C04",
   "status": "partial",
   "theorems": [
    "Cfd.C04_check_iff",
    "Cfd.C04_check_sound_partial",
    "Cfd.C04_check_never_false",
    "Cfd.C04_check_complete_refuted"
   ],
   "note": "The exact acceptance condition and soundness are proved; completeness of the English claim is refuted: interleaved valid numberings are rejected."
  },
  {
   "property": "C05",
   "status": "proved",
   "theorems": [
    "Cfd.C05_import_export",
    "Cfd.C05_import_elements",
    "Cfd.C05_import_refuses"
   ],
   "note": ""
  },
  {
   "property": "C06",
   "status": "proved",
   "theorems": [
    "Cfd.C06_export_slices",
    "Cfd.C06_export_import"
   ],
   "note": ""
  },
  {
   "property": "C07",
   "status": "partial",
   "theorems": [
    "Cfd.C07_merge_two_partial",
    "Cfd.C07_merge_two_returned",
    "Cfd.C07_merge_one",
    "Cfd.C07_merge_three_refuted",
    "Cfd.C07_merge_law",
    "Cfd.C07_merge_iff"
   ],
   "note": "Proved for one and two connectivities (all the package uses); law for any number (C07_merge_law) and exact condition for a valid result (C07_merge_iff: no two connectivities with elements have another one between them); refuted for three: shifts are not accumulated."
  },
  {
   "property": "C08",
   "status": "proved",
   "theorems": [
    "Cfd.C08_faces_exactly_once"
   ],
   "note": ""
  },
  {
   "property": "C09",
   "status": "proved",
   "theorems": [
    "Cfd.C09_boundary_cells",
    "Cfd.C09_internal_cells"
   ],
   "note": ""
  },
  {
   "property": "C10",
   "status": "partial",
   "theorems": [
    "Cfd.C10_acceptance_partial",
    "Cfd.C10_unknown_type_refused",
    "Cfd.C10_conforming_accepted",
    "Cfd.C10_nonconforming_refuted"
   ],
   "note": "Refuted (C10_nonconforming_refuted). The exact acceptance condition, the acceptance of conforming meshes and the face counts are proved."
  },
  {
   "property": "C11",
   "status": "proved",
   "theorems": [
    "Cfd.C11_faces_of_hull",
    "Cfd.C11_faces_grouped",
    "Cfd.C11_closed",
    "Cfd.C11_closed_plane",
    "Cfd.C11_inward_reference",
    "Cfd.C11_generated_outward",
    "Cfd.C11_hexa27_midedges_refuted",
    "Cfd.C11_hexa27_faces"
   ],
   "note": "Proved for the linear volume elements named in the statement; for hexa27, C11_hexa27_faces describes what the table lists and C11_hexa27_midedges_refuted shows that the middles of edges do not follow the corners."
  },
  {
   "property": "C12",
   "status": "proved",
   "theorems": [
    "Cfd.C12_reorder_roundtrip",
    "Cfd.C12_permutations",
    "Cfd.C12_hexa27_same_place"
   ],
   "note": ""
  },
  {
   "property": "C13",
   "status": "partial",
   "theorems": [
    "Cfd.C13_extruded_supported_partial",
    "Cfd.C13_extruded_tri3_refuted"
   ],
   "note": "Proved for bar2 and quad4; refuted for tri3 ('penta6' is unknown everywhere)."
  },
  {
   "property": "C14",
   "status": "proved",
   "theorems": [
    "Cfd.C14_mixed_aligned",
    "Cfd.C14_mixed_aligned_returned",
    "Cfd.C14_generated_aligned",
    "Cfd.C14_generated_iff",
    "Cfd.C14_without_cells",
    "Cfd.C14_missing_type_raises"
   ],
   "note": "Alignment proved for every export that returns; C14_generated_iff gives the exact success condition on the cells; C14_missing_type_raises is a mesh of pyramids, all of whose triangles are internal, which cannot be exported (finding)."
  },
  {
   "property": "C15",
   "status": "proved",
   "theorems": [
    "Cfd.C15_node_marks"
   ],
   "note": ""
  },
  {
   "property": "C16",
   "status": "partial",
   "theorems": [
    "Cfd.C16_exact",
    "Cfd.C16_all_marked_partial",
    "Cfd.C16_no_boundary",
    "Cfd.C16_refused",
    "Cfd.C16_same_name_refuted"
   ],
   "note": "Proved when the name of the new mark is unused; refuted when an existing mark has this name (it is replaced); exact condition for any name in C16_exact. Marks that are not on faces or have no index are refused (C16_refused)."
  },
  {
   "property": "C17",
   "status": "partial",
   "theorems": [
    "Cfd.C17_exact",
    "Cfd.C17_success_stable_partial",
    "Cfd.C17_repeat_refuted"
   ],
   "note": "Success is stable (proved); a failing check() followed by a second one may succeed (refuted). C17_exact gives the verdict of every check of every history of checks: always success, failure then success for ever, or failure for ever (a face marked only by a mark called unmarked_faces)."
  },
  {
   "property": "C18",
   "status": "proved",
   "theorems": [
    "Cfd.C18_reindex_consistent",
    "Cfd.C18_reindex_refuses",
    "Cfd.C18_reindex_iff"
   ],
   "note": ""
  },
  {
   "property": "C19",
   "status": "partial",
   "theorems": [
    "Cfd.C19_count_exact",
    "Cfd.C19_stored_faces",
    "Cfd.C19_count_after_add_partial",
    "Cfd.C19_count_after_pop_refuted"
   ],
   "note": "Stored faces proved for all histories; the count is proved after an add and refuted after a pop; C19_count_exact: it is always the count at the last accepted add."
  },
  {
   "property": "C20",
   "status": "proved",
   "theorems": [
    "Cfd.C20_product_mesh",
    "Cfd.C20_planes_required",
    "Cfd.C20_types_required",
    "Cfd.C20_coordinates_required"
   ],
   "note": ""
  },
  {
   "property": "C21",
   "status": "partial",
   "theorems": [
    "Cfd.C21_cell_numbers_partial",
    "Cfd.C21_numbering_iff_partial",
    "Cfd.C21_two_layers_refuted"
   ],
   "note": "The numbers the code gives are proved exactly, and they number the cells 0..n-1 iff there is one layer or as many nodes as cells; refuted for a mesh extruded over two layers."
  },
  {
   "property": "C22",
   "status": "proved",
   "theorems": [
    "Cfd.C22_marks_copied",
    "Cfd.C22_end_planes",
    "Cfd.C22_no_other_mark"
   ],
   "note": ""
  },
  {
   "property": "C23",
   "status": "proved",
   "theorems": [
    "Cfd.C23_numbering",
    "Cfd.C23_mesh",
    "Cfd.C23_empty"
   ],
   "note": ""
  },
  {
   "property": "C24",
   "status": "proved",
   "theorems": [
    "Cfd.C24_faces",
    "Cfd.C24_marks",
    "Cfd.C24_one_cell"
   ],
   "note": ""
  },
  {
   "property": "C25",
   "status": "proved",
   "theorems": [
    "Cfd.Ic3.C25_round_trip",
    "Cfd.Ic3.C25_long_name",
    "Cfd.Ic3.C25_refused",
    "Cfd.Ic3.C25_nul_cuts_name"
   ],
   "note": ""
  },
  {
   "property": "C26",
   "status": "partial",
   "theorems": [
    "Cfd.Ic3.C26_detects_partial",
    "Cfd.Ic3.C26_short_refused",
    "Cfd.Ic3.C26_any_magic_accepted",
    "Cfd.Ic3.C26_wrong_magic_refused_refuted"
   ],
   "note": "Detection proved for all versions and byte orders; refusal of a wrong magic number refuted: any other content is read as little endian."
  },
  {
   "property": "C27",
   "status": "proved",
   "theorems": [
    "Cfd.Ic3.C27_steps_forward",
    "Cfd.Ic3.C27_step",
    "Cfd.Ic3.C27_found_sound",
    "Cfd.Ic3.C27_first_match",
    "Cfd.Ic3.C27_absent",
    "Cfd.Ic3.C27_deof_stops",
    "Cfd.Ic3.C27_no_end_raises",
    "Cfd.Ic3.C27_read_headers",
    "Cfd.Ic3.C27_codes_distinct"
   ],
   "note": ""
  },
  {
   "property": "C28",
   "status": "proved",
   "theorems": [
    "Cfd.Ic3.C28_mesh_round_trip"
   ],
   "note": "The writer completes the mesh in place; the theorem compares the mesh read with the completed mesh, which is the one the user holds after writing."
  },
  {
   "property": "C29",
   "status": "proved",
   "theorems": [
    "Cfd.Ic3.C29_data_round_trip",
    "Cfd.Ic3.C29_doubles_exact",
    "Cfd.Ic3.C29_integers_exact",
    "Cfd.Ic3.C29_node_vector_refuted",
    "Cfd.Ic3.C29_weights_refuted",
    "Cfd.Ic3.C29_count_clash_refuted"
   ],
   "note": "The conditioned claim is proved; the _refuted theorems exhibit the failures outside the stated conditions (as many cells as nodes, node vectors, averaging weights)."
  },
  {
   "property": "C30",
   "status": "proved",
   "theorems": [
    "Cfd.Ic3.C30_cut_file_refused"
   ],
   "note": ""
  },
  {
   "property": "C31",
   "status": "proved",
   "theorems": [
    "Cfd.Ic3.C31_other_version",
    "Cfd.Ic3.C31_rewrite_identical",
    "Cfd.Ic3.C31_node_vector_refuted"
   ],
   "note": "Proved without node vectors and averaging weights; C31_node_vector_refuted shows the condition is needed. C31_other_version: any pair of versions and byte orders."
  },
  {
   "property": "C32",
   "status": "proved",
   "theorems": [
    "Cfd.Ic3.C32_zones_tile",
    "Cfd.Ic3.C32_no_mark_refuted"
   ],
   "note": "Proved with at least one mark; C32_no_mark_refuted shows that with no mark face 0 belongs to no zone."
  },
  {
   "property": "C33",
   "status": "proved",
   "theorems": [
    "Cfd.Ic3.C33_zones",
    "Cfd.Ic3.C33_round_trip",
    "Cfd.Ic3.C33_gap_refuted",
    "Cfd.Ic3.C33_no_mark_refuted",
    "Cfd.Ic3.C33_reserved_name_refuted",
    "Cfd.Ic3.C33_long_name_refuted"
   ],
   "note": "C33_round_trip is the claim, C33_zones describes what is read for any marks; the _refuted theorems exhibit the failures outside the stated conditions. HDF5 itself is modelled by the content of the file."
  },
  {
   "property": "C34",
   "status": "proved",
   "theorems": [
    "Cfd.Ic3.C34_geometry",
    "Cfd.Ic3.C34_solution",
    "Cfd.Ic3.C34_same_mesh",
    "Cfd.Ic3.C34_missing_refused",
    "Cfd.Ic3.C34_cells",
    "Cfd.Ic3.C34_lower_case_refuted"
   ],
   "note": "Other arrays than those named are silently not written (the theorem says that nothing else is read). C34_lower_case_refuted: a statistic whose name has lower case letters comes back under another name."
  },
  {
   "property": "C35",
   "status": "proved",
   "theorems": [
    "Cfd.C35_safe_name",
    "Cfd.C35_terminates",
    "Cfd.C35_same_folder_suffix",
    "Cfd.C35_final_dot_refuted"
   ],
   "note": "C35_final_dot_refuted shows that the suffix changes for a name ending with a dot: 'a.' becomes 'a.(1)'."
  },
  {
   "property": "C36",
   "status": "proved",
   "theorems": [
    "Cfd.C36_conversion_keeps_files",
    "Cfd.C36_conversion_writes_new_file",
    "Cfd.C36_output_place",
    "Cfd.C36_conversion_terminates",
    "Cfd.C36_conversion_succeeds",
    "Cfd.C36_dump_keeps_files",
    "Cfd.C36_dump_target",
    "Cfd.C36_cube_overwrites_refuted",
    "Cfd.C36_xmf_overwrites_refuted"
   ],
   "note": "Proved for the conversion command and for dumphdf: with overwrite=false the file written is free before, and every existing file keeps its content, except the .xmf file when xdmf=True. Refuted for cfdwritecube and for that .xmf file, as the statement says. The file system does not change between the choice of the name and the writing (no concurrency)."
  },
  {
   "property": "C37",
   "status": "partial",
   "theorems": [
    "Cfd.C37_node_dict_partial",
    "Cfd.C37_cell_data_kept_refuted",
    "Cfd.C37_remove_option_refuted",
    "Cfd.C37_unknown_name_refuted",
    "Cfd.C37_node_dataset_refuted",
    "Cfd.C37_mark"
   ],
   "note": "Proved for node data kept in a dictionary. Refuted for cell data on every mesh (nothing is ever removed, by the method or by the command line option), for unknown names (KeyError) and for node data read from IC3 files (AttributeError)."
  },
  {
   "property": "C38",
   "status": "proved",
   "theorems": [
    "Cfd.C38_detects_iff",
    "Cfd.C38_refuses_iff",
    "Cfd.C38_explicit_format",
    "Cfd.C38_other_kind_kept",
    "Cfd.C38_shipped"
   ],
   "note": "Registry.get with the extension of pathlib; the modules actually imported by the command line are C38_shipped."
  },
  {
   "property": "C39",
   "status": "proved",
   "theorems": [
    "Cfd.C39_elapsed",
    "Cfd.C39_start_pause_raise",
    "Cfd.C39_stop",
    "Cfd.C39_zero_elements_refuted",
    "Cfd.C39_with_block",
    "Cfd.C39_sum_of_intervals",
    "Cfd.C39_nonneg"
   ],
   "note": "C39_zero_elements_refuted: stop(nelem=0) raises ZeroDivisionError and leaves the timer unreset. Clock readings are integers (any ordered unit); rounding of float additions is not modelled."
  },
  {
   "property": "C40",
   "status": "proved",
   "theorems": [
    "Cfd.C40_first_value",
    "Cfd.C40_transparent",
    "Cfd.C40_equal_arguments_refuted",
    "Cfd.C40_evaluations"
   ],
   "note": "C40_equal_arguments_refuted shows that the proviso is needed: f(1) then f(True) gives f(1)."
  },
  {
   "property": "C41",
   "status": "proved",
   "theorems": [
    "Cfd.C41_nodes",
    "Cfd.C41_last_node_refuted"
   ],
   "note": "C41_last_node_refuted proves in general that the single node of a last block is lost; sparse tags raise IndexError (not part of the claim)."
  },
  {
   "property": "C42",
   "status": "proved",
   "theorems": [
    "Cfd.C42_words",
    "Cfd.C42_text",
    "Cfd.C42_sections",
    "Cfd.C42_mesh",
    "Cfd.C42_order_refuted",
    "Cfd.C42_space_refuted",
    "Cfd.C42_same_number_refuted"
   ],
   "note": "C42_words/C42_text: splitting of lines; C42_sections: sections; C42_mesh: the mesh. The _refuted theorems are witnesses outside the conditions."
  },
  {
   "property": "C43",
   "status": "proved",
   "theorems": [
    "Cfd.C43_mesh",
    "Cfd.C43_low_dimension",
    "Cfd.C43_entity_refuted"
   ],
   "note": "C43_entity_refuted is the witness outside the condition."
  },
  {
   "property": "C44",
   "status": "proved",
   "theorems": [
    "Cfd.Vtk.C44_extract",
    "Cfd.Vtk.C44_empty",
    "Cfd.Vtk.C44_out_of_range",
    "Cfd.Vtk.C44_negative_accepted"
   ],
   "note": "Negative numbers are not covered by the claim: C44_negative_accepted shows that they do not count from the end and can give, without error, a cell the grid does not have. Sizes are stored as uint8, hence the bound on the number of points of a cell."
  },
  {
   "property": "C45",
   "status": "proved",
   "theorems": [
    "Cfd.Vtk.C45_accepted",
    "Cfd.Vtk.C45_accepts_iff",
    "Cfd.Vtk.C45_space",
    "Cfd.Vtk.C45_series",
    "Cfd.Vtk.C45_no_counterpart",
    "Cfd.Vtk.C45_check_order",
    "Cfd.Vtk.C45_refused",
    "Cfd.Vtk.C45_ordered",
    "Cfd.Vtk.C45_duplicates_refuted"
   ],
   "note": "C45_series: the claim for a whole series; C45_refused: refusal of a whole series; C45_ordered: after a positive check_order, read keeps every array as it is in its file. C45_duplicates_refuted shows that without the hypothesis on the cells values are silently put on cells the file does not have. The kd-tree is a parameter assumed to return a nearest center. Time 0 is dropped by add_datalist, and a cell field named time is replaced by the time (C54): the claim is about the other fields. C45_accepted, C45_accepts_iff, C45_space: for files whose own cells are separated, a series is read exactly when the cells are the same, and what is returned is in the right order; C45_space has the Euclidean distance of maths.distance on exact reals."
  },
  {
   "property": "C46",
   "status": "proved",
   "theorems": [
    "Cfd.Vtk.C46_planes",
    "Cfd.Vtk.C46_empty",
    "Cfd.Vtk.C46_columns",
    "Cfd.Vtk.C46_columns_iff"
   ],
   "note": "argsort and the standard deviation are parameters: the first is assumed to sort, the second to be at most the largest distance to a given position. Numbers are an ordered group, not floats. C46_columns_iff: for planes with separated cells, the exact condition of success, and what is built is right."
  },
  {
   "property": "C47",
   "status": "proved",
   "theorems": [
    "Cfd.Vtk.C47_options",
    "Cfd.Vtk.C47_unknown",
    "Cfd.Vtk.C47_zconvolution",
    "Cfd.Vtk.C47_too_many_modes",
    "Cfd.Vtk.C47_refused",
    "Cfd.Vtk.C47_slice"
   ],
   "note": "Averages, deviations and Fourier modes are parameters applied to the columns. C47_zconvolution takes the planes and columns of C46 as hypotheses, C47_slice conditions on the positions of the cells; C47_refused: as many modes as planes. Findings: the word 'nmode' asks for one mode, unknown words are accepted and ignored, arrays with the same name overwrite each other."
  },
  {
   "property": "C48",
   "status": "proved",
   "theorems": [
    "Cfd.Probes.C48_any_shape",
    "Cfd.Probes.C48_acyclic",
    "Cfd.Probes.C48_success",
    "Cfd.Probes.C48_failure",
    "Cfd.Probes.C48_values",
    "Cfd.Probes.C48_value_unique",
    "Cfd.Probes.C48_again",
    "Cfd.Probes.C48_always",
    "Cfd.Probes.C48_time"
   ],
   "note": "Real operations (sqrt, log, pow...) are parameters; files are a function from names to arrays. C48_always and C48_any_shape (values with numpy's broadcasting) have no hypothesis on the files. Found: what was loaded before a NameError stays; once a variable is loaded another prefix does not reload it; time comes from the first two-dimensional file read without any consistency check; empty arrays raise ValueError in the statistics; a scalar file raises OSError."
  },
  {
   "property": "C49",
   "status": "proved",
   "theorems": [
    "Cfd.PolyBase.C49_exact",
    "Cfd.PolyBase.C49_sum",
    "Cfd.PolyBase.C49_kronecker",
    "Cfd.PolyBase.C49_same_series",
    "Cfd.PolyBase.C49_equal_points",
    "Cfd.PolyBase.C49_unique"
   ],
   "note": "Exact arithmetic over any field (characteristic 0 for the Legendre basis); np.linalg.inv is the exact inverse, refused when the determinant is zero. The Gauss points of scipy are a parameter, only assumed distinct; equal points are proved to be refused. Monomial and Legendre bases of the code are both covered."
  },
  {
   "property": "C50",
   "status": "proved",
   "theorems": [
    "Cfd.PolyBase.C50_exact",
    "Cfd.PolyBase.C50_sum",
    "Cfd.PolyBase.C50_same_series"
   ],
   "note": "As C49; derivatives are the formal derivatives of polynomials."
  },
  {
   "property": "C51",
   "status": "partial",
   "theorems": [
    "Cfd.C51_average",
    "Cfd.C51_between",
    "Cfd.C51_spectrogram_partial",
    "Cfd.C51_odd_window_refuted",
    "Cfd.C51_spectrum",
    "Cfd.C51_spectrum_bounds_refuted",
    "Cfd.C51_filter_without_time",
    "Cfd.C51_odd_window",
    "Cfd.C51_spectrum_bounds",
    "Cfd.C51_spectrum_no_sample"
   ],
   "note": "Average, bounds, spectra without bounds and the exact condition for even windows are proved; refuted for odd windows (shapes disagree silently) and for bounded spectra, with the exact shapes for all odd windows (C51_odd_window) and all bounds (C51_spectrum_bounds); no sample: C51_spectrum_no_sample."
  },
  {
   "property": "C52",
   "status": "proved",
   "theorems": [
    "Cfd.Xdmf.C52_document",
    "Cfd.Xdmf.C52_well_formed",
    "Cfd.Xdmf.C52_names",
    "Cfd.Xdmf.C52_complete",
    "Cfd.Xdmf.C52_dimensions",
    "Cfd.Xdmf.C52_line_cells"
   ],
   "note": "The XML text is compared line by line with the text of a tree. Found: the time value written is the step number, not the time; names are not escaped; a grid with several cell types has several Topology elements; line cells (bar2) have no XDMF name (KeyError after the HDF5 file was written)."
  },
  {
   "property": "C53",
   "status": "partial",
   "theorems": [
    "Cfd.C53_assign",
    "Cfd.C53_representations",
    "Cfd.C53_ndof_partial",
    "Cfd.C53_refuted",
    "Cfd.C53_exact"
   ],
   "note": "Allowed values and exceptions proved for all histories; the implication is refuted when the representation is changed after the degrees of freedom, proved otherwise; exact condition on histories in C53_exact."
  },
  {
   "property": "C54",
   "status": "partial",
   "theorems": [
    "Cfd.C54_steps",
    "Cfd.C54_aligned_partial",
    "Cfd.C54_time_zero_refuted",
    "Cfd.C54_add_data",
    "Cfd.C54_entries",
    "Cfd.C54_entries_same",
    "Cfd.C54_field_time_refuted",
    "Cfd.C54_aligned_iff",
    "Cfd.VtkPack.C54_dumped_times"
   ],
   "note": "Proved for non-zero times; a time equal to zero is dropped; C54_aligned_iff: aligned exactly when no time is zero (dictionaries without entry time). C54_entries: dictionaries with any entries; C54_field_time_refuted: a field named time is lost."
  },
  {
   "property": "C55",
   "status": "proved",
   "theorems": [
    "Cfd.Convert.C55_gmsh_command_refuted",
    "Cfd.C55_scale",
    "Cfd.C55_scale_compose",
    "Cfd.C55_scale_one",
    "Cfd.C55_scale_inverse",
    "Cfd.C55_lists_float_refuted",
    "Cfd.C55_lists_int",
    "Cfd.C55_morph",
    "Cfd.C55_morph_pointwise"
   ],
   "note": "C55_lists_float_refuted, C55_lists_int and C55_gmsh_command_refuted show the Gmsh case of the statement."
  },
  {
   "property": "C56",
   "status": "proved",
   "theorems": [
    "Cfd.Cgns.C56_sections",
    "Cfd.Cgns.C56_numbering",
    "Cfd.Cgns.C56_unsupported",
    "Cfd.Cgns.C56_mesh",
    "Cfd.Cgns.C56_readable_iff",
    "Cfd.Cgns.C56_zone"
   ],
   "note": "Findings: cells keep their file number minus one, hence are not 0-based when boundary sections come first; two conditions of the same name: the last replaces the first; a vertex condition listing as many points as the zone has nodes is silently dropped; only five element types are known, any other section (even of another dimension) is a KeyError. A condition with an empty list is a ValueError (printing the mark in a message asks for the smallest index)."
  },
  {
   "property": "C57",
   "status": "partial",
   "theorems": [
    "Cfd.C57_history_independent_partial",
    "Cfd.C57_triangles_refuted",
    "Cfd.C57_linear_iff"
   ],
   "note": "Proved for the linear types common to both tables; refuted for triangles; C57_linear_iff: for meshes of known linear cells, history independent exactly when there is no table of triangles."
  },
  {
   "property": "C58",
   "status": "proved",
   "theorems": [
    "Cfd.C58_first_value",
    "Cfd.C58_not_shared",
    "Cfd.C58_evaluated_once"
   ],
   "note": ""
  },
  {
   "property": "C59",
   "status": "proved",
   "theorems": [
    "Cfd.C59_mesh",
    "Cfd.C59_curve_refuted",
    "Cfd.C59_plane_refuted"
   ],
   "note": "C59_curve_refuted and C59_plane_refuted are witnesses outside the conditions."
  },
  {
   "property": "C60",
   "status": "proved",
   "theorems": [
    "Cfd.Ic3.C60_consistent",
    "Cfd.Ic3.C60_node_numbers_refuted",
    "Cfd.Ic3.C60_v4",
    "Cfd.Ic3.C60_v4_sizes_refuted",
    "Cfd.Ic3.C60_content"
   ],
   "note": "C60_node_numbers_refuted and C60_v4_sizes_refuted show the two missing checks mentioned in the statement. C60_content: names, marks and data. Negative counts in the file are clipped to 0 by the model when the mesh is exported; they are refused earlier except a negative number of cells, which only makes the counts conditions weaker."
  },
  {
   "property": "C61",
   "status": "proved",
   "theorems": [
    "Cfd.Vtk.C61_to_vtk",
    "Cfd.Vtk.C61_from_vtk",
    "Cfd.Vtk.C61_round_trip",
    "Cfd.Vtk.C61_hdf",
    "Cfd.Vtk.C61_unknown_type"
   ],
   "note": "pyvista is modelled by its list of cells and points. The table of types is finite. 'node1' and 'penta6' (which the extrusion of triangles gives) are refused."
  },
  {
   "property": "C62",
   "status": "proved",
   "theorems": [
    "Cfd.Ic3.C62_from_cells",
    "Cfd.Ic3.C62_completes_iff",
    "Cfd.Ic3.C62_numbers_read"
   ],
   "note": "End to end: hypotheses on the cells and marks only, plus the success of the writer. The names of the marks must not be 'unmarked' nor 'internal-domain' (reserved) nor their type 'internal'. C62_completes_iff gives the exact condition under which the mesh can be completed."
  },
  {
   "property": "C63",
   "status": "proved",
   "theorems": [
    "Cfd.Ic3.C63_cube",
    "Cfd.Ic3.C63_one_cell",
    "Cfd.Ic3.C63_writes",
    "Cfd.Ic3.C63_cells"
   ],
   "note": "C63_writes is the general success theorem, C63_cells the case of cells and node marks stated on the cells only, C63_cube every cube of two cells or more; C63_one_cell: the cube of one cell is refused (finding)."
  },
  {
   "property": "C64",
   "status": "proved",
   "theorems": [
    "Cfd.Convert.C64_mesh",
    "Cfd.Convert.C64_converts",
    "Cfd.Convert.C64_command",
    "Cfd.Convert.C64_command_succeeds",
    "Cfd.Convert.C64_msh2",
    "Cfd.Convert.C64_msh4"
   ],
   "note": "C64_mesh and C64_converts compose C42/C43/C59 (what the Gmsh reader returns) with C62/C63; C64_command, C64_msh2, C64_msh4 and C64_command_succeeds are about the command on a file system (C36). The conversion of a coordinate to a binary64 is a parameter (store)."
  },
  {
   "property": "C65",
   "status": "proved",
   "theorems": [
    "Cfd.Ic3.C65_one_layer",
    "Cfd.Ic3.C65_more_layers",
    "Cfd.Ic3.C65_other_cells"
   ],
   "note": "C65_one_layer: one layer, stated on the quadrangles and their edges only (Spec/Ic3Extrude.lean). C65_more_layers: with two layers or more the file, if written, is refused by the reader (consequence of C21); a concrete file is shown in an example. C65_other_cells: triangles become 'penta6', which no face table knows (C13)."
  },
  {
   "property": "C66",
   "status": "proved",
   "theorems": [
    "Cfd.CgnsConvert.C66_mesh",
    "Cfd.CgnsConvert.C66_readable",
    "Cfd.CgnsConvert.C66_converts",
    "Cfd.CgnsConvert.C66_command",
    "Cfd.CgnsConvert.C66_command_succeeds"
   ],
   "note": "C66_mesh: what is read, stated on the sections and conditions of the zone (Spec/CgnsConvert.lean). C66_readable: readable exactly when the cells come first. C66_converts: when the writer accepts. C66_command, C66_command_succeeds: the command over the file system. Zones of quadrangles or triangles, and conditions on cells, are not covered. The objects of the HDF5 file are an arbitrary function of its bytes; the zone is told by them (TellsFile, C88)."
  },
  {
   "property": "C67",
   "status": "proved",
   "theorems": [
    "Cfd.Ic3.C67_copy",
    "Cfd.Ic3.C67_through",
    "Cfd.Ic3.C67_v2_v3_v2",
    "Cfd.Ic3.C67_v3_exact",
    "Cfd.Ic3.C67_command",
    "Cfd.Ic3.C67_zone_range_needed"
   ],
   "note": "Conditions: Copyable in Spec/Ic3Copy.lean (also: numbers below 2^31, and if all cell data are tensors the numbers of cells, nodes and faces differ, a consequence of the classification of data by size). What is kept: Kept, same file. C67_command: over the file system of C36; a file of 0 cells raises ZeroDivisionError (Timer.stop), which the model has."
  },
  {
   "property": "C68",
   "status": "proved",
   "theorems": [
    "Cfd.Ic3.C68_brief"
   ],
   "note": "Length limits on names are those of the header (NamesFit). The integers and reals printed for other sections than counts and zones are those of C27."
  },
  {
   "property": "C69",
   "status": "proved",
   "theorems": [
    "Cfd.H5.C69_write_iff",
    "Cfd.H5.C69_write_read",
    "Cfd.H5.C69_read",
    "Cfd.H5.C69_other_modes",
    "Cfd.H5.C69_refused_write_keeps_file_refuted",
    "Cfd.H5.C69_printinfo",
    "Cfd.H5.C69_printed"
   ],
   "note": "h5py.File is modelled by what its modes do to the file. C69_refused_write_keeps_file_refuted shows the weak point stated in the claim (refused 'w' empties the file). C69_printed: what printinfo shows."
  },
  {
   "property": "C70",
   "status": "proved",
   "theorems": [
    "Cfd.Commands.C70_select",
    "Cfd.Commands.C70_convert",
    "Cfd.Commands.C70_convert_refused",
    "Cfd.Commands.C70_convert_keeps_files",
    "Cfd.Commands.C70_cube",
    "Cfd.Commands.C70_cube_refused",
    "Cfd.Commands.C70_info_ic3",
    "Cfd.Commands.C70_info_never",
    "Cfd.Commands.C70_info_gmsh"
   ],
   "note": "The conversions are those of C64, C66, C67 (equality with the functions of these claims). argparse itself, options --extrude, --scale and --remove-cell-data are not in this model; the VTK writer is a parameter of cfdwritecube."
  },
  {
   "property": "C71",
   "status": "proved",
   "theorems": [
    "Cfd.VtkConvert.C71_gmsh",
    "Cfd.VtkConvert.C71_gmsh_extruded",
    "Cfd.VtkConvert.C71_gmsh_refused",
    "Cfd.VtkConvert.C71_cgns",
    "Cfd.VtkConvert.C71_cgns_extruded",
    "Cfd.VtkConvert.C71_cgns_refused",
    "Cfd.VtkConvert.C71_ic3_refused",
    "Cfd.VtkConvert.C71_no_reader"
   ],
   "note": "What pyvista writes for a grid (enc), np.linspace and the objects of an HDF5 file are parameters; numbers are any type with any sum and product. For CGNS with layers, marks on part of the cells are excluded by hypothesis. The grid itself is the one of C61. CGNS: the zone is told by the tree (TellsFile, C88)."
  },
  {
   "property": "C72",
   "status": "proved",
   "theorems": [
    "Cfd.Ic3Options.C72_gmsh_one_layer",
    "Cfd.Ic3Options.C72_gmsh_more_layers",
    "Cfd.Ic3Options.C72_gmsh_refused",
    "Cfd.Ic3Options.C72_cgns_one_layer",
    "Cfd.Ic3Options.C72_cgns_more_layers",
    "Cfd.Ic3Options.C72_cgns_refused",
    "Cfd.Ic3Options.C72_cgns_scaled",
    "Cfd.Ic3Options.C72_ic3",
    "Cfd.Ic3Options.C72_ic3_refused",
    "Cfd.Ic3Options.C72_no_option",
    "Cfd.Ic3Options.C72_no_reader"
   ],
   "note": "Composition of C36, C64-C67, C70 over the file system. np.linspace, the conversion of numbers to doubles and the objects of an HDF5 file are parameters; numbers are any type with any sum and product. The conditions on marks (LayerFits), and for CGNS marks on all cells or none, are hypotheses. --info is in C98. CGNS: the zone is told by the tree (TellsFile, C88)."
  },
  {
   "property": "C73",
   "status": "proved",
   "theorems": [
    "Cfd.VtkPack.C73_packs",
    "Cfd.VtkPack.C73_keeps_files",
    "Cfd.VtkPack.C73_missing",
    "Cfd.VtkPack.C73_foreign",
    "Cfd.VtkPack.C73_single_cell_accepted",
    "Cfd.VtkPack.C73_success",
    "Cfd.VtkPack.C73_succeeds_iff"
   ],
   "note": "pyvista reading, cell centers, the distance (symmetric, triangle inequality), the k-d tree (nearest position) and the bytes of HDF5 files are parameters. Times are other than 0 (C54). C73_single_cell_accepted: a file with a single cell at the place of the first cell is accepted and gives one value for all cells. C73_success, C73_succeeds_iff: for files whose own cells are separated, success is equivalent to having the same cells, and whatever a successful command wrote is the packed series; otherwise nothing changes."
  },
  {
   "property": "C74",
   "status": "partial",
   "theorems": [
    "Cfd.VtkPack.C74_numbers_partial",
    "Cfd.VtkPack.C74_read_again_partial",
    "Cfd.VtkPack.C74_mixed_refuted"
   ],
   "note": "Exact conditions proved (increasing VTK codes; alphabetical names); refuted by a hexahedron followed by a tetrahedron."
  },
  {
   "property": "C75",
   "status": "partial",
   "theorems": [
    "Cfd.Probes.C75_requested",
    "Cfd.Probes.C75_long_names_refuted",
    "Cfd.Probes.C75_sizes",
    "Cfd.Probes.C75_time_map_partial",
    "Cfd.Probes.C75_freq_map_partial",
    "Cfd.Probes.C75_short_series",
    "Cfd.Probes.C75_axis_lines",
    "Cfd.Probes.C75_values"
   ],
   "note": "C75_long_names_refuted holds for all files and options. Averages, FFT, colour maps and matplotlib drawing are parameters; the figure is given by the arrays passed to contourf. C75_requested and C75_values hold without hypotheses on the files."
  },
  {
   "property": "C76",
   "status": "proved",
   "theorems": [
    "Cfd.C76_accept_iff",
    "Cfd.C76_unchecked_witness"
   ],
   "note": "C76_accept_iff (exact condition, error and state); C76_unchecked_witness: what is not checked."
  },
  {
   "property": "C77",
   "status": "partial",
   "theorems": [
    "Cfd.VtkObject.C77_never_stale",
    "Cfd.VtkObject.C77_first",
    "Cfd.VtkObject.C77_again_partial",
    "Cfd.VtkObject.C77_again_refuted"
   ],
   "note": "Missing: asking again, refuted by C77_again_refuted; C77_again_partial is the exact answer for every grid (one cell: the volumes; two or more: ValueError; none: depends on numpy)."
  },
  {
   "property": "C78",
   "status": "partial",
   "theorems": [
    "Cfd.Shared.C78_step_partial",
    "Cfd.Shared.C78_same_dictionary_refuted",
    "Cfd.Shared.C78_names_refuted",
    "Cfd.Shared.C78_time_only_refuted",
    "Cfd.Shared.C78_refused_names"
   ],
   "note": "Missing: dictionaries and lists used again (refuted by C78_same_dictionary_refuted, C78_names_refuted, C78_time_only_refuted)."
  },
  {
   "property": "C79",
   "status": "proved",
   "theorems": [
    "Cfd.Ic3.C79_write_again",
    "Cfd.Ic3.C79_cells_kept",
    "Cfd.Ic3.C79_no_extrusion"
   ],
   "note": "C79_write_again (all later files), C79_cells_kept, C79_no_extrusion. What a writer whose construction raises leaves in the mesh: C82."
  },
  {
   "property": "C80",
   "status": "proved",
   "theorems": [
    "Cfd.Ic3.C80_ic3",
    "Cfd.Ic3.C80_v4",
    "Cfd.Ic3.C80_morph_file",
    "Cfd.C80_vtk",
    "Cfd.C80_extruded",
    "Cfd.C80_mesh"
   ],
   "note": "C80_mesh: faces, marks, unmarked faces, renumbering, check; C80_extruded, C80_vtk, C80_v4: results differ in the positions only; C80_ic3: bytes; C80_morph_file: read, morph, write, read."
  },
  {
   "property": "C81",
   "status": "proved",
   "theorems": [
    "Cfd.Ic3.C81_layout",
    "Cfd.Ic3.C81_from_cells"
   ],
   "note": "The specification (Spec/Ic3Layout.lean) spells out codes, sizes, orders and bytes with literal numbers, without the writer's tables."
  },
  {
   "property": "C82",
   "status": "partial",
   "theorems": [
    "Cfd.Ic3.C82_same_outcome",
    "Cfd.Ic3.C82_refused_again",
    "Cfd.Ic3.C82_repair_partial",
    "Cfd.Ic3.C82_remove",
    "Cfd.Ic3.C82_repair_refuted"
   ],
   "note": "C82_same_outcome (the steps with the state they leave), C82_refused_again, C82_repair_partial (every mark holds a boundary face), C82_remove (remove_boco), C82_repair_refuted (a mark without face: marks exchanged silently)."
  },
  {
   "property": "C83",
   "status": "proved",
   "theorems": [
    "Cfd.C83_closed",
    "Cfd.C83_closed_plane",
    "Cfd.C83_conservation",
    "Cfd.C83_boundary_closed",
    "Cfd.C83_directed",
    "Cfd.Ic3.C83_file",
    "Cfd.Ic3.C83_cube",
    "Cfd.CgnsConvert.C83_cgns",
    "Cfd.Convert.C83_gmsh",
    "Cfd.Convert.C83_gmsh_directed",
    "Cfd.Ic3.C83_extruded"
   ],
   "note": "C83_closed, C83_boundary_closed, C83_conservation and C83_directed for the generated faces; C83_closed_plane for the edges of plane meshes; C83_file, C83_gmsh, C83_gmsh_directed, C83_cgns, C83_cube and C83_extruded for the faces read from IC3 files. Consistent orientation of the cells is a hypothesis on the given mesh (it is proved for the Cube and for extruded quadrangles)."
  },
  {
   "property": "C84",
   "status": "proved",
   "theorems": [
    "Cfd.Ic3.C84_same",
    "Cfd.Ic3.C84_order",
    "Cfd.Ic3.C84_unknown",
    "Cfd.Ic3.C84_early_zone",
    "Cfd.Ic3.C84_accepts",
    "Cfd.Ic3.C84_content",
    "Cfd.Ic3.C84_written"
   ],
   "note": "C84_accepts (if and only if), C84_content, C84_same, C84_order, C84_unknown, C84_written; C84_early_zone states what is lost: a zone before the table of cells is ignored. Sections whose payload is longer or shorter than the counts announce are not covered (the reader does not use the size of the section after having read it)."
  },
  {
   "property": "C85",
   "status": "proved",
   "theorems": [
    "Cfd.Ic3.C85_accepts",
    "Cfd.Ic3.C85_content",
    "Cfd.Ic3.C85_same",
    "Cfd.Ic3.C85_layout",
    "Cfd.Ic3.C85_layout_solution",
    "Cfd.Ic3.C85_written",
    "Cfd.Ic3.C85_rows_refuted"
   ],
   "note": "C85_accepts: acceptance is equivalent to a condition on the items. C85_content: what is read, for solutions whose groups have one attribute of each name (always so in HDF5). C85_same: noninterference of all other items. C85_layout and C85_layout_solution: the items written. C85_written: a written file changed elsewhere is read as C33 and C34 say. C85_rows_refuted: 8 densities for 3 cells are read as 4 rows of 2, and 2 densities for 3 cells are accepted. Integers are assumed stored in datasets of integer type, counts as integer attributes; text attributes are not represented."
  },
  {
   "property": "C86",
   "status": "proved",
   "theorems": [
    "Cfd.Ic3.C86_accepts",
    "Cfd.Ic3.C86_from_cells",
    "Cfd.Ic3.C86_cells",
    "Cfd.Ic3.C86_cube",
    "Cfd.Ic3.C86_one_cell",
    "Cfd.Ic3.C86_gmsh",
    "Cfd.Ic3.C86_cgns",
    "Cfd.Ic3.C86_layer"
   ],
   "note": "h5py as in C33 (32-bit integers kept). Same specification of what is read (FromCells, CubeRead) as for the binary files of C62 and C63. Without boundary face the zones do not cover face 0 (C33_no_mark_refuted): the partition is claimed when there is a boundary face."
  },
  {
   "property": "C87",
   "status": "proved",
   "theorems": [
    "Cfd.C87_accepts",
    "Cfd.C87_content",
    "Cfd.C87_accepts4",
    "Cfd.C87_content4",
    "Cfd.C87_other_types",
    "Cfd.C87_regular",
    "Cfd.C87_node_counts_accepted"
   ],
   "note": "Numbers of a file as in C42 (int and float of words, any functions). Format 4.1 with a boundary node block of one node at the end: see C41_last_node_refuted. C87_node_counts_accepted: tetrahedra of three nodes are accepted."
  },
  {
   "property": "C88",
   "status": "proved",
   "theorems": [
    "Cfd.Cgns.C88_zone",
    "Cfd.Cgns.C88_accepts",
    "Cfd.Cgns.C88_content",
    "Cfd.Cgns.C88_only_told",
    "Cfd.Cgns.C88_refused",
    "Cfd.Cgns.C88_standard",
    "Cfd.Cgns.C88_one_zone",
    "Cfd.Cgns.C88_range_unchecked"
   ],
   "note": "Specification: Spec/CgnsTree (paths of items). HDF5 lists the members of a group in one order with distinct names; items of other types than expected are refused in the model. C88_accepts has the hypothesis Complete (as many nodes as the range asks for); C88_range_unchecked: otherwise the file may be accepted with a wrong numbering."
  },
  {
   "property": "C89",
   "status": "partial",
   "theorems": [
    "Cfd.Report.C89_succeeds",
    "Cfd.Report.C89_mesh",
    "Cfd.Report.C89_counts",
    "Cfd.Report.C89_face_counts",
    "Cfd.Report.C89_scalar",
    "Cfd.Report.C89_vector_v4",
    "Cfd.Report.C89_vector_partial",
    "Cfd.Report.C89_vector_refuted",
    "Cfd.Report.C89_cube"
   ],
   "note": "The statistics of the components of a vector in V2 and V3 files are those of the whole array (C89_vector_refuted; C89_vector_partial says exactly what is printed). The values put in the lines are modelled, not their formatting; means are exact."
  },
  {
   "property": "C90",
   "status": "partial",
   "theorems": [
    "Cfd.SeriesDump.C90_both",
    "Cfd.SeriesDump.C90_both_overwrite",
    "Cfd.SeriesDump.C90_alone",
    "Cfd.SeriesDump.C90_not_describable",
    "Cfd.SeriesDump.C90_refusal_keeps_files",
    "Cfd.SeriesDump.C90_pairs_kept",
    "Cfd.SeriesDump.C90_xmf_name_refuted",
    "Cfd.SeriesDump.C90_two_extensions_refuted"
   ],
   "note": "C90_both, C90_both_overwrite (whole call: names, contents of both files, other files), C90_alone, C90_not_describable, C90_refusal_keeps_files, C90_pairs_kept. C90_xmf_name_refuted (every describable series, every free name base.xmf) and C90_two_extensions_refuted (every two extensions). Bytes of HDF5 files and encoding of texts are parameters."
  },
  {
   "property": "C91",
   "status": "partial",
   "theorems": [
    "Cfd.Spectrum.C91_succeeds",
    "Cfd.Spectrum.C91_tones",
    "Cfd.Spectrum.C91_energy",
    "Cfd.Spectrum.C91_rotated",
    "Cfd.Spectrum.C91_bounds",
    "Cfd.Spectrum.C91_bounds_refuted"
   ],
   "note": "C91_succeeds, C91_tones, C91_energy, C91_rotated, C91_bounds in exact arithmetic (real and complex numbers of Mathlib), numpy.fft.fft and fftfreq by their documented definitions, variables with one value per sample. C91_bounds_refuted: with bounds, an oscillation of frequency 1/4 beside -1/2."
  },
  {
   "property": "C92",
   "status": "partial",
   "theorems": [
    "Cfd.Spectrum.C92_succeeds",
    "Cfd.Spectrum.C92_rows",
    "Cfd.Spectrum.C92_times",
    "Cfd.Spectrum.C92_frequencies_partial",
    "Cfd.Spectrum.C92_even_frequencies_refuted",
    "Cfd.Spectrum.C92_local",
    "Cfd.Spectrum.C92_scaled"
   ],
   "note": "C92_succeeds, C92_rows, C92_times, C92_local, C92_scaled, and the frequencies with odd windows (C92_frequencies_partial) in exact arithmetic, for variables with one value per sample; numpy.hanning, rfft, fftfreq by their documentation, log 0 is -inf. C92_even_frequencies_refuted: every even window."
  },
  {
   "property": "C93",
   "status": "proved",
   "theorems": [
    "Cfd.PlaneValues.C93_layers",
    "Cfd.PlaneValues.C93_energy",
    "Cfd.PlaneValues.C93_waves"
   ],
   "note": "C93_layers (from the positions of the cells to the columns), C93_energy, C93_waves: exact arithmetic, variables of one component, the default splitcoords; numpy average, std, fft(norm='ortho'), angle by their documentation; argsort and KDTree by what they find (SortTools). As many modes as layers: C47_refused."
  },
  {
   "property": "C94",
   "status": "proved",
   "theorems": [
    "Cfd.PlaneExtrude.C94_layers",
    "Cfd.PlaneExtrude.C94_slice",
    "Cfd.PlaneExtrude.C94_plane_field"
   ],
   "note": "C94_layers, C94_slice, C94_plane_field: exact arithmetic, default splitcoords; the center of a hexahedron is the mean of its points (documentation of VTK). Triangles: extruded to penta6, which the conversion refuses (C61_unknown_type, C13)."
  },
  {
   "property": "C95",
   "status": "proved",
   "theorems": [
    "Cfd.Gas.C95_quantities",
    "Cfd.Gas.C95_relations",
    "Cfd.Gas.C95_invariants"
   ],
   "note": "Numbers are exact reals, the literals of the code are read as decimal numbers; rounding of floats and NaN (negative pressures) are outside."
  },
  {
   "property": "C96",
   "status": "proved",
   "theorems": [
    "Cfd.C96_gradient",
    "Cfd.C96_divergence",
    "Cfd.C96_volume",
    "Cfd.C96_plane",
    "Cfd.C96_extruded_volume",
    "Cfd.C96_cube",
    "Cfd.Ic3.C96_file"
   ],
   "note": "Positions and values are exact numbers. Cells that are not affine images of the reference element (warped hexahedra) are outside in space, not in the plane: there the mean of the nodes of a face is not its centre."
  },
  {
   "property": "C97",
   "status": "partial",
   "theorems": [
    "Cfd.C97_history_partial",
    "Cfd.C97_accepted_partial",
    "Cfd.C97_new_partial",
    "Cfd.C97_refuted",
    "Cfd.C97_dataset_of_list_refuted"
   ],
   "note": "The code refutes the claim (C97_refuted): arrays of several values raise ValueError after x is replaced, an array of the single value 0 is dropped, and a later call with x alone leaves the former y. Proved for every history: exactly what is shown (C97_history_partial), when a call is accepted (C97_accepted_partial), and when a new data set shows exactly what was given (C97_new_partial). DataSetList.dataSet never returns (C97_dataset_of_list_refuted)."
  },
  {
   "property": "C98",
   "status": "proved",
   "theorems": [
    "Cfd.InfoOption.C98_ic3_same_or_refused",
    "Cfd.InfoOption.C98_vtk_same_or_refused",
    "Cfd.InfoOption.C98_gmsh_ic3",
    "Cfd.InfoOption.C98_gmsh_vtk",
    "Cfd.InfoOption.C98_ic3",
    "Cfd.InfoOption.C98_cgns_ic3",
    "Cfd.InfoOption.C98_cgns_vtk"
   ],
   "note": "Only the exceptions of printinfo matter here (the lines are C89). For Gmsh and CGNS files the content of the file is told by IsMeshOf and TellsFile (C43, C88); elements have nodes and there is a cell. numpy's set order, linspace and arithmetic are parameters."
  }
 ]
}
