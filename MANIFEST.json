{
 "claims": [
  {
   "property": "C01",
   "status": "proved",
   "theorems": [
    "MM.C01_merged_rows_within_tolerance",
    "MM.exMesh_meets_C05"
   ],
   "note": "All arrays, all widths, all argsort tie orders, atol >= 0."
  },
  {
   "property": "C02",
   "status": "proved",
   "theorems": [
    "MM.C02_exact_duplicates_merged",
    "MM.exMesh_meets_C05"
   ],
   "note": "Identical rows merged, output rows distinct, separated arrays unchanged."
  },
  {
   "property": "C03",
   "status": "proved",
   "theorems": [
    "MM.C03_renumbering_total_in_range_onto",
    "MM.exMesh_meets_C05"
   ],
   "note": "Also covers the IndexError raised on an empty array."
  },
  {
   "property": "C04",
   "status": "partial",
   "theorems": [
    "MM.C04_complete_idempotent_partial",
    "MM.C04_completeness_fails",
    "MM.C04_idempotence_fails"
   ],
   "note": "The property is false for the code: counterexamples proved. Holds when closeness is transitive on each coordinate."
  },
  {
   "property": "C05",
   "status": "proved",
   "theorems": [
    "MM.C05_merge_duplicates_moves_corners_within_tol",
    "MM.exMesh_meets_C05"
   ],
   "note": ""
  },
  {
   "property": "C06",
   "status": "proved",
   "theorems": [
    "MM.C06_extract_faces_geometry",
    "MM.exMesh_meets_C05"
   ],
   "note": ""
  },
  {
   "property": "C07",
   "status": "proved",
   "theorems": [
    "MM.C07_extract_faces_used_vertices",
    "MM.exMesh_meets_C05"
   ],
   "note": ""
  },
  {
   "property": "C08",
   "status": "proved",
   "theorems": [
    "MM.C08_remove_unused_vertices",
    "MM.exMesh_meets_C05"
   ],
   "note": ""
  },
  {
   "property": "C09",
   "status": "proved",
   "theorems": [
    "MM.C09_heal_triangles"
   ],
   "note": ""
  },
  {
   "property": "C10",
   "status": "proved",
   "theorems": [
    "MM.C10_triangulate_structure",
    "MM.C10_triangulate_conserves"
   ],
   "note": "Real-number geometry."
  },
  {
   "property": "C100",
   "status": "partial",
   "theorems": [
    "MM.Io.C100_msh_partial",
    "MM.Io.mshSample_meets_C100",
    "MM.Io.C100_versions",
    "MM.Io.C100_trailing_blank",
    "MM.Io.C100_node_numbers_fail",
    "MM.Io.C100_no_node",
    "MM.Io.C100_complete_nodes",
    "MM.Io.C100_incomplete_node"
   ],
   "note": "Fails as stated for nodes not numbered 1, 2, ... (faces refer to wrong vertices), element lines with a trailing or double blank (silently lost), and files without node (AttributeError): witnesses given. Proved for every file in GMSH's own layout with sequential node numbers."
  },
  {
   "property": "C101",
   "status": "partial",
   "theorems": [
    "MM.Io.C101_rad_partial",
    "MM.Io.radSample_meets_C101",
    "MM.Io.C101_few_elements_fails",
    "MM.Io.C101_no_point_fails",
    "MM.Io.C101_node_numbers_fail"
   ],
   "note": "Character level. Proved for every file with at least one node and three elements whose nodes are numbered 1, 2, .... Violated: every file with one or two elements is refused (AttributeError), every text without decimal point too, and nodes with other numbers give faces that refer to wrong vertices."
  },
  {
   "property": "C102",
   "status": "partial",
   "theorems": [
    "MM.Old.C102_after_equilibrate_partial",
    "MM.Old.C102_fails"
   ],
   "note": "Proved: isstable answers True exactly with the code 1; the bounds of the residuals after the final translation; is_at_equilibrium answers True when the gravity centre was on the axis or the vertical force balanced exactly. Violated in general: the final translation changes the moments about the origin (witness)."
  },
  {
   "property": "C103",
   "status": "partial",
   "theorems": [
    "MM.Io.C103_vtk_partial",
    "MM.Io.C103_error",
    "MM.Io.C103_lines_fail"
   ],
   "note": "Holds when every cell has three or four distinct points; IndexError exactly when a cell has more than four; every cell of one or two points becomes a face with vertex 0 (the code violates the property)."
  },
  {
   "property": "C104",
   "status": "partial",
   "theorems": [
    "MM.Io.C104_stl_partial",
    "MM.Io.C104_empty_fails"
   ],
   "note": "Holds for every file with a facet. Fails (IndexError) for a file without points. The vtk reader is a parameter with the assumption StlReads."
  },
  {
   "property": "C105",
   "status": "partial",
   "theorems": [
    "MM.Io.C105_med_partial",
    "MM.Io.C105_no_nodes",
    "MM.Io.C105_two_meshes_fail"
   ],
   "note": "Holds for a file with one mesh; a file with two meshes mixes them (the code violates the property)."
  },
  {
   "property": "C106",
   "status": "partial",
   "theorems": [
    "MM.Io.C106_msh41_partial",
    "MM.Io.C106_tags_fail"
   ],
   "note": "Holds when the tags are 1, 2, 3, ... in the order of the file; otherwise faces refer to wrong vertices (the code violates the property)."
  },
  {
   "property": "C107",
   "status": "partial",
   "theorems": [
    "MM.Io.C107_inp_partial",
    "MM.Io.C107_unreadable",
    "MM.Io.C107_no_element",
    "MM.Io.C107_sample",
    "MM.Io.C107_read",
    "MM.Io.C107_two_node_sections",
    "MM.Io.C107_missing_sample",
    "MM.Io.C107_no_element_sample",
    "MM.Io.C107_blank_fails",
    "MM.Io.C107_lost_fails",
    "MM.Io.C107_vector_fails"
   ],
   "note": "Proved from the characters of the two files, for one set of nodes. Files that look valid and are not read as such: blanks after the commas (errors), element lines without leading blank, with a trailing blank or without end of line (lost silently). Several sets of nodes: violated, see C58."
  },
  {
   "property": "C108",
   "status": "proved",
   "theorems": [
    "MM.Alias.C108_values",
    "MM.Alias.C108_isolated",
    "MM.Alias.C108_arrays",
    "MM.Alias.C108_sample"
   ],
   "note": "Heap model of the arrays; a program stops at its first exception."
  },
  {
   "property": "C109",
   "status": "partial",
   "theorems": [
    "MM.Alias.C109_snapshot_partial",
    "MM.Alias.C109_areas",
    "MM.Alias.C109_vertices_fails",
    "MM.Alias.C109_faces_fails",
    "MM.Alias.C109_cached_fails",
    "MM.Alias.C109_heal_normals_fails",
    "MM.Alias.C109_write_stale",
    "MM.Alias.C109_sample"
   ],
   "note": "False in the code for translate_x, mirror, heal_triangles, heal_normals, triangulate_quadrangles and for the cached centres and normals (shown); proved for every other operation."
  },
  {
   "property": "C11",
   "status": "proved",
   "theorems": [
    "MM.C11_concatenation",
    "MM.exMesh_meets_C05"
   ],
   "note": ""
  },
  {
   "property": "C110",
   "status": "partial",
   "theorems": [
    "MM.ReportOld.C110_report_partial",
    "MM.ReportOld.C110_residual_unreadable",
    "MM.ReportOld.C110_fails"
   ],
   "note": "Proved when the centres are nearer than 9999 m and no moment of the residual is negative. As soon as a moment of the residual is negative its number touches the one before and neither line of the residuals can be read (C110_residual_unreadable, for all data; C110_fails, the text). Infinite values and NaN (null scale) are not modelled."
  },
  {
   "property": "C111",
   "status": "proved",
   "theorems": [
    "MM.Old.C111_balance",
    "MM.Old.C111_null_residual",
    "MM.Old.halfCube_meets_C111",
    "MM.Old.C111_force_shares_point",
    "MM.Old.C111_force_shares_point_xy"
   ],
   "note": "Real arithmetic. C111_force_shares_point is a finding beside the property: the force returned by get_gravity_force shares its application point with the body."
  },
  {
   "property": "C112",
   "status": "proved",
   "theorems": [
    "MM.Info.C112_mesh_text",
    "MM.Info.roof_meets_C112",
    "MM.Info.C112_fails_for_names_with_lines"
   ],
   "note": "Reading the text back by labels. A name with an end of line can forge a line (proved)."
  },
  {
   "property": "C113",
   "status": "proved",
   "theorems": [
    "MM.Sess.C113_numbers",
    "MM.Sess.C113_fresh_name",
    "MM.Sess.C113_automatic_names",
    "MM.Sess.session_meets_C113",
    "MM.Sess.C113_fails_for_copies",
    "MM.Sess.C113_fails_for_numbers"
   ],
   "note": "Copies keep the number and the name (deepcopy); sums can produce an automatic-looking name when a mesh is named with a number (both proved)."
  },
  {
   "property": "C114",
   "status": "proved",
   "theorems": [
    "MM.C114_recovers",
    "MM.C114_axis_angle",
    "MM.thirdTurn_meets_C114"
   ],
   "note": "Exact arithmetic. For half turns the floating-point sine of pi is not null: the program then returns a vector without meaning instead of raising."
  },
  {
   "property": "C115",
   "status": "partial",
   "theorems": [
    "MM.Io.C115_wrl_partial",
    "MM.Io.C115_version",
    "MM.Io.C115_no_header",
    "MM.Io.C115_shapes_lost",
    "MM.Io.wrl_meets_C115"
   ],
   "note": "Holds for files with one shape; all shapes but the first are lost silently (the code violates the property). The vtk importer is an argument of the model."
  },
  {
   "property": "C116",
   "status": "partial",
   "theorems": [
    "MM.Hydro.C116_at_cog_partial",
    "MM.Hydro.halfCube_meets_C116",
    "MM.Hydro.C116_horizontal_position_ignored",
    "MM.Hydro.C116_fails"
   ],
   "note": "Proved when the gravity and buoyancy centres are on the same vertical. Violated otherwise: the code uses the buoyancy centre; the matrix does not depend on the horizontal position of the gravity centre. The roll-pitch coefficient is wrong anyway (C46)."
  },
  {
   "property": "C117",
   "status": "proved",
   "theorems": [
    "MM.C117_rounded_merge",
    "MM.C117_as_exact",
    "MM.doubles_meet_C117",
    "MM.C117_tolerance_exceeded",
    "MM.roundBits_isRounding"
   ],
   "note": "The rounding to p bits, ties to even, is proved to be such a rounding. Overflow and NaN are not modelled. The exact tolerance can be exceeded (C117_tolerance_exceeded)."
  },
  {
   "property": "C118",
   "status": "proved",
   "theorems": [
    "MM.C118_classification",
    "MM.C118_partition",
    "MM.flMesh_meets_C118",
    "MM.doubles_meet_C119",
    "MM.dotFl_isDot",
    "MM.dotFma_isDot"
   ],
   "note": "Without underflow, overflow and NaN. The scalar product is a parameter; two orders of summation are proved to be instances."
  },
  {
   "property": "C119",
   "status": "proved",
   "theorems": [
    "MM.C119_intersection",
    "MM.doubles_meet_C119"
   ],
   "note": "Without underflow, overflow and NaN."
  },
  {
   "property": "C12",
   "status": "proved",
   "theorems": [
    "MM.C12_flip_normals",
    "MM.C12_flip_normals_structure"
   ],
   "note": ""
  },
  {
   "property": "C120",
   "status": "proved",
   "theorems": [
    "MM.C120_stable",
    "MM.rows_meet_C120",
    "MM.C120_gap_needed"
   ],
   "note": "Exact merge and rounded merge give the same numbers under a gap condition; a witness shows that the gap is needed."
  },
  {
   "property": "C121",
   "status": "proved",
   "theorems": [
    "MM.Clipper.C121_same_connectivity",
    "MM.Clipper.flOcta_meets_C121"
   ],
   "note": "A simulation of the exact run by the rounded run; no overflow, underflow or NaN."
  },
  {
   "property": "C122",
   "status": "proved",
   "theorems": [
    "MM.Clipper.C122_watertight",
    "MM.Clipper.C122_volume",
    "MM.Clipper.flOcta_meets_C122"
   ],
   "note": "The volume is that of the computed vertices, its own evaluation being exact. Conditions as in C121 and C45."
  },
  {
   "property": "C123",
   "status": "partial",
   "theorems": [
    "MM.Hydro.C123_displaced_volume_in_slab_partial",
    "MM.Hydro.slabOcta_meets_C123"
   ],
   "note": "The bound on the displaced volume for corners anywhere but exactly at the tolerance. Missing: faces with a side in the slab and corners on both sides of it, and points of clipping closer than the merging tolerance (where the clipper itself fails, C45)."
  },
  {
   "property": "C124",
   "status": "partial",
   "theorems": [
    "MM.Hydro.C124_buoyancy_centre_in_slab_partial",
    "MM.Hydro.slabOcta_meets_C124"
   ],
   "note": "Bounds on the three moments. Missing: as C123."
  },
  {
   "property": "C125",
   "status": "partial",
   "theorems": [
    "MM.C125_surface_in_slab_partial",
    "MM.Hydro.C125_wetted_area_in_slab_partial",
    "MM.Hydro.slabOcta_wetted_area"
   ],
   "note": "Missing: faces with a side in the slab and corners on both sides of it, corners exactly at the tolerance, points that the final merging would identify (as C123)."
  },
  {
   "property": "C126",
   "status": "proved",
   "theorems": [
    "MM.InertiaText.C126_inertia_text",
    "MM.InertiaText.C126_plain_inertia_text",
    "MM.InertiaText.C126_shell_inertia_text"
   ],
   "note": "Numbers are rationals (-0.0, infinities and NaN are not modelled); formatting is the model of Python's % and format used in C98-C112, correctly rounded."
  },
  {
   "property": "C127",
   "status": "proved",
   "theorems": [
    "MM.Cli.C127_input_format",
    "MM.Cli.C127_no_format",
    "MM.Cli.C127_concatenated_format",
    "MM.Cli.C127_typed_case"
   ],
   "note": "The readers, os.path.isfile and str.lower are parameters of the model; splitext is modelled. C61 and C83 name the format by the model's own function; this theorem states it from the options."
  },
  {
   "property": "C128",
   "status": "proved",
   "theorems": [
    "MM.C128_volume",
    "MM.C128_volume_bound",
    "MM.C128_inertia",
    "MM.C128_centre",
    "MM.C128_exact"
   ],
   "note": "Meshes of triangles (quadrangles are not covered by this property). Roundings have a relative error at most u: no underflow nor overflow, as in C118-C122."
  },
  {
   "property": "C129",
   "status": "proved",
   "theorems": [
    "MM.C129_volume",
    "MM.C129_clipped_volume",
    "MM.halfCube_meets_C129"
   ],
   "note": "Quadrangles need the norm to have a bounded relative error: the normal of the quadrangle and the areas of its two triangles come from different vector products. Norms of the vector products must not be zero: given for C129_volume, derived from the areas of the exact faces for the clipped mesh. No overflow or underflow. Case: the half immersed cube."
  },
  {
   "property": "C13",
   "status": "proved",
   "theorems": [
    "MM.C13_mirror",
    "MM.cube_meets_C13"
   ],
   "note": ""
  },
  {
   "property": "C130",
   "status": "proved",
   "theorems": [
    "MM.C130_watertight",
    "MM.C130_sum",
    "MM.cube_meets_C130",
    "MM.C130_remove_degenerated_fails"
   ],
   "note": "remove_degenerated_faces does not have the property: counterexample proved. heal_normals and heal_mesh are excluded from the histories."
  },
  {
   "property": "C131",
   "status": "proved",
   "theorems": [
    "MM.C131_half_hull",
    "MM.halfBox_meets_C131"
   ],
   "note": "Exact arithmetic."
  },
  {
   "property": "C132",
   "status": "proved",
   "theorems": [
    "MM.Io.C132_stl",
    "MM.Io.C132_vtk",
    "MM.Io.C132_obj",
    "MM.Io.boxSample_meets_C132"
   ],
   "note": "The reader of the VTK library is a parameter: it gives the points and cells of the file, each number with a relative error at most eps. Decimal forms as in C97 to C99."
  },
  {
   "property": "C133",
   "status": "proved",
   "theorems": [
    "MM.C133_positions",
    "MM.C133_distances",
    "MM.C133_volume",
    "MM.cube_meets_C133"
   ],
   "note": "Without overflow nor underflow; the values of the cosines and sines are within delta, as the hypotheses say."
  },
  {
   "property": "C134",
   "status": "proved",
   "theorems": [
    "MM.Io.C134_no_drift",
    "MM.Io.C134_distance"
   ],
   "note": "Histories are lists of stages, each a format and a reading function of relative precision epsilon; induction over the history. What the vtk library makes of a VTK or OBJ file is the format as read by readVtk and readObj."
  },
  {
   "property": "C135",
   "status": "proved",
   "theorems": [
    "MM.C135_area",
    "MM.C135_wetted_area"
   ],
   "note": "Model/AreaFl: every operation rounded, any order of additions; conditions of C121 for the clipped mesh. Overflow, underflow and NaN are not modelled."
  },
  {
   "property": "C136",
   "status": "proved",
   "theorems": [
    "MM.C136_inertia",
    "MM.C136_centre",
    "MM.C136_body",
    "MM.C136_buoyancy_centre",
    "MM.halfCube_meets_C136",
    "MM.cube_meets_C136_body"
   ],
   "note": "Overflow and underflow are not modelled. The centre needs a volume larger than its own error bound. The clipped mesh is compared with the exact calculation of the model, under the separation conditions of C121."
  },
  {
   "property": "C137",
   "status": "proved",
   "theorems": [
    "MM.Hydro.C137_line_sums",
    "MM.Hydro.C137_moments",
    "MM.Hydro.C137_waterplane",
    "MM.Hydro.halfCube_meets_C137"
   ],
   "note": "Every operation of the loop is rounded. C137_moments compares with the integrals of 1, x, y, x^2, y^2 over the polygons; the sum for xy is compared with the code's own formula because C46 shows it is not the integral of xy. C137_waterplane includes the clipping in floating point and is for at_cog false."
  },
  {
   "property": "C138",
   "status": "proved",
   "theorems": [
    "MM.Hydro.C138_coefficients",
    "MM.Hydro.C138_hydrostatics",
    "MM.Hydro.halfCube_meets_C138"
   ],
   "note": "C138_hydrostatics: the whole calculation after the mesh is in its working position, at_cog false. The other entries of the dictionary (bounding box, lengths, shifted inertia) are not in this theorem. Coefficients below 1e-4 are zeroed by the code in both runs, hence the additional 1e-4."
  },
  {
   "property": "C139",
   "status": "proved",
   "theorems": [
    "MM.Io.C139_no_drift",
    "MM.Io.C139_distance",
    "MM.Io.boxSample_meets_C139"
   ],
   "note": "As C134, for the formats with mantissa and exponent. The limits on the counts are those of NAT (C52). Reading a number is a parameter with relative error epsilon, epsilon * 10^7 < 1/2."
  },
  {
   "property": "C14",
   "status": "proved",
   "theorems": [
    "MM.C14_symmetrize",
    "MM.cube_meets_C14"
   ],
   "note": ""
  },
  {
   "property": "C140",
   "status": "proved",
   "theorems": [
    "MM.Io.C140_any_formats",
    "MM.Io.boxSample_meets_C140"
   ],
   "note": "Reading a number is a parameter with a relative error epsilon (10^7 epsilon < 1/2 and (b + 7) epsilon < 1/2 10^-6 for coordinates up to b, met by double precision). What the vtk library makes of a VTK or OBJ file is the format as read by readVtk and readObj."
  },
  {
   "property": "C141",
   "status": "proved",
   "theorems": [
    "MM.C141_inertia",
    "MM.C141_products",
    "MM.C141_centre",
    "MM.shellSample_meets_C141"
   ],
   "note": "Every operation rounded, sums in any order, norms of relative error at most eps. Mass, centre and diagonal moments are compared with the integrals over the faces; the products with the exact calculation of the code, which is not the integral (C28_fails)."
  },
  {
   "property": "C142",
   "status": "proved",
   "theorems": [
    "MM.C142_transport",
    "MM.sample_meets_C142"
   ],
   "note": "One change of reduction point, starting at the centre of gravity (later changes are wrong already in exact arithmetic, C38_fails)."
  },
  {
   "property": "C143",
   "status": "proved",
   "theorems": [
    "MM.C143_area",
    "MM.C143_inertia",
    "MM.runAll_solidIntegral",
    "MM.runAll_centre",
    "MM.cube_meets_C143"
   ],
   "note": "Composition of C133, C135 and C136; the exact statements about the moved solid are runAll_solidIntegral (any function) and runAll_centre. Overflow and underflow are not modelled."
  },
  {
   "property": "C144",
   "status": "proved",
   "theorems": [
    "MM.C144_shell",
    "MM.runAll_shellIntegral",
    "MM.runAll_shellCentre",
    "MM.shell_meets_C144"
   ],
   "note": "Composition of C133 and C141. The products of inertia are not part of the claim: the code computes them wrong (C28). Overflow and underflow are not modelled."
  },
  {
   "property": "C145",
   "status": "proved",
   "theorems": [
    "MM.C145_plane_text",
    "MM.C145_same_plane",
    "MM.plane_meets_C145"
   ],
   "note": "Numbers are rationals (-0.0, infinities and NaN not modelled)."
  },
  {
   "property": "C146",
   "status": "proved",
   "theorems": [
    "MM.C146_quick_save",
    "MM.names_meet_C146"
   ],
   "note": "The contents of the VTP file (vtk library) are a parameter."
  },
  {
   "property": "C147",
   "status": "proved",
   "theorems": [
    "MM.C147_defined",
    "MM.C147_positions",
    "MM.C147_exact_volume",
    "MM.C147_volume",
    "MM.cube_meets_C147"
   ],
   "note": "Overflow and underflow are not modelled. The caches are those of C17 (C17_scale_stale: the surface integrals may be stale after a scaling; here they are computed after the scalings)."
  },
  {
   "property": "C148",
   "status": "proved",
   "theorems": [
    "MM.C148_positions",
    "MM.C148_volume",
    "MM.C148_twice"
   ],
   "note": "Witness: MM.cube_meets_C148 (the cube and a slanted plane with a rounded normal); the hypotheses of C148_twice are among those of C148_volume."
  },
  {
   "property": "C149",
   "status": "proved",
   "theorems": [
    "MM.C149_symmetrize",
    "MM.C149_seam"
   ],
   "note": "Witness: MM.cube_meets_C149. The tolerance 1e-8, once rounded, is assumed to be a value of the rounding function."
  },
  {
   "property": "C15",
   "status": "proved",
   "theorems": [
    "MM.C15_bounding_boxes",
    "MM.exMesh_meets_C15"
   ],
   "note": ""
  },
  {
   "property": "C150",
   "status": "proved",
   "theorems": [
    "MM.C150_normal",
    "MM.C150_length",
    "MM.C150_mirror",
    "MM.C150_symmetrize"
   ],
   "note": "Witness: MM.cube_meets_C150 (normal (1, 2, -3)). The zero vector, for which numpy gives NaN, is excluded."
  },
  {
   "property": "C151",
   "status": "proved",
   "theorems": [
    "MM.C151_symmetrized_volume"
   ],
   "note": "Witness: MM.openCube_meets_C151."
  },
  {
   "property": "C152",
   "status": "proved",
   "theorems": [
    "MM.C152_integrals",
    "MM.C152_centre",
    "MM.C152_inertia"
   ],
   "note": "Witness: MM.openCube_meets_C152."
  },
  {
   "property": "C153",
   "status": "proved",
   "theorems": [
    "MM.C153_integrals",
    "MM.C153_area",
    "MM.C153_centre",
    "MM.C153_moments"
   ],
   "note": "Witness: MM.openCube_meets_C153. The products of inertia of a shell are wrong in the code (C28_fails) and are left out."
  },
  {
   "property": "C154",
   "status": "proved",
   "theorems": [
    "MM.C154_integrals",
    "MM.C154_buoyancy",
    "MM.C154_wetted_area",
    "MM.C154_hull"
   ],
   "note": "Witness: MM.halfOcta_meets_C154. As for C85, distinct points that the clipper deals with must be farther apart than its merge tolerance."
  },
  {
   "property": "C16",
   "status": "partial",
   "theorems": [
    "MM.C16_edge_stats_partial",
    "MM.C16_min_edge_zero_with_triangle",
    "MM.C16_fails"
   ],
   "note": "For triangles the code counts the null repeated edge: the true statistics hold for meshes of quadrangles only."
  },
  {
   "property": "C17",
   "status": "partial",
   "theorems": [
    "MM.C17_geometry_partial",
    "MM.C17_connectivity_partial",
    "MM.C17_always_safe_partial",
    "MM.C17_scale_stale",
    "MM.C17_merge_stale",
    "MM.C17_heal_triangles_stale",
    "MM.C17_flip_stale",
    "MM.C17_flip_boundaries_stale",
    "MM.C17_heal_triangles_conn_stale",
    "MM.C17_remove_degenerated_stale",
    "MM.C17_heal_normals_stale"
   ],
   "note": "Proved for every history whose steps are taken in the states described by SafeGeom / SafeConn; unconditional for the operations of Op.alwaysSafe. The full statement is false of the code: eight two-step histories leaving a stale value are exhibited."
  },
  {
   "property": "C18",
   "status": "proved",
   "theorems": [
    "MM.C18_translate",
    "MM.C18_rotate_matrix",
    "MM.C18_rotate",
    "MM.C18_scale"
   ],
   "note": "Volume under translation: closed consistently oriented meshes with plane non-degenerate faces; other items for every mesh with valid indices."
  },
  {
   "property": "C19",
   "status": "proved",
   "theorems": [
    "MM.C19_vertex_adjacency"
   ],
   "note": "For every iteration order and every face list; out of range indices raise KeyError."
  },
  {
   "property": "C20",
   "status": "partial",
   "theorems": [
    "MM.C20_errors",
    "MM.C20_corners",
    "MM.C20_face_adjacency_partial",
    "MM.C20_fails",
    "MM.noChord_of_triangles"
   ],
   "note": "Faces with distinct corners. Errors characterised exactly; adjacency = sharing an edge when no edge is a diagonal of another face (always so for triangle meshes); a quadrangle and a triangle on its diagonal are reported adjacent (C20_fails)."
  },
  {
   "property": "C21",
   "status": "partial",
   "theorems": [
    "MM.C21_boundaries_sound",
    "MM.C21_boundaries_complete_partial",
    "MM.C21_boundaries_complete_oriented_partial",
    "MM.C21_completeness_fails"
   ],
   "note": "Soundness for every mesh whose faces have distinct corners. Completeness also assumes that no edge is a diagonal of another face (always so for meshes of triangles): C21_completeness_fails shows a cube carrying a triangle on a diagonal, whose boundary is not reported."
  },
  {
   "property": "C22",
   "status": "partial",
   "theorems": [
    "MM.C22_closed_of_two_faces",
    "MM.C22_closed_partial",
    "MM.C22_fails"
   ],
   "note": "Two triangles traversing their common edge in the same direction are reported closed (C22_fails), because open chains are dropped. The equivalence holds for consistently oriented meshes without a vertex ending two boundary edges."
  },
  {
   "property": "C23",
   "status": "partial",
   "theorems": [
    "MM.C23_conformal_partial",
    "MM.C23_fails",
    "MM.C23_cube_none"
   ],
   "note": "The function returns None without boundary, examines only the first boundary and only its horizontal projection."
  },
  {
   "property": "C24",
   "status": "partial",
   "theorems": [
    "MM.C24_heal_normals_partial",
    "MM.C24_watertight_partial",
    "MM.C24_flood",
    "MM.C24_second_call_fails",
    "MM.C24_three_common_fails"
   ],
   "note": "Proved for a first call (no cached connectivity) on orientable meshes with proper faces where two faces sharing an edge have no further common corner and no edge is a face diagonal; the claim is false of the code for a second call (KeyError, proved in general) and for faces sharing three corners (witness)."
  },
  {
   "property": "C25",
   "status": "partial",
   "theorems": [
    "MM.C25_triangle_integrals_partial",
    "MM.C25_fails"
   ],
   "note": "Rows 0-2 and 6-14 are proved equal to the interval-integral definition of the surface integral. Rows 3-5 (yz, xz, xy) are wrong in the code: C25_fails gives a triangle for each where the code returns 0 and the integral is 1/24."
  },
  {
   "property": "C26",
   "status": "proved",
   "theorems": [
    "MM.C26_volume"
   ],
   "note": "Closed, consistently oriented meshes of triangles and plane convex quadrangles, any apex."
  },
  {
   "property": "C27",
   "status": "proved",
   "theorems": [
    "MM.C27_plain_inertia",
    "MM.C27_moments",
    "MM.C27_translate"
   ],
   "note": "Closed oriented meshes with plane faces and non-zero volume; moments are integrals over the signed tetrahedra with any apex."
  },
  {
   "property": "C28",
   "status": "partial",
   "theorems": [
    "MM.C28_shell_inertia_partial",
    "MM.C28_fails"
   ],
   "note": "Mass, centre of gravity and diagonal moments proved. The products of inertia use the wrong rows 3-5 of the surface integrals: C28_fails."
  },
  {
   "property": "C29",
   "status": "proved",
   "theorems": [
    "MM.C29_edge_intersection"
   ],
   "note": "Over any ordered field."
  },
  {
   "property": "C30",
   "status": "proved",
   "theorems": [
    "MM.C30_orthogonal_projection"
   ],
   "note": "Over any ordered field."
  },
  {
   "property": "C31",
   "status": "proved",
   "theorems": [
    "MM.C31_plane_angles"
   ],
   "note": "Over the reals."
  },
  {
   "property": "C32",
   "status": "partial",
   "theorems": [
    "MM.C32_coord_in_plane_partial",
    "MM.C32_fails"
   ],
   "note": "Holds for horizontal planes only; a vertical plane is a counterexample."
  },
  {
   "property": "C33",
   "status": "partial",
   "theorems": [
    "MM.C33_flip_normal_partial",
    "MM.C33_fails"
   ],
   "note": "Holds only for planes through the origin: the scalar is not negated."
  },
  {
   "property": "C34",
   "status": "proved",
   "theorems": [
    "MM.C34_rotation_matrices"
   ],
   "note": "Over the reals; unit inputs are accepted and give orthogonal matrices of determinant one."
  },
  {
   "property": "C35",
   "status": "proved",
   "theorems": [
    "MM.C35_cardan_round_trip",
    "MM.angles_meet_C35"
   ],
   "note": "Over the reals, gimbal lock included."
  },
  {
   "property": "C36",
   "status": "proved",
   "theorems": [
    "MM.C36_quaternions"
   ],
   "note": "Over the reals, all four branches of rotmat_to_quat."
  },
  {
   "property": "C37",
   "status": "partial",
   "theorems": [
    "MM.C37_axis_angle_partial",
    "MM.C37_fails"
   ],
   "note": "Holds when 1-q0^2 > 1e-8; the code replaces smaller rotations by the identity (proved by a witness)."
  },
  {
   "property": "C38",
   "status": "partial",
   "theorems": [
    "MM.C38_transport_partial",
    "MM.C38_history",
    "MM.C38_fails"
   ],
   "note": "One move from the centre of gravity is proved. shift_at_cog adds the parallel axis term instead of subtracting it, so coming back and longer histories are wrong: C38_history states exactly what the code computes, C38_fails is a counterexample."
  },
  {
   "property": "C39",
   "status": "partial",
   "theorems": [
    "MM.C39_polyhedra",
    "MM.C39_round_solids",
    "MM.C39_shells",
    "MM.C39_degenerate",
    "MM.C39_triangle",
    "MM.C39_right_angle_wedge_partial",
    "MM.C39_hemisphere_partial",
    "MM.C39_total_cylindrical_shell_partial",
    "MM.C39_fails"
   ],
   "note": "Seventeen of the twenty constructors are proved equal to the integrals over the body. hemisphere (0.26 for all axes), right_angle_wedge (missing product of inertia) and total_cylindrical_shell (coefficient 2 instead of 3 in Ixx) are wrong: C39_fails."
  },
  {
   "property": "C40",
   "status": "proved",
   "theorems": [
    "MM.Clipper.C40_partition"
   ],
   "note": "Partition of the faces and the two position errors, for every mesh, plane and tolerance."
  },
  {
   "property": "C41",
   "status": "proved",
   "theorems": [
    "MM.Clipper.C41_nothing_above"
   ],
   "note": "Bound tol + (1e-5 + 1e-8)|n|_1: the two merges of vertices may move a corner. Quadrangles are assumed to have crossing diagonals, which plane convex ones have (ConvexQuad.diagonalsCross)."
  },
  {
   "property": "C42",
   "status": "partial",
   "theorems": [
    "MM.Clipper.C42_known_cases_partial",
    "MM.Clipper.C42_three_on_unknown",
    "MM.Clipper.C42_three_on_below_unknown",
    "MM.Clipper.C42_at_tolerance_unknown",
    "MM.Clipper.C42_no_crown_indexError"
   ],
   "note": "The claim is false of the code: witnesses with three corners on the plane, with corners at distance exactly the tolerance, and with no face in the crown. Proved: the exact set of patterns that are not handled."
  },
  {
   "property": "C43",
   "status": "proved",
   "theorems": [
    "MM.Clipper.C43_parts_below"
   ],
   "note": "The clipped mesh is within 1e-5 + 1e-8 per coordinate, corner by corner, of a mesh whose faces are, input face by input face, polygons covering exactly the points of the face with nonpositive distance, and oriented as the face."
  },
  {
   "property": "C44",
   "status": "partial",
   "theorems": [
    "MM.Clipper.C44_polygons_partial",
    "MM.Clipper.C44_branching_loses_an_edge"
   ],
   "note": "General position (no corner within the tolerance of the plane) and quadrangles with crossing diagonals. Each edge is used exactly once when no two intersection edges start at the same vertex; otherwise edges are lost (witness), because the edges are kept in a dict indexed by their start."
  },
  {
   "property": "C45",
   "status": "partial",
   "theorems": [
    "MM.Clipper.C45_watertight_partial",
    "MM.Clipper.C45_on_plane_partial",
    "MM.Clipper.octa_meets_C75",
    "MM.Clipper.C45_fails_on_touching_parts",
    "MM.Clipper.C45_in_slab_partial",
    "MM.Clipper.slabOcta_meets_C75",
    "MM.Clipper.C45_fails_in_slab"
   ],
   "note": "Proved when no two different edges cross the plane within 1e-5 of each other; without this, two tetrahedra touching along an edge make the clipper report an open curve (witness). C45_on_plane_partial: the same with vertices on the plane, for strictly convex faces. C45_in_slab_partial: the same with vertices anywhere within the tolerance, when no face with a side in the slab has corners on both sides of it (otherwise false: C45_fails_in_slab, a convex prism) and no quadrangle has three corners in the slab (C42)."
  },
  {
   "property": "C46",
   "status": "partial",
   "theorems": [
    "MM.Hydro.C46_waterplane_moments_partial",
    "MM.Hydro.C46_fails"
   ],
   "note": "Proved for the area, first moments and the second moments x2, y2, for any closed polygons. The sum for xy is wrong: 5/24 instead of 1/4 on the unit square (C46_fails)."
  },
  {
   "property": "C47",
   "status": "partial",
   "theorems": [
    "MM.Hydro.C47_stiffness",
    "MM.Hydro.C47_horizontal_translation_partial",
    "MM.Hydro.halfCube_meets_C47"
   ],
   "note": "Symmetry, heave term, flotation centre (and the other coefficients except roll-pitch coupling) proved for every hull; invariance by horizontal translation proved when each vertex is on the free surface or farther from it than the clipping tolerance. Coefficients below 1e-4 are zeroed by the code."
  },
  {
   "property": "C48",
   "status": "partial",
   "theorems": [
    "MM.Hydro.C48_displacement_partial",
    "MM.Hydro.C48_fails",
    "MM.Hydro.C48_no_convergence",
    "MM.Hydro.C48_silent",
    "MM.Hydro.C48_wall_sided"
   ],
   "note": "Termination, bounded steps and the displacement at the returned correction on convergence are proved. Violations: a hull out of the free surface raises IndexError (C48_fails); an unconverged correction is returned after 99 evaluations (C48_no_convergence, C48_silent)."
  },
  {
   "property": "C49",
   "status": "proved",
   "theorems": [
    "MM.Hydro.C49_full_equilibrium",
    "MM.halfCube_full"
   ],
   "note": "np.linalg.solve is an arbitrary function; the criterion is stated as balance of weight and buoyancy at the returned position."
  },
  {
   "property": "C50",
   "status": "partial",
   "theorems": [
    "MM.Old.C50_rigid_coupling",
    "MM.Old.C50_mass",
    "MM.Old.C50_reset_partial",
    "MM.Old.C50_reset_fails",
    "MM.Old.C50_reset_keeps_forces",
    "MM.Old.C50_force_added_twice",
    "MM.Old.C50_constructor_mass_fails",
    "MM.Old.C50_mass_refused"
   ],
   "note": "Violated: the constructor multiplies the mass by 1000 twice; the gravity_center setter aliases the backup so reset does not restore it; reset restores neither forces nor mass; a force added twice is moved twice. Proved: rigid coupling for calls that do not raise with distinct forces, mass setter round trip, reset after any history without the gravity_center setter."
  },
  {
   "property": "C51",
   "status": "partial",
   "theorems": [
    "MM.Io.C51_mar_partial",
    "MM.Io.C51_no_faces_fails",
    "MM.Io.C51_far_fails",
    "MM.Io.C51_fails"
   ],
   "note": "Character-level model of write_MAR and load_MAR. Round trip proved for every mesh with at least one face and coordinates between -9999999 and 99999999 (vertex numbers below 10^9). Disproved beyond: columns fuse (C51_far_fails, the abscissas are silently lost), and a file without faces cannot be loaded (C51_no_faces_fails)."
  },
  {
   "property": "C52",
   "status": "partial",
   "theorems": [
    "MM.Io.C52_nat_partial",
    "MM.Io.C52_nat_fails"
   ],
   "note": "Character-level model of write_NAT and load_NAT. Round trip (seven significant digits) proved for every mesh with at least 3 vertices and 4 to 99999 faces; disproved for every mesh outside these counts: max(np.shape()) writes wrong counts, and the counts fuse from 100000 faces on."
  },
  {
   "property": "C53",
   "status": "proved",
   "theorems": [
    "MM.Io.C53_nem"
   ],
   "note": "Character-level model of write_NEM and load_NEM; every mesh, no condition."
  },
  {
   "property": "C54",
   "status": "partial",
   "theorems": [
    "MM.Io.C54_gdf_partial",
    "MM.Io.C54_gdf_fails"
   ],
   "note": "Character-level model of write_GDF and load_GDF. Round trip proved for every mesh with at least 4 faces; for every mesh with less than 4 faces the loader never ends (max(np.shape(faces)) writes 4)."
  },
  {
   "property": "C55",
   "status": "partial",
   "theorems": [
    "MM.Io.C55_pnl_partial",
    "MM.Io.C55_single_fails",
    "MM.Io.C55_far_fails"
   ],
   "note": "Character-level model of write_PNL and load_PNL. Round trip proved for every mesh with at least two vertices and coordinates between -999999999 and 9999999999; with a single vertex np.genfromtxt gives an array of dimension one; columns fuse beyond the range."
  },
  {
   "property": "C56",
   "status": "partial",
   "theorems": [
    "MM.Io.C56_stl",
    "MM.Io.C56_fails"
   ],
   "note": "Violated by write_STL, which cuts the quadrangles of the caller's array in place: the array is unchanged exactly when there is no quadrangle. The other text writers of the model only produce a text from the arrays (they work on the copy faces + 1)."
  },
  {
   "property": "C57",
   "status": "partial",
   "theorems": [
    "MM.Io.C57_polydata",
    "MM.Io.C57_unstructured",
    "MM.Io.C57_unstructured_faces",
    "MM.Io.C57_few_vertices_fails"
   ],
   "note": "Proved for vtkPolyData (all meshes) and, from three vertices on, for vtkUnstructuredGrid; with less than three vertices the grid has points which are not in the mesh. What vtkPoints keeps of a point (single precision) is a parameter; the vtk library itself is not modelled."
  },
  {
   "property": "C58",
   "status": "partial",
   "theorems": [
    "MM.Io.C58_dat",
    "MM.Io.C58_sequential_partial",
    "MM.Io.C58_drop_fails",
    "MM.Io.C58_mar_fails",
    "MM.Io.C58_inp_single_partial",
    "MM.Io.C58_inp_increment_fails"
   ],
   "note": "Proved for DAT for all distinct identifiers. HST, RAD, MSH and MAR loaders do not read the identifiers: right only for nodes numbered 1, 2, 3, \u2026 (witnesses of the violation). INP: proved for one part; violated when parts are appended, all the numbers of the appended elements being out of range. For the cutting of the text see C87, C89, C100, C101 and C107."
  },
  {
   "property": "C59",
   "status": "partial",
   "theorems": [
    "MM.C59_dispatch",
    "MM.C59_documented",
    "MM.C59_file_extension",
    "MM.C59_case_fails",
    "MM.C59_refused",
    "MM.C59_read_only"
   ],
   "note": "load_mesh and write_mesh run exactly the loader and writer of the table, unknown formats and missing files raise IOError, not implemented writers raise NotImplementedError. The documented case insensitivity is false of load_mesh and write_mesh (C59_case_fails)."
  },
  {
   "property": "C60",
   "status": "proved",
   "theorems": [
    "MM.C60_listed",
    "MM.C60_unknown",
    "MM.C60_positive"
   ],
   "note": "For every string: listed names in any case give the tabulated density, others raise."
  },
  {
   "property": "C61",
   "status": "proved",
   "theorems": [
    "MM.Cli.C61_moves",
    "MM.Cli.C61_order",
    "MM.Cli.C61_main"
   ],
   "note": "For all lists of options in any order; a run of the whole program, witness cube_run."
  },
  {
   "property": "C62",
   "status": "partial",
   "theorems": [
    "MM.Cli.C62_planes_partial",
    "MM.Cli.C62_define",
    "MM.Cli.C62_scalars",
    "MM.Cli.C62_mirror",
    "MM.Cli.C62_clip",
    "MM.Cli.C62_scalars_fails"
   ],
   "note": "Four scalars designate the documented plane N.X = c exactly when N is unit or c = 0: the normal is normalised, the scalar is not (C62_scalars_fails)."
  },
  {
   "property": "C63",
   "status": "partial",
   "theorems": [
    "MM.Cli.C63_modes_partial",
    "MM.Cli.C63_rejected",
    "MM.Cli.C63_zcog_fails"
   ],
   "note": "All four combinations; the documented default zcog = 0 is not applied, the run is rejected instead (C63_zcog_fails)."
  },
  {
   "property": "C64",
   "status": "partial",
   "theorems": [
    "MM.C64_plane_frame_partial",
    "MM.C64_setter_fails"
   ],
   "note": "Assigning plane.normal does not update the stored rotation."
  },
  {
   "property": "C65",
   "status": "proved",
   "theorems": [
    "MM.C65_remove_degenerated_faces"
   ],
   "note": "Areas are those of faces_areas; NaN thresholds (no faces) not modelled."
  },
  {
   "property": "C66",
   "status": "proved",
   "theorems": [
    "MM.C66_heal_mesh"
   ],
   "note": "The cached geometric values are assumed up to date (C17)."
  },
  {
   "property": "C67",
   "status": "partial",
   "theorems": [
    "MM.C67_set_plane_parameters_partial",
    "MM.C67_fails"
   ],
   "note": "Holds for horizontal planes (normal upwards), the initial planes of the equilibrium solvers; false for inclined planes (witness)."
  },
  {
   "property": "C68",
   "status": "proved",
   "theorems": [
    "MM.Old.C68_equilibrate_terminates",
    "MM.Old.C68_one_iteration_fails"
   ],
   "note": "While loop unrolled with fuel; the fuel bound given is enough for every hull, every solver and every random sequence. The setter also accepts max_iterations = 1, for which the loop never gives up (C68_one_iteration_fails)."
  },
  {
   "property": "C69",
   "status": "proved",
   "theorems": [
    "MM.C69_translate"
   ],
   "note": "For every argsort that looks at values only through their comparisons (SortCompat); exact arithmetic."
  },
  {
   "property": "C70",
   "status": "partial",
   "theorems": [
    "MM.C70_submerged_size_partial",
    "MM.C70_fails"
   ],
   "note": "Violated for flared hulls: the clipped mesh keeps unused vertices above the waterplane, so the extents reported are those of the faces crossing the waterplane before the cut. Proved: the values reported are upper bounds."
  },
  {
   "property": "C71",
   "status": "partial",
   "theorems": [
    "MM.Cli.C71_lpp_partial",
    "MM.Cli.C71_lpp_fails",
    "MM.Hydro.C71_library"
   ],
   "note": "False of the program: the two options are never passed on (C71_lpp_fails). Proved for compute_hydrostatics itself (C71_library; with orig_at_ap, for at_cog, see C86)."
  },
  {
   "property": "C72",
   "status": "proved",
   "theorems": [
    "MM.Cli.C72_inertia"
   ],
   "note": "Invariant through all the stages of the program; witness cube_run."
  },
  {
   "property": "C73",
   "status": "partial",
   "theorems": [
    "MM.Io.C73_msh",
    "MM.Io.C58_dat",
    "MM.Io.C73_pnl_triangle_fails"
   ],
   "note": "Proved for the DAT and MSH loaders; violated by load_PNL: every triangular panel is loaded with its third vertex repeated, which Mesh does not take for a triangle."
  },
  {
   "property": "C74",
   "status": "proved",
   "theorems": [
    "MM.Io.C74_stl"
   ],
   "note": "The set of triangles; the text of the facets is not modelled."
  },
  {
   "property": "C75",
   "status": "partial",
   "theorems": [
    "MM.Clipper.C75_section_closes_partial",
    "MM.Clipper.C75_polygons_are_the_section_partial",
    "MM.Clipper.C75_wetted_body_closed_partial",
    "MM.Clipper.cube_meets_C75",
    "MM.Clipper.C75_polygons_on_plane_partial",
    "MM.Clipper.C75_wetted_body_on_plane_partial",
    "MM.Clipper.octa_meets_C75",
    "MM.Clipper.C75_fails_on_close_vertices",
    "MM.Clipper.C75_polygons_in_slab_partial",
    "MM.Clipper.C75_wetted_body_in_slab_partial",
    "MM.Clipper.slabOcta_meets_C75",
    "MM.Clipper.C45_fails_in_slab"
   ],
   "note": "Proved for every watertight mesh in general position (no vertex within the tolerance of the plane, quadrangles not alternating sides, distinct vertices and cut points more than 1e-5 apart), and with vertices on the plane for strictly convex faces (the *_on_plane_partial theorems: the polygons are the boundary, in the plane, of the part below it). Without the separation hypothesis it is false: vertices 5e-6 apart are merged in the cut faces and not in the others, and the clipped mesh has a gap (C75_fails_on_close_vertices). The *_in_slab_partial theorems: vertices anywhere within the tolerance but not at it, when no face with a side in the slab has corners on both sides of it (otherwise the boundary is open: C45_fails_in_slab)."
  },
  {
   "property": "C76",
   "status": "partial",
   "theorems": [
    "MM.Cli.C76_output",
    "MM.Cli.C76_input_overwritten",
    "MM.Cli.cube_writes"
   ],
   "note": "Everything but the last clause is proved (C76_output). The last clause is false: with an output format equal to the extension of the input file and no output file, the input file is overwritten (C76_input_overwritten)."
  },
  {
   "property": "C77",
   "status": "proved",
   "theorems": [
    "MM.Cli.C77_repeated",
    "MM.Cli.C77_last",
    "MM.Cli.C77_all_planes_clip",
    "MM.Cli.cube_two_planes"
   ],
   "note": "All the values are kept in order (C77_repeated), the mesh is clipped by all the planes (C77_all_planes_clip), the last value is kept for the other options (C77_last)."
  },
  {
   "property": "C78",
   "status": "partial",
   "theorems": [
    "MM.Clipper.C78_no_degenerate_face_partial",
    "MM.Clipper.cube_meets_C78",
    "MM.Clipper.pyramid_meets_C78",
    "MM.Clipper.C78_fails_on_flat_corner"
   ],
   "note": "Proved when no vertex is at exactly the tolerance from the plane (vertices on the plane or inside the tolerance band are allowed) and points are well separated. False when a quadrangle has a flat corner (three collinear corners): the clipper then writes a triangle of zero area, whose normal is 0/0; witness given."
  },
  {
   "property": "C79",
   "status": "partial",
   "theorems": [
    "MM.Hydro.C79_archimedes_partial",
    "MM.Hydro.halfCube_meets_C79",
    "MM.Hydro.octa_meets_C79"
   ],
   "note": "Proved when every vertex is on the free surface or farther from it than the tolerance 1e-3, points involved in the cut well separated, faces plane and strictly convex. Inside the tolerance band the clipper moves the cut, so that the equality only holds approximately there. With corners in the band, the displaced volume is bounded in C123."
  },
  {
   "property": "C80",
   "status": "partial",
   "theorems": [
    "MM.Hydro.C80_stiffness_partial",
    "MM.Hydro.C80_coupling_fails",
    "MM.Hydro.halfCube_meets_C80",
    "MM.Hydro.octa_meets_C80"
   ],
   "note": "Proved for every coefficient but the roll-pitch coupling; corners of the hull may be on the free surface, no face lies in it (corners off it are out of the tolerance band, points involved in the cut well separated, simple waterline). The roll-pitch coefficient returned is not the derivative (its line sum is wrong, C46): witness on the half immersed cube, -1875 instead of -2250."
  },
  {
   "property": "C81",
   "status": "partial",
   "theorems": [
    "MM.Old.C81_codes_partial",
    "MM.Old.C81_pressure_partial",
    "MM.Old.C81_fails",
    "MM.Old.halfCube_meets_C81",
    "MM.Old.C81_unstable",
    "MM.Old.halfCube_meets_C81_unstable"
   ],
   "note": "Proved: the codes, the gravity centre on the axis, the balance of loads within tolerance (also as weight plus integral of pressure on the hull), the sign of the reported metacentric heights, and what follows an unstable position (give up, or random restart). Violated: code 1 on an unstable position when the body is not centred on the origin, since the metacentric radii are taken about the axes through the origin; witness."
  },
  {
   "property": "C82",
   "status": "partial",
   "theorems": [
    "MM.Old.C82_up_to_date_partial",
    "MM.Old.C82_brought_up_to_date",
    "MM.Old.C82_fails"
   ],
   "note": "Proved for all histories of setters, add_force, set_displacement and reset, and that reset and set_displacement bring the data up to date after any history. Violated by equilibrate: its final horizontal translation does not redo the clipping, so the data and those given by the next setter are those of the mesh before the translation; witness."
  },
  {
   "property": "C83",
   "status": "partial",
   "theorems": [
    "MM.Cli.C83_edits",
    "MM.Cli.cube_meets_C83",
    "MM.Cli.C83_best_split_fails"
   ],
   "note": "Proved for all meshes and combinations of the options with the key words of coordinate planes (planes given by index or four scalars: C62, clipping: C77, healing: C66, hydrostatics: C63). Violated: the help says the split with the best aspect ratios is kept, the code always splits along the first diagonal; witness."
  },
  {
   "property": "C84",
   "status": "partial",
   "theorems": [
    "MM.Io.C84_layouts",
    "MM.Io.layout_meets_C84",
    "MM.Io.C84_truncated_fails",
    "MM.Io.C84_shared_line_refused"
   ],
   "note": "Proved for all layouts in which each panel begins on a new line. Violated: on a truncated file the loader never ends (for every text and cut point); a line shared by two panels raises ValueError."
  },
  {
   "property": "C85",
   "status": "partial",
   "theorems": [
    "MM.Hydro.C85_immersed_body_partial",
    "MM.Hydro.C85_part_of_hull_partial",
    "MM.Hydro.C85_fails",
    "MM.Hydro.octa_meets_C79"
   ],
   "note": "Volume and buoyancy centre proved for hulls whose vertices are on the free surface or farther from it than the tolerance, in terms of the wetted faces and in terms of the hull restricted to the points under the free surface. Violated for the inertia: the parallel-axis term from the origin to the gravity centre is added instead of removed, so that the tensor is right only when the gravity centre is at the origin (witness: half cube). With corners in the band: C123 (volume) and C124 (centre)."
  },
  {
   "property": "C86",
   "status": "partial",
   "theorems": [
    "MM.Hydro.C86_waterline_extents_partial",
    "MM.Hydro.C86_fails"
   ],
   "note": "Extents proved for every hull, forward perpendicular proved with at_cog. Violated without at_cog (the default): the abscissa of the buoyancy centre is added to the largest abscissa (witness: half cube, 3/2 instead of 1)."
  },
  {
   "property": "C87",
   "status": "partial",
   "theorems": [
    "MM.Io.C87_hst_partial",
    "MM.Io.C87_no_faces_fails",
    "MM.Io.C87_second_section_fails"
   ],
   "note": "Character level, with a backtracking model of the regular expressions. Proved for every mesh with at least one face, coordinates in the range of doubles and indices below 10^9. False without faces: every such file raises TypeError; a second node section raises AttributeError."
  },
  {
   "property": "C88",
   "status": "partial",
   "theorems": [
    "MM.Io.C88_tec_partial",
    "MM.Io.C88_no_vertices_fails"
   ],
   "note": "Character level. Proved for every mesh with at least one vertex, coordinates in the range of doubles, indices below 10^9 and every name without ZONE. False without vertices: AttributeError."
  },
  {
   "property": "C89",
   "status": "partial",
   "theorems": [
    "MM.Io.C89_dat_partial",
    "MM.Io.C89_no_vertices_fails",
    "MM.Io.C89_order",
    "MM.Io.C89_fused",
    "MM.Io.C89_second_section_lost",
    "MM.Io.C89_bad_name",
    "MM.Io.C89_two_node_sections"
   ],
   "note": "Character level. Proved for every mesh with at least one vertex, less than 10^7 vertices, indices in range, coordinates zero or between 1e-99 and 1e99, and names free of the words of the format; the triangles come first. False otherwise: order of the panels, fused columns, lost sections, panels read twice because of the name."
  },
  {
   "property": "C90",
   "status": "partial",
   "theorems": [
    "MM.Hydro.C90_corrections_partial",
    "MM.Hydro.C90_fails"
   ],
   "note": "Proved up to a rotation about the vertical axis (every vertex has the reported height), and exactly when the rotation is a heel followed by a trim. False as soon as the solver turns the hull twice: the third angle is left out of the report (C90_fails, for all small heels and trims)."
  },
  {
   "property": "C91",
   "status": "partial",
   "theorems": [
    "MM.Report.C91_report_partial",
    "MM.Report.C91_warnings",
    "MM.Report.C91_fails"
   ],
   "note": "Character-level model of the report, read back line by line. Proved when the first two coordinates of the three centres are below 9999 in absolute value; beyond, the columns of these lines may touch (C91_fails)."
  },
  {
   "property": "C92",
   "status": "partial",
   "theorems": [
    "MM.C92_part_below_partial",
    "MM.C92_two_parts_partial",
    "MM.C92_volume_partial",
    "MM.cube_meets_C92",
    "MM.octa_meets_C92"
   ],
   "note": "Each vertex on the plane or farther from it than the tolerance, new points well separated, strictly convex faces. Exact arithmetic. With corners in the band: bounds in C123 and C124."
  },
  {
   "property": "C93",
   "status": "partial",
   "theorems": [
    "MM.C93_surface_below_partial",
    "MM.C93_normals_below_partial",
    "MM.C93_two_parts_partial",
    "MM.Hydro.C93_wetted_area_partial",
    "MM.cube_meets_C92",
    "MM.octa_meets_C92"
   ],
   "note": "Positions as C92; the mesh need not be watertight. Faces lying in the plane belong to neither part (their area is the third term of C93_two_parts_partial, zero when there is no such face). Exact arithmetic. With corners in the band: bounds in C125."
  },
  {
   "property": "C94",
   "status": "partial",
   "theorems": [
    "MM.Hydro.C94_waterplane_closes_partial",
    "MM.Hydro.halfCube_wetted_area",
    "MM.Hydro.octa_wetted_area"
   ],
   "note": "Watertight hull with strictly convex faces, corners on the free surface or out of the tolerance band, simple waterline."
  },
  {
   "property": "C95",
   "status": "partial",
   "theorems": [
    "MM.Clipper.C95_fresh_partial",
    "MM.Clipper.C95_setPlane",
    "MM.Clipper.C95_setTol",
    "MM.Clipper.C95_create",
    "MM.Clipper.goodHistory_allowed",
    "MM.Clipper.C95_stale_fails",
    "MM.Clipper.C95_default_plane_fails",
    "MM.Clipper.C95_flag_fails"
   ],
   "note": "Proved for all histories that do not modify in place a plane or a mesh used by a clipper. Violated otherwise: plane modified in place (stale data), default plane object shared by all clippers, flag switched on without a new run."
  },
  {
   "property": "C96",
   "status": "partial",
   "theorems": [
    "MM.Hydro.C96_returns_partial",
    "MM.Hydro.octa_meets_C96",
    "MM.Hydro.C96_returns_in_slab_partial",
    "MM.Hydro.slabOcta_meets_C96",
    "MM.Hydro.C96_fails_in_slab"
   ],
   "note": "Equivalence proved for watertight hulls with strictly convex faces whose corners are on the free surface or out of the tolerance band of the clipper, intersections separated, simple waterline (C96_returns_partial), and with corners within the tolerance when no face with a side in the slab has corners on both sides of it (C96_returns_in_slab_partial). Without this hypothesis it is false: C96_fails_in_slab, a convex prism through the free surface for which an exception is raised. Missing: corners at exactly the tolerance, real floating point."
  },
  {
   "property": "C97",
   "status": "proved",
   "theorems": [
    "MM.Io.C97_vtk"
   ],
   "note": "The reader is a small specification (Spec/Exchange.lean) written from the format; the date is a parameter without end of line and of at most 200 characters (title limit of the format)."
  },
  {
   "property": "C98",
   "status": "proved",
   "theorems": [
    "MM.Io.C98_obj"
   ],
   "note": "The reader is a small specification (Spec/Exchange.lean)."
  },
  {
   "property": "C99",
   "status": "proved",
   "theorems": [
    "MM.Io.C99_stl",
    "MM.Io.stlSample_meets_C99"
   ],
   "note": "The norm of numpy is a parameter; NaN and infinite normals of flat triangles are printed as nan/inf words."
  }
 ]
}