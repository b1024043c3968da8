# Formal model of meshmagick in Lean 4

Source modelled: `/repo/meshmagick` at the pinned commit (read as text, never run).
The Lake project is `lean/`; every module is under `lean/Verif/`.

## 1. Method

* Each Python function is mirrored by a total Lean function, branch by branch, and
  carries a comment citing file and lines. Exceptions are values (`Except`/`Option`),
  mutation returns a new value, loops are folds or structural/fuelled recursion.
* Layout: `Verif/Model/*` (the code), `Verif/Spec/*` (independent specifications, in
  mathematics only), `Verif/Proofs/*` (helper lemmas), `Verif/Props/*` (property theorems,
  each with an `example` showing that its hypotheses are satisfiable by a non-trivial case).
* Numbers. Python floats are idealised as elements of an ordered field `K` (when only
  field operations and comparisons are used; examples are run at `K = ℚ`) or as `ℝ` (when
  `sqrt`, `sin`, `atan2`... are used). **Rounding, NaN and infinities are not modelled** (except
  for the rounding in the models named `…Fl`: C117 and after);
  where Python would produce a NaN by dividing by zero the theorem states the guard.
* Integers (`dtype=int`) are `ℕ` for vertex indices; negative (wrapping) indices are
  excluded by the well-formedness hypothesis `Mesh.WF` (every index `< nb_vertices`).
* `argsort`, set iteration order, `dict.popitem`, `numpy.linalg.solve` and VTK are
  parameters or explicit small models; theorems quantify over all behaviours allowed
  by their documentation.
* If the code as written violates a property: the negation is proved on a concrete
  witness (theorem name contains `_fails`/`_violated`), the part that does hold is proved
  under the name `…_partial`, and the disagreement is listed in section 4.

## 2. Trusted base

* Lean 4.33.0 kernel; axioms `propext`, `Classical.choice`, `Quot.sound` only
  (no axiom of ours, no `sorry`, no `native_decide`/`bv_decide`).
* The faithfulness of the transcription of the Python code (comments cite lines).
* The idealisations listed in section 1 and those listed per definition.

## 3. Plan per property

| Id | Modelled | Proof |
|----|----------|-------|
| C01–C04 | `tools.merge_duplicate_rows` over `K`, groups of row numbers split dimension by dimension with an arbitrary sorting function | invariant on groups by induction over dimensions; C04 refuted with a witness, partial theorem for separated clusters |
| C05 | `Mesh.merge_duplicates` | composition with C01/C03 |
| C06–C08 | `extract_faces`, `remove_unused_vertices` on lists | list induction, filter/index lemmas |
| C09 | `heal_triangles` (three conditional rolls) | case analysis on the four indices |
| C10 | `triangulate_quadrangles` | list induction; conservation through per-face identities |
| C11 | `Mesh.__add__` | C05 after index shift |
| C12–C14 | `flip_normals`, `mirror`, `symmetrize` | algebra in `K` |
| C15, C16 | bbox, `_edges_stats` | list min/max induction; C16 refuted for triangles, partial for quadrangle meshes |
| C17 | caches `__internals__` as a state machine over all mutators and queries | invariant by induction over histories for the coherent operations; refuted for the others |
| C18 | `translate*`, `rotate*`, `scale*` | algebra |
| C19–C23 | `_connectivity`, `boundaries`, `is_mesh_closed`, `is_mesh_conformal` | finite-map/graph reasoning |
| C24 | `heal_normals` flood fill with arbitrary neighbour order | invariant on visited faces |
| C25–C28 | `_compute_triangles_integrals`, `volume`, plain and shell inertia | real integrals over the reference triangle, polynomial identities, cancellation of directed edges |
| C29–C33 | `Plane` | field/real algebra, trigonometry |
| C34–C37 | `rotations.py`, `_rodrigues`, `_cardan` | trigonometric identities, `Complex.arg` for atan2 |
| C38 | `RigidBodyInertia` | matrices; refuted, partial |
| C39 | shape constructors | integrals / algebra |
| C40–C45 | `mesh_clipper.py` | case analysis per face type, dictionary chain extraction, watertight theorem |
| C46–C49 | `hydrostatics.py` | Green formulas per edge, loop invariants with an arbitrary hull response |
| C50 | `hydrostatics_old.py` | small heap model for aliasing, induction over histories |
| C51–C55 | MAR, NAT, NEM, GDF, PNL writers and loaders, character by character (`Model/Text`, `Model/Mmio`) | formatting then parsing lemmas for `%d`, `%f`, `%E`, `split`, lines; induction over rows; the GDF loader has fuel and is proved to end or to loop |
| C56, C74 | `write_STL`: effect on the caller's array, triangles written | list induction |
| C57 | in-memory VTK conversions; what `vtkPoints` stores is a parameter | case analysis |
| C58, C73 | node renumbering of the DAT, MSH, RAD, HST and INP loaders, after the cutting of the text into lines | dictionary and array lookup, state machine for INP layouts |
| C59, C60 | dispatch tables | table lookup for every string |
| C61–C63, C71, C72 | `cli.main` as a function of the parsed options and of an environment (files, solvers) | pipeline of stages, invariants over stages, decision table |
| C64, C67 | `Plane` setters and `set_plane_parameters` | real algebra; refuted for assigned normals and inclined planes |
| C65, C66 | `remove_degenerated_faces`, `heal_mesh` | list induction, composition |
| C68 | `hydrostatics_old.equilibrate` loop with fuel | adequacy of a fuel bound for every response of the hull |
| C75 | `MeshClipper`: kept faces, cut faces, crown and boundary polygons together | the boundary of every plan of the table (kernel computation over the finite table of types), sums of antisymmetric functions over edges, merge lemmas; vertices on the plane in `Proofs/ClipSection.lean`, `Props/ClipSection.lean`, `Props/ClipOnPlane.lean`; vertices within the tolerance in `Spec/ClipBand.lean`, `Proofs/ClipBand.lean`, `Props/ClipBand.lean` |
| C76, C77 | the end of `cli.main`, `argparse` actions `store` and `append` | stages of a run, induction over the options |
| C78 | `MeshClipper`: shape of the faces made by each case of the table | orientation of the pieces of every plan (kernel computation over the table of types), area vectors as combinations of those of the face |
| C79 | `compute_hydrostatics` from the hull to the displaced mass and the buoyancy centre | integrals over triangles (Fubini, subdivision), additive quantities over the pieces of each face, divergence theorem on the clipped mesh closed by the free surface |
| C80 | stiffness matrix of `compute_hydrostatics` against the derivative of the balance of gravity and pressure (`Spec/Stiffness.lean`) | derivative under the integral of `min(z, 0)` times an affine function over triangles, then additive quantities and the divergence theorem as for C79 |
| C81 | `equilibrate` of the old hydrostatics with the loads of `Spec/Loads.lean` | the last iteration of the loop is inverted: code, tolerance test and residual; the residual is the sum of loads and moments; with C79 the buoyancy force is the integral of pressure |
| C102 | `is_at_equilibrium`, `isstable`, `delta_*` and the setters of the solver of the old hydrostatics | the residual after the final translation is the residual before it plus a transport term |
| C82 | the state of the old hydrostatics object, `UpToDate` compares its data with a fresh computation | induction over histories of calls; witness for `equilibrate` |
| C83 | `main` with the options which edit the mesh; spec on lists of faces with corner points (`Doubled`, `Concatenated`, `MergedWithin`, `Mirrored`) | each stage keeps well-formedness and non-emptiness and has the geometry given by C05, C11, C13, C14, C61; induction over the planes of `--symmetrize` |
| C84 | `load_GDF` on texts given by their lines (`IsGdfHeader`, `IsPanel`) | induction over lines of a panel and over panels; monotonicity in the number of lines allowed for non-termination |
| C85 | `compute` of the hydrostatics model against `solidIntegral` (integrals over the tetrahedra joining a point of the free surface to the wetted faces) | divergence theorem on each tetrahedron, the lid contributes nothing (C79), convexity kept by clipping |
| C86 | `compute` against least and greatest coordinates of the waterline polygons | folds of `min`/`max` over nested lists; witness without `at_cog` |
| C87 | `write_HST`, `load_HST` on characters, with `Model/Regex.lean`: all matches of a pattern in the order of backtracking | first match of each pattern on written texts, by induction on the lines; error theorems for no face and for two sections |
| C88 | `write_TEC`, `load_TEC` on characters | same; tokens of the two blocks, `reshape`; error theorem for no vertex |
| C89 | `write_DAT`, `load_DAT` on characters | same; a section is searched by its first word, which occurs nowhere before; witnesses for order, fusion, sections, names |
| C90 | angles printed by the report, against the position of `compute_hydrostatics` | Cardan angles back to the matrix (C35), matrix as product of three rotations; witness of two solver steps |
| C91 | `get_hydrostatic_report` on characters | generic lemma on lines `label---->  numbers`, table of the lines; witness of fused columns |
| C92 | `clip` by a plane and by the reversed plane against `solidIntegral` of the input restricted by `Plane.below` (Spec/Halves) | integral over a tetrahedron by homothetic sections (Proofs/ConeInt), additivity under the cut of each face (`clip_additive`) |
| C93 | `clip` against `shellIntegral`, `normalIntegral` and `totalArea` of the input restricted by `Plane.below` | per face, the polygons of the table keep the orientation of the face, so the area is the projection of the area vector on the normal |
| C94 | `compute`: waterplane area (polygons) against wetted faces | flux of a constant field through the wetted surface and the waterplane |
| C95 | objects `MeshClipper` as a state machine over a heap of planes and meshes (Model/ClipperObject) | invariant `Fresh` over all histories; witnesses of stale data |
| C96 | `compute_hydrostatics` as in C27–C30 (Model/Hydrostatics) | clipper totality (C45) and polygons = boundary of the part below (C75), corners on the free surface allowed; within the tolerance in `Props/ReturnsBand.lean`; `_partial` |
| C97 | `write_VTK`: the text (Model/MmioExport) | reader of the legacy VTK format as specification; words of the text, list induction |
| C98 | `write_OBJ`: the text (Model/MmioExport) | reader of the format as specification; line by line |
| C99 | `write_STL`: the text (Model/MmioExport), the norm being a parameter | reader of the format as specification; the fields never merge (length of `%15.6e`), with C74 |
| C100 | `load_MSH`, `load_MSH22` from the characters, with their regular expressions (Model/MmioMsh); `gmshparser` is a parameter | backtracking matcher with lazy repetition; occurrences of key words; `_partial` |
| C101 | `load_RAD` from the characters, with its regular expressions (Model/MmioRad) | pieces matched one after the other; counting ends of lines for the files that are refused; `_partial` |
| C103 | `_dump_vtk` on what a vtk reader returns (Model/MmioLib) | row by row; `_partial` |
| C104 | `load_STL` on what the vtk reader returns, with `merge_duplicate_rows` of C03 | from C03 and C04; `_partial` |
| C105 | `load_MED` on the entries of the HDF5 file | invariant of the loop over the entries; columns to rows; `_partial` |
| C106 | `load_MSH41` on what gmshparser returns | the node of tag `k + 1` is the `k`-th; `_partial` |
| C107 | `load_INP` from the characters of the INP file and of its mesh file, with its regular expressions (Model/MmioInp) | lines matched or skipped one after the other, options cut at commas, state machine of C58; `_partial` |
| C108 | the arrays in a heap, meshes as addresses, which methods write in place and which replace (Model/Alias), programs with several meshes | every method keeps the arrays of different owners apart (invariant), hence a program on the heap and the same program on values (Spec/Alias) agree action by action; `C108_values`, `C108_isolated`, `C108_arrays` |
| C109 | same | an array changes only by the operations of a list (`inPlace`) on its mesh; the operations of the list do change it: `C109_snapshot_partial`, `C109_*_fails` |
| C110 | `hydrostatics_old.get_hydrostatic_report` | the text of the report as a list of items, read back line by line with the reader of C91: `C110_report_partial`; two numbers in scientific notation which touch are not a number: `C110_residual_unreadable` |
| C111 | `hydrostatics_old.residual`, `get_gravity_force`, `get_buoyancy_force` | resultant and moment of a list of forces: `C111_balance`, `C111_null_residual` |
| C112 | `Mesh.__str__` (text of `--info`), `axis_aligned_bbox`, `nb_triangles` | text as a list of characters; a reader by labels (Spec/MeshStr) finds each quantity once: `C112_mesh_text`; forged line: `C112_fails_for_names_with_lines` |
| C113 | `Mesh._ids`, `__init__` (name), `copy`, name setter, `__add__`, `extract_faces` (names) | a session as a list of operations, induction on it: `C113_numbers`, `C113_fresh_name`, `C113_automatic_names`; copies and numeric names: `C113_fails_for_copies`, `C113_fails_for_numbers` |
| C114 | `_get_axis_angle_from_rotation_matrix` | exact arithmetic; specification `turned` (vector formula of a rotation); recovered for every axis and angle in (0, π): `C114_recovers`; every rotation matrix: `C114_axis_angle` (through the quaternions of C36) |
| C115 | `load_WRL` (header, version, shapes) | regular expression of the header at the level of characters; the shapes found by vtk are an argument: `C115_wrl_partial`, `C115_version`, `C115_no_header`; shapes lost: `C115_shapes_lost` |
| C116 | `compute_hydrostatics(at_cog=True)` | from the line integrals of C47: `C116_at_cog_partial` (gravity and buoyancy centres on the same vertical), `C116_horizontal_position_ignored`, `C116_fails` |
| C117 | `merge_duplicate_rows` with a rounded subtraction (`Model/MergeFl`) | the rounded test agrees on the finitely many differences with an exact test for another tolerance: `C117_as_exact`, then C01–C03: `C117_rounded_merge`; `roundBits_isRounding` (binary rounding, ties to even), `C117_tolerance_exceeded` |
| C118 | distances of vertices and partition of a mesh with roundings (`Model/PlaneFl`, `Spec/Rounding`) | forward error bounds composed rounding by rounding (`rnd_err`, `add_err`); the masks agree, so the three parts do: `C118_classification`, `C118_partition` |
| C119 | `get_edge_intersection` with roundings | monotonicity gives `0 ≤ t ≤ 1`; the residual is split into the errors of the scalar products, of the parameter and of the coordinates: `C119_intersection` |
| C120 | `merge_duplicate_rows` on perturbed rows | induction on the dimensions with the runs of the two arrays in correspondence (`NearCols`): the sorted orders may differ inside a run only; `C120_stable`, witness `rows_meet_C120`; `C120_gap_needed` shows the gap is needed |
| C121 | a whole run of `MeshClipper` with roundings (`clipFl`) | simulation, stage by stage: the table of cases does not see the sign of corners in the slab (`table_co`), cuts are close (`cut_near`), merges are stable (`mergeDuplicates_sim`); `C121_same_connectivity`, witness `flOcta_meets_C121` |
| C122 | the result of `clipFl` | composition of C45 and C121; the volume is a sum of products of three coordinates: `C122_watertight`, `C122_volume`, witness `flOcta_meets_C122` |
| C123 | `compute` on a hull with corners in the slab of the tolerance | clipped and hull agree below the slab (`clip_lowered`: one more cut of the same kind at −tol); divergence theorem with the field `z e_z`, which is at most the tolerance in the slab; the edges of the clipped mesh are those of the section: `C123_displaced_volume_in_slab_partial`, witness `slabOcta_meets_C123` |
| C124 | same | same, with the fields `x z e_z`, `y z e_z`, `z² / 2 e_z`, of divergence `x`, `y`, `z`; a convexity argument bounds the coordinates of the cut points: `C124_buoyancy_centre_in_slab_partial`, witness `slabOcta_meets_C124` |
| C125 | same | the table for the reversed plane gives the other part of each face, the two parts share the face (`both_sums`), and each of them contains what is beyond the slab (`planned_lowered`): `C125_surface_in_slab_partial`, `C125_wetted_area_in_slab_partial`, witness `slabOcta_wetted_area` |
| C126 | `RigidBodyInertia.__str__`; what `--plain-inertia` and `--shell-inertia` print | text as a list of characters; a reader takes each line and separates the words which are numbers from the others (Spec/InertiaStr): `C126_inertia_text` for all values in the range of floats (a cell of 15 characters always ends with a blank), `C126_plain_inertia_text`, `C126_shell_inertia_text` for all values; witness `sample` |
| C127 | `cli.py` input section (`--input-format`, `--concatenate-file`), `os.path.splitext` | the format is stated from the list of options and the shape of the file name (`FormatFor`, `NoFormat` in Props/CliInput): `C127_input_format`, `C127_no_format`, `C127_concatenated_format`; case: `C127_typed_case` |
| C128 | `volume`, `eval_plain_mesh_inertias` of a mesh of triangles with every operation rounded (`Model/VolumeFl`) | forward error analysis: `Err u n A x y` (at most `n` roundings on terms of size `A`) is kept by sums in any order, products, roundings; the norm of the vector product cancels between the normal and the integral: `C128_volume`, `C128_volume_bound`, `C128_inertia`, `C128_centre`; `C128_exact` says that the exact values are those of the unrounded model; witnesses `flTetra_meets_C128`, `flTetra_meets_C128_centre` |
| C129 | `volume` of a mesh with quadrangles in floating point (`Model/VolumeQuadFl`), after `clipFl` or not | each coordinate of a face's flux within 357 ε R³ (vector products, norms, quotient, product), then the sums of C128; with `clipFl_sim` and `clip_convex_tol` for the clipped mesh |
| C130 | histories of operations of `Model/MeshObject` (real coordinates), `Mesh.add` | a mesh is watertight iff the sum over the directed edges of the faces of every antisymmetric function vanishes (`closedOriented_iff`); each operation keeps, negates or relabels these sums, face by face; counterexample for `remove_degenerated_faces` |
| C131 | `symmetrize` (raw symmetrisation, then merge) of a mesh whose unbalanced edges have both ends on the plane | the images of the unbalanced edges are the same edges the other way round once the duplicates are merged |
| C132 | `write_STL`/`write_VTK`/`write_OBJ` followed by `load_STL`/`_dump_vtk` with the library reading the text of the file | the file contents of C97 to C99 composed with C103 and C104; equal corners of the file are merged, so vertices of the mesh correspond to vertices of the mesh read; edge sums of C130 |
| C133 | `translate`, `translate_x/y/z`, `rotate` (with `cardan_to_rotmat`) in floating point (`Model/MovesFl`), in any sequence | the matrix within 12 δ of a rotation, one motion within 39 δ of the exact one relative to the distance to the origin; exact motions keep Euclidean distances, so the errors only add up (induction on the sequence); then C129 |
| C134 | `write_MAR`/`load_MAR`, `write_NEM`/`load_NEM`, `write_VTK`, `write_OBJ` with `_dump_vtk`, in any sequence (`Spec/Conversion`) | a number with six decimals, read with an error below half a unit of the sixth decimal, is written again as the same number; induction on the sequence |
| C135 | `_faces_properties` (areas), `faces_areas.sum()` in floating point (`Model/AreaFl`), after the clipper in floating point | bounds of C129 on vector products, norms within ε, induction over the faces and over the tree of additions; then C121 for the clipped mesh |
| C136 | `eval_plain_mesh_inertias` in floating point on triangles and quadrangles (`Model/InertiaQuadFl`), alone and after the clipper in floating point | error rules for rounded sums and products give the polynomials of degree 2 and 3; normal and integral as in C129; sums in any order; exact side by C27 (integrals over the body) |
| C137 | the line sums over the waterplane in `compute_hydrostatics` in floating point (`Model/WaterplaneFl`), alone and after the clipper in floating point, `at_cog` false | error rules along the sides of the polygons; the loop adds in a fixed order; exact side by C46 (integrals over the polygons); the clipper by the simulation of C122 |
| C138 | displaced volume and mass, waterplane area, metacentric radii and heights, stiffness matrix and centre of flotation of `compute_hydrostatics` in floating point (`Model/HydroFl`), after the clipper, the inertia and the line sums in floating point; `at_cog` false, the working position of the mesh is given | error rules for products, differences and quotients applied to the bounds of C136 and C137; the coefficients below 1e-4 are zeroed in both runs, which costs at most 1e-4 |
| C139 | `write_NAT`/`load_NAT`, `write_HST`/`load_HST`, `write_TEC`/`load_TEC` at character level, repeated; reading a decimal number is a function of relative precision ε (parameter) | a number printed with seven digits, read with a small relative error and printed again gives the same digits (cases: same decade, or just below a power of ten where the rounding carries); induction over the history |
| C140 | the formats of C134 and C139 mixed in one history | invariant on each coordinate: unchanged, printed once with six decimals, printed once with seven digits, or a number which has both forms and is a fixed point of all the formats |
| C141 | `eval_shell_mesh_inertias` in floating point (`Model/ShellFl`): rows 0 to 8 of the integrals of triangles and quadrangles, area, their sums in any order, mass, centre and inertia | errors of the polynomials (`Ap`), of the integral of a face (C135, C136), of sums in any order; compared with the integrals over the faces (C28), and for the products of inertia with the exact calculation, since C28 fails for them. No condition on the faces |
| C142 | `reduction_point` setter, `at_cog`, `shift_at_cog`, `_huygens_transport` in floating point (`Model/TransportFl`), for an inertia expressed at its centre of gravity | errors entry by entry (`Ap`); compared with the parallel axis term `steiner` of C38 |
| C143 | the rigid motions of C133 in floating point followed by the area of C135 and the plain inertia of C136 | exact part: the integral of any function over the solid of the moved mesh is that of the function of the moved points (`runAll_solidIntegral`), hence the moved centre (`Spec/MovesBody`); then the bounds of C133, C135 and C136 |
| C144 | the rigid motions of C133 in floating point followed by the inertia of a shell of C141 | `runAll_shellIntegral` for any function, `runAll_shellCentre`, then the bounds of C133 and C141; products of inertia left out (wrong, C28) |
| C145 | `Plane.__str__` as characters (`Model/PlaneStr`) | the numbers found in the text by a reader who knows no format (`Spec/PlaneStr`) are the four numbers rounded to six decimals |
| C146 | `quick_save`: name of the file and what is written; the VTP writer is a parameter | by cases on the name |
| C147 | `scale`, `scalex`, `scaley`, `scalez` with their assertion, each product rounded (`Model/ScaleFl`; exact arithmetic is the identity rounding) | induction on the calls; the vector area of a stretched triangle is the stretched vector area, hence flat faces stay flat; then C129 |
| C148 | `mirror` with every operation rounded and a rounded normal in the plane (`Model/MirrorFl`) | error calculus on distance, product, double and difference; then C129 on the exact mirror image and C13 |
| C149 | `symmetrize` in floating point: reflection of C148, merge with a rounded subtraction and the rounded tolerance `1e-8` (`Model/SymmetrizeFl`) | the merge is an exact merge with a tolerance at most `(1 + 3 u) 1e-8` (C117), then C05 and C148; the vertices of the plane `Oxz` are their own computed images |
| C150 | `Plane(normal, scalar)` in floating point with `np.linalg.norm` as a parameter (`Model/PlaneNewFl`) | error of a rounded quotient by an inexact norm; then C148 and C149 with the plane meant by the vector |
| C151 | `symmetrize` and `volume` (models of C14 and C26) | the result is watertight (C131), so its volume is the sum of the cones from a point of the plane (C26); the merge only renumbers; reflection keeps the cones, the two diagonals of a plane quadrangle give the same sum |
| C152 | `symmetrize` and `eval_plain_mesh_inertias` (models of C14 and C27) | the integral of a product of two affine functions over the result is the sum of two integrals over the half; the distance to the plane changes sign by reflection; then C27 |
| C153 | `symmetrize`, `faces_areas` and `eval_shell_mesh_inertias` (models of C14 and C28) | the four triangles cut by the two diagonals of a convex quadrangle give the same integral of a product of two affine functions; then the sum over the faces and C28 |
| C154 | `symmetrize` and `compute_hydrostatics` (models of C14 and C85) | change of variable in each tetrahedron; the part of a quadrangle under a plane does not depend on the diagonal, by cutting where the diagonals cross; vertical translation; then C85 |
| C69 | translation of the inputs of the clipper | simulation: the two runs take the same branches |
| C70 | extents of the submerged part | refuted, upper bounds |

## 4. Disagreements found between the code and the properties

Each item is a theorem of the model about the code as written (property in parentheses).

`tools.py`
* Merging is not complete nor idempotent: chains of close values are cut at a distance from the first one (C04).

`mesh.py`
* Edge statistics count the null edge of every triangle: the minimum is 0 as soon as there is a triangle (C16).
* Stale caches after `scale`, `merge_duplicates`, `heal_triangles`, `flip_normals`, `remove_degenerated_faces`,
  `heal_normals` (C17, eight two-step histories).
* A triangle lying on the diagonal of a quadrangle is reported adjacent to it (C20).
* `is_mesh_closed` answers yes for two triangles which go along their common edge in the same direction (C22).
* `is_mesh_conformal` returns `None` without boundary and looks at the horizontal projection of the first boundary
  only (C23).
* `heal_normals`: a second call raises `KeyError`; faces sharing three corners are not oriented properly (C24).
* The surface integrals of `yz`, `xz`, `xy` are wrong, hence the products of inertia of shells (C25, C28).

`rotations.py`, `inertia.py`
* Rotations of a small angle are turned into the identity (C37).
* `shift_at_cog` adds the transport term instead of subtracting it (C38).
* `right_angle_wedge`, `hemisphere`, `total_cylindrical_shell` do not give the moments of the body (C39).

`mesh_clipper.py` (and `Plane`)
* `coord_in_plane` is right for horizontal planes only (C32); `flip_normal` keeps the scalar (C33); assigning `normal`
  leaves the stored rotation (C64); `set_plane_parameters` is wrong for inclined planes (C67).
* Faces with three corners on the plane, corners at exactly the tolerance, or no crossed face raise (C42).
* Two intersection edges starting at the same vertex: one is lost (C44); parts that touch along a crossing edge make the
  clipper raise (C45).
* A convex watertight prism with a vertical side of length `1e-3` across the plane, on two faces that go through the plane, makes the
  clipper raise (`C45_fails_in_slab`), and `compute_hydrostatics` with it (`C96_fails_in_slab`): such a face is cut along its diagonal.
* Vertices closer than 1e-5 are merged in the cut faces only: the clipped mesh may have gaps (C75).
* A quadrangle with three collinear corners may be clipped into a triangle of zero area, normal 0/0 (C78).
* The clipped mesh keeps unused vertices above the plane, hence wrong extents of the submerged part (C70).

`hydrostatics.py`, `hydrostatics_old.py`
* The product moment `xy` of the waterplane is wrong (C46), hence the roll-pitch coupling (C47), which is not the
  derivative of the roll moment with respect to pitch (C80).
* `displacement_equilibrium` returns a correction which did not converge, and fails with an `IndexError` when the hull
  leaves the water (C48).
* Old solver: mass multiplied by 1000 twice by the constructor, `reset` does not restore the centre of gravity, forces or
  mass, a force added twice moves twice (C50).

`mmio.py`
* MAR: columns fuse from 10^8 or below -10^7, silently dropping coordinates; a mesh without faces gives a file which cannot
  be loaded (C51). NAT: wrong counts below 3 vertices or 4 faces, fused counts from 100000 faces on (C52). GDF: below 4
  faces the loader never ends (C54). PNL: columns fuse beyond the range, a single vertex changes the shape (C55).
* HST: a mesh without faces gives a file on which the loader raises `TypeError`; a second node section raises
  `AttributeError`, because the list of vertices has become an array, which has no `append` (C87). TEC: same without vertices (C88).
  DAT: triangles are moved before quadrangles; negative coordinates with three digits in the exponent fuse; only the first
  section of each type is read, silently; a name containing `T3C000` makes quadrangles read twice (C89).
* `load_MSH22` loses, without message, the elements whose line has a trailing or a double blank; node numbers are ignored;
  a file without node gives an `AttributeError` (C100).
* `load_RAD` refuses (`AttributeError`) every file with one or two elements, and coordinates without decimal point (C101).
* `_dump_vtk` makes a face with the vertex 0 of each line or vertex cell (C103, `C103_lines_fail`); `load_STL` raises `IndexError` on a
  file without facet (C104); `load_MED` mixes the meshes of a file (C105); `load_MSH41` takes the tags of the nodes for their ranks (C106).
* `load_INP` loses silently the element lines without leading blank, with a trailing blank, or without end of line, and refuses
  blanks after the commas of options and vectors (`KeyError`, `ValueError`) (C107).
* `write_STL` modifies the mesh of its caller (C56). `vtkUnstructuredGrid` conversions add points below 3 vertices (C57).
* Node identifiers are not read by the MAR, HST, RAD and MSH loaders; parts appended in INP files get numbers out of range
  (C58). PNL triangles are not triangles for `Mesh` (C73).
* Names of formats are case sensitive although documented otherwise (C59).

`cli.py`
* A plane given by four scalars with a normal which is not unit is not the documented plane (C62). `--zcog` has no default
  although documented (C63). `-lpp` and `-ap` have no effect (C71). An output
  format equal to the extension of the input file overwrites the input file (C76).
- `equilibrate` (old) returns 1, stable, on an unstable position: the metacentric radii are about the axes through the
  origin, and the body is brought to the axis only at the end (C81, `C81_fails`).
  For the same reason `is_at_equilibrium()` may answer False right after
  `equilibrate` returned 1 (C102, `C102_fails`). `max_iterations = 1` is accepted by
  its setter, and then the loop never gives up (`C68_one_iteration_fails`).
- `equilibrate` (old) translates the mesh at the end without redoing the clipping: the data, and those given by the next
  setter, are those of the position before (C82, `C82_fails`).
- `triangulate_quadrangles` always splits along the first diagonal; the help of the option says that the better split is
  kept (C83, `C83_best_split_fails`).
- `load_GDF` never ends on a truncated file, and refuses a line shared by two panels (C84).
- The inertia returned by `compute_hydrostatics` adds the parallel-axis term between the origin and the gravity centre
  instead of removing it: `set_cog` moves the gravity centre of the body before `shift_at_cog` (C85, `C85_fails`).
- `forward_perpendicular` adds the abscissa of the buoyancy centre also when the polygons are not relative to it, i.e. with
  the default `at_cog=False` (C86, `C86_fails`).
- The report prints heel and trim but not the third angle of the correction: the position it describes is turned about the
  vertical axis with respect to the computed one (C90, `C90_fails`). Columns of the centres may touch (C91, `C91_fails`).
- `mesh_clipper.py`: a clipper keeps its results when its plane or its mesh is modified in place (`C95_stale_fails`); the default plane is one object
  shared by all the clippers built without plane (`C95_default_plane_fails`); switching the closed boundary assertion on does not check the
  lines already found (`C95_flag_fails`).
- `translate_x` and `mirror` write into the array returned earlier by `mesh.vertices`, unlike the other movements, which copy; `heal_triangles`,
  `heal_normals` and `triangulate_quadrangles` write into the one returned by `mesh.faces`; translations and `flip_normals` write into the cached
  centres and normals (C109). Writing into `mesh.vertices` leaves the cached areas, normals, centres and integrals stale (`C109_write_stale`).
- `hydrostatics_old.get_hydrostatic_report`: the residuals are printed in columns of ten characters which four digits in scientific notation
  fill, so that a negative moment touches the number before it (`C110_residual_unreadable`).
- `hydrostatics_old.get_gravity_force` returns a force whose application point is the array of the gravity centre: moving the force moves the
  gravity centre of the body without updating it (`C111_force_shares_point`, `C111_force_shares_point_xy`).
- `mesh.copy()` keeps the id of the mesh copied, although `id` is documented as identifying the instance
  (`C113_fails_for_copies`); the sum of meshes named `mesh` and `3` takes the automatic name of the next unnamed mesh
  (`C113_fails_for_numbers`).
- `load_WRL` takes the first shape of the file only: the others are lost without an error (`C115_shapes_lost`).
- With `at_cog=True` the stiffness matrix of `compute_hydrostatics` is taken about the buoyancy centre: the horizontal
  position of the gravity centre is not used at all (`C116_horizontal_position_ignored`, `C116_fails`).
- When a side of a face is a diagonal of another face, `boundaries` may miss boundary sides altogether: a cube and a triangle
  standing on the diagonal of its lower face have three boundary sides and no boundary is reported (`C21_completeness_fails`).
- C130: `remove_degenerated_faces` (mesh.py:1751-1784) opens watertight meshes: it drops thin faces whose three corners are
  distinct without joining their neighbours (`C130_remove_degenerated_fails`, a tetrahedron-like needle with one thin triangle). `heal_mesh` calls it.

## 5. What is modelled and what is not

| File | Modelled | Not modelled |
|------|----------|--------------|
| `tools.py` | `merge_duplicate_rows` | |
| `mesh.py` | `Plane` (all methods used), `Mesh`: vertices, faces, caches, index operations, face properties, surface integrals, volume, inertia, connectivity, boundaries, closedness, conformity, orientation, transformations, healing, clipping helpers, `Mesh.__str__`, `Plane.__str__`, `quick_save` (`write_VTP` is a parameter) | drawing (`show`, `vtk_polydata`), printed messages |
| `rotations.py` | all functions | |
| `inertia.py` | `RigidBodyInertia`, the shape constructors, the printed text (`__str__`) | `-0.0`, infinities and NaN in the printed text |
| `mesh_clipper.py` | partition, crown, cases, intersection polygons, closing lid triangles, accessors, objects and setters | printed messages |
| `hydrostatics.py` | `compute_hydrostatics` (all quantities in the returned dictionary), the two equilibrium solvers, the text of the report | messages printed by the solvers |
| `hydrostatics_old.py` | masses, gravity centre, forces, reset, `equilibrate` loop, rigid motions, text of `get_hydrostatic_report` | displaying |
| `densities.py` | all | |
| `mmio.py` | dispatch; MAR, NAT, NEM, GDF, PNL text; text of the VTK, OBJ and STL writers; HST, TEC, DAT, MSH (version 2), RAD, INP text with their regular expressions; node numbering of DAT, HST, RAD, MSH22, INP; STL triangles; VTK conversions; what the VTU, VTP, VTK, OBJ, STL, MED and MSH (version 4) loaders do with what the library returns | the VTK library (VTU, VTP writers; VTU, VTP, VTK, OBJ, STL readers); the HDF5 reader of MED files (`h5py`), `gmshparser` |
| `cli.py` | `main` from parsed arguments to the saved mesh and reports | `argparse` itself, texts printed (except those of `--info`, C112, and of the inertia options, C126), `argcomplete` |
| `MMviewer.py` | | all (graphics) |

Floating point arithmetic is idealised as exact (sections 1 and 2), except in the models which round every operation:
PlaneFl, MergeFl, ClipperFl, VolumeFl, VolumeQuadFl, MovesFl, AreaFl, InertiaQuadFl, WaterplaneFl, HydroFl, ShellFl, TransportFl, ScaleFl, MirrorFl, SymmetrizeFl and PlaneNewFl (C118 to C122, C128, C129, C133, C135 to C138, C141 to C144, C147 to C150).

## 6. Axioms of the theorems of MANIFEST.json

(Written by `scripts/axioms.py` from `#print axioms`.)

<!-- axioms -->

Axioms: Classical.choice, Quot.sound, propext (475 theorems)

`MM.C01_merged_rows_within_tolerance`, `MM.exMesh_meets_C05`, `MM.C02_exact_duplicates_merged`, `MM.C03_renumbering_total_in_range_onto`, `MM.C04_complete_idempotent_partial`, `MM.C04_completeness_fails`, `MM.C04_idempotence_fails`, `MM.C05_merge_duplicates_moves_corners_within_tol`, `MM.C06_extract_faces_geometry`, `MM.C07_extract_faces_used_vertices`, `MM.C08_remove_unused_vertices`, `MM.C09_heal_triangles`, `MM.C10_triangulate_structure`, `MM.C10_triangulate_conserves`, `MM.Io.C100_msh_partial`, `MM.Io.mshSample_meets_C100`, `MM.Io.C100_versions`, `MM.Io.C100_trailing_blank`, `MM.Io.C100_node_numbers_fail`, `MM.Io.C100_no_node`, `MM.Io.C100_complete_nodes`, `MM.Io.C100_incomplete_node`, `MM.Io.C101_rad_partial`, `MM.Io.radSample_meets_C101`, `MM.Io.C101_few_elements_fails`, `MM.Io.C101_no_point_fails`, `MM.Io.C101_node_numbers_fail`, `MM.Old.C102_after_equilibrate_partial`, `MM.Old.C102_fails`, `MM.Io.C103_error`, `MM.Io.C103_lines_fail`, `MM.Io.C104_stl_partial`, `MM.Io.C104_empty_fails`, `MM.Io.C105_med_partial`, `MM.Io.C105_two_meshes_fail`, `MM.Io.C106_msh41_partial`, `MM.Io.C107_inp_partial`, `MM.Io.C107_unreadable`, `MM.Io.C107_no_element`, `MM.Io.C107_sample`, `MM.Io.C107_read`, `MM.Io.C107_two_node_sections`, `MM.Io.C107_missing_sample`, `MM.Io.C107_no_element_sample`, `MM.Io.C107_blank_fails`, `MM.Io.C107_lost_fails`, `MM.Io.C107_vector_fails`, `MM.Alias.C108_values`, `MM.Alias.C108_isolated`, `MM.Alias.C108_arrays`, `MM.Alias.C108_sample`, `MM.Alias.C109_snapshot_partial`, `MM.Alias.C109_areas`, `MM.Alias.C109_vertices_fails`, `MM.Alias.C109_faces_fails`, `MM.Alias.C109_cached_fails`, `MM.Alias.C109_heal_normals_fails`, `MM.Alias.C109_write_stale`, `MM.Alias.C109_sample`, `MM.C11_concatenation`, `MM.ReportOld.C110_report_partial`, `MM.ReportOld.C110_residual_unreadable`, `MM.ReportOld.C110_fails`, `MM.Old.C111_balance`, `MM.Old.C111_null_residual`, `MM.Old.halfCube_meets_C111`, `MM.Old.C111_force_shares_point`, `MM.Old.C111_force_shares_point_xy`, `MM.Info.C112_mesh_text`, `MM.Info.roof_meets_C112`, `MM.Info.C112_fails_for_names_with_lines`, `MM.Sess.C113_numbers`, `MM.Sess.C113_fresh_name`, `MM.Sess.C113_automatic_names`, `MM.Sess.session_meets_C113`, `MM.Sess.C113_fails_for_copies`, `MM.Sess.C113_fails_for_numbers`, `MM.C114_recovers`, `MM.C114_axis_angle`, `MM.thirdTurn_meets_C114`, `MM.Io.C115_wrl_partial`, `MM.Io.C115_version`, `MM.Io.C115_no_header`, `MM.Io.C115_shapes_lost`, `MM.Io.wrl_meets_C115`, `MM.Hydro.C116_at_cog_partial`, `MM.Hydro.halfCube_meets_C116`, `MM.Hydro.C116_horizontal_position_ignored`, `MM.Hydro.C116_fails`, `MM.C117_rounded_merge`, `MM.C117_as_exact`, `MM.doubles_meet_C117`, `MM.C117_tolerance_exceeded`, `MM.roundBits_isRounding`, `MM.C118_classification`, `MM.C118_partition`, `MM.flMesh_meets_C118`, `MM.doubles_meet_C119`, `MM.dotFl_isDot`, `MM.dotFma_isDot`, `MM.C119_intersection`, `MM.C12_flip_normals`, `MM.C120_stable`, `MM.rows_meet_C120`, `MM.C120_gap_needed`, `MM.Clipper.C121_same_connectivity`, `MM.Clipper.flOcta_meets_C121`, `MM.Clipper.C122_watertight`, `MM.Clipper.C122_volume`, `MM.Clipper.flOcta_meets_C122`, `MM.Hydro.C123_displaced_volume_in_slab_partial`, `MM.Hydro.slabOcta_meets_C123`, `MM.Hydro.C124_buoyancy_centre_in_slab_partial`, `MM.Hydro.slabOcta_meets_C124`, `MM.C125_surface_in_slab_partial`, `MM.Hydro.C125_wetted_area_in_slab_partial`, `MM.Hydro.slabOcta_wetted_area`, `MM.InertiaText.C126_inertia_text`, `MM.InertiaText.C126_plain_inertia_text`, `MM.InertiaText.C126_shell_inertia_text`, `MM.Cli.C127_input_format`, `MM.Cli.C127_no_format`, `MM.Cli.C127_concatenated_format`, `MM.Cli.C127_typed_case`, `MM.C128_volume`, `MM.C128_volume_bound`, `MM.C128_inertia`, `MM.C128_centre`, `MM.C128_exact`, `MM.C129_volume`, `MM.C129_clipped_volume`, `MM.halfCube_meets_C129`, `MM.C13_mirror`, `MM.cube_meets_C13`, `MM.C130_watertight`, `MM.C130_sum`, `MM.cube_meets_C130`, `MM.C130_remove_degenerated_fails`, `MM.C131_half_hull`, `MM.halfBox_meets_C131`, `MM.Io.C132_stl`, `MM.Io.C132_vtk`, `MM.Io.C132_obj`, `MM.Io.boxSample_meets_C132`, `MM.C133_positions`, `MM.C133_distances`, `MM.C133_volume`, `MM.cube_meets_C133`, `MM.Io.C134_no_drift`, `MM.Io.C134_distance`, `MM.C135_area`, `MM.C135_wetted_area`, `MM.C136_inertia`, `MM.C136_centre`, `MM.C136_body`, `MM.C136_buoyancy_centre`, `MM.halfCube_meets_C136`, `MM.cube_meets_C136_body`, `MM.Hydro.C137_line_sums`, `MM.Hydro.C137_moments`, `MM.Hydro.C137_waterplane`, `MM.Hydro.halfCube_meets_C137`, `MM.Hydro.C138_coefficients`, `MM.Hydro.C138_hydrostatics`, `MM.Hydro.halfCube_meets_C138`, `MM.Io.C139_no_drift`, `MM.Io.C139_distance`, `MM.Io.boxSample_meets_C139`, `MM.C14_symmetrize`, `MM.cube_meets_C14`, `MM.Io.C140_any_formats`, `MM.Io.boxSample_meets_C140`, `MM.C141_inertia`, `MM.C141_products`, `MM.C141_centre`, `MM.shellSample_meets_C141`, `MM.C142_transport`, `MM.sample_meets_C142`, `MM.C143_area`, `MM.C143_inertia`, `MM.runAll_solidIntegral`, `MM.runAll_centre`, `MM.cube_meets_C143`, `MM.C144_shell`, `MM.runAll_shellIntegral`, `MM.runAll_shellCentre`, `MM.shell_meets_C144`, `MM.C145_plane_text`, `MM.C145_same_plane`, `MM.plane_meets_C145`, `MM.C146_quick_save`, `MM.names_meet_C146`, `MM.C147_defined`, `MM.C147_positions`, `MM.C147_exact_volume`, `MM.C147_volume`, `MM.cube_meets_C147`, `MM.C148_positions`, `MM.C148_volume`, `MM.C148_twice`, `MM.C149_symmetrize`, `MM.C149_seam`, `MM.C15_bounding_boxes`, `MM.exMesh_meets_C15`, `MM.C150_normal`, `MM.C150_length`, `MM.C150_mirror`, `MM.C150_symmetrize`, `MM.C151_symmetrized_volume`, `MM.C152_integrals`, `MM.C152_centre`, `MM.C152_inertia`, `MM.C153_integrals`, `MM.C153_area`, `MM.C153_centre`, `MM.C153_moments`, `MM.C154_integrals`, `MM.C154_buoyancy`, `MM.C154_wetted_area`, `MM.C154_hull`, `MM.C16_edge_stats_partial`, `MM.C16_min_edge_zero_with_triangle`, `MM.C16_fails`, `MM.C17_geometry_partial`, `MM.C17_connectivity_partial`, `MM.C17_always_safe_partial`, `MM.C17_scale_stale`, `MM.C17_merge_stale`, `MM.C17_heal_triangles_stale`, `MM.C17_flip_stale`, `MM.C17_flip_boundaries_stale`, `MM.C17_heal_triangles_conn_stale`, `MM.C17_remove_degenerated_stale`, `MM.C17_heal_normals_stale`, `MM.C18_translate`, `MM.C18_rotate_matrix`, `MM.C18_rotate`, `MM.C18_scale`, `MM.C19_vertex_adjacency`, `MM.C20_errors`, `MM.C20_corners`, `MM.C20_face_adjacency_partial`, `MM.C20_fails`, `MM.noChord_of_triangles`, `MM.C21_boundaries_sound`, `MM.C21_boundaries_complete_partial`, `MM.C21_boundaries_complete_oriented_partial`, `MM.C22_closed_of_two_faces`, `MM.C22_closed_partial`, `MM.C22_fails`, `MM.C23_conformal_partial`, `MM.C23_fails`, `MM.C23_cube_none`, `MM.C24_heal_normals_partial`, `MM.C24_watertight_partial`, `MM.C24_flood`, `MM.C24_second_call_fails`, `MM.C25_triangle_integrals_partial`, `MM.C25_fails`, `MM.C26_volume`, `MM.C27_plain_inertia`, `MM.C27_moments`, `MM.C27_translate`, `MM.C28_shell_inertia_partial`, `MM.C28_fails`, `MM.C29_edge_intersection`, `MM.C30_orthogonal_projection`, `MM.C31_plane_angles`, `MM.C32_coord_in_plane_partial`, `MM.C32_fails`, `MM.C33_flip_normal_partial`, `MM.C33_fails`, `MM.C34_rotation_matrices`, `MM.C35_cardan_round_trip`, `MM.angles_meet_C35`, `MM.C36_quaternions`, `MM.C37_axis_angle_partial`, `MM.C37_fails`, `MM.C38_transport_partial`, `MM.C38_history`, `MM.C38_fails`, `MM.C39_polyhedra`, `MM.C39_round_solids`, `MM.C39_shells`, `MM.C39_degenerate`, `MM.C39_triangle`, `MM.C39_right_angle_wedge_partial`, `MM.C39_hemisphere_partial`, `MM.C39_total_cylindrical_shell_partial`, `MM.C39_fails`, `MM.Clipper.C40_partition`, `MM.Clipper.C41_nothing_above`, `MM.Clipper.C42_known_cases_partial`, `MM.Clipper.C42_three_on_unknown`, `MM.Clipper.C42_three_on_below_unknown`, `MM.Clipper.C42_at_tolerance_unknown`, `MM.Clipper.C42_no_crown_indexError`, `MM.Clipper.C43_parts_below`, `MM.Clipper.C44_polygons_partial`, `MM.Clipper.C44_branching_loses_an_edge`, `MM.Clipper.C45_watertight_partial`, `MM.Clipper.C45_on_plane_partial`, `MM.Clipper.octa_meets_C75`, `MM.Clipper.C45_fails_on_touching_parts`, `MM.Clipper.C45_in_slab_partial`, `MM.Clipper.slabOcta_meets_C75`, `MM.Clipper.C45_fails_in_slab`, `MM.Hydro.C46_waterplane_moments_partial`, `MM.Hydro.C46_fails`, `MM.Hydro.C47_stiffness`, `MM.Hydro.C47_horizontal_translation_partial`, `MM.Hydro.halfCube_meets_C47`, `MM.Hydro.C48_displacement_partial`, `MM.Hydro.C48_fails`, `MM.Hydro.C48_no_convergence`, `MM.Hydro.C48_silent`, `MM.Hydro.C48_wall_sided`, `MM.Hydro.C49_full_equilibrium`, `MM.halfCube_full`, `MM.Old.C50_rigid_coupling`, `MM.Old.C50_mass`, `MM.Old.C50_reset_partial`, `MM.Old.C50_reset_fails`, `MM.Old.C50_reset_keeps_forces`, `MM.Old.C50_force_added_twice`, `MM.Old.C50_constructor_mass_fails`, `MM.Old.C50_mass_refused`, `MM.Io.C51_mar_partial`, `MM.Io.C51_no_faces_fails`, `MM.Io.C51_far_fails`, `MM.Io.C51_fails`, `MM.Io.C52_nat_partial`, `MM.Io.C52_nat_fails`, `MM.Io.C53_nem`, `MM.Io.C54_gdf_partial`, `MM.Io.C54_gdf_fails`, `MM.Io.C55_pnl_partial`, `MM.Io.C55_single_fails`, `MM.Io.C55_far_fails`, `MM.Io.C57_unstructured`, `MM.Io.C57_few_vertices_fails`, `MM.Io.C58_dat`, `MM.Io.C58_drop_fails`, `MM.Io.C58_mar_fails`, `MM.Io.C58_inp_single_partial`, `MM.Io.C58_inp_increment_fails`, `MM.C59_dispatch`, `MM.C59_documented`, `MM.C59_file_extension`, `MM.C59_case_fails`, `MM.C59_refused`, `MM.C59_read_only`, `MM.C60_listed`, `MM.C60_unknown`, `MM.C60_positive`, `MM.Cli.C61_moves`, `MM.Cli.C61_order`, `MM.Cli.C61_main`, `MM.Cli.C62_planes_partial`, `MM.Cli.C62_define`, `MM.Cli.C62_scalars`, `MM.Cli.C62_mirror`, `MM.Cli.C62_clip`, `MM.Cli.C62_scalars_fails`, `MM.Cli.C63_modes_partial`, `MM.Cli.C63_rejected`, `MM.Cli.C63_zcog_fails`, `MM.C64_plane_frame_partial`, `MM.C64_setter_fails`, `MM.C65_remove_degenerated_faces`, `MM.C66_heal_mesh`, `MM.C67_set_plane_parameters_partial`, `MM.C67_fails`, `MM.Old.C68_equilibrate_terminates`, `MM.Old.C68_one_iteration_fails`, `MM.C69_translate`, `MM.C70_submerged_size_partial`, `MM.C70_fails`, `MM.Cli.C71_lpp_partial`, `MM.Cli.C71_lpp_fails`, `MM.Hydro.C71_library`, `MM.Cli.C72_inertia`, `MM.Io.C73_msh`, `MM.Io.C73_pnl_triangle_fails`, `MM.Io.C74_stl`, `MM.Clipper.C75_section_closes_partial`, `MM.Clipper.C75_polygons_are_the_section_partial`, `MM.Clipper.C75_wetted_body_closed_partial`, `MM.Clipper.cube_meets_C75`, `MM.Clipper.C75_polygons_on_plane_partial`, `MM.Clipper.C75_wetted_body_on_plane_partial`, `MM.Clipper.C75_fails_on_close_vertices`, `MM.Clipper.C75_polygons_in_slab_partial`, `MM.Clipper.C75_wetted_body_in_slab_partial`, `MM.Cli.C76_output`, `MM.Cli.C76_input_overwritten`, `MM.Cli.cube_writes`, `MM.Cli.C77_repeated`, `MM.Cli.C77_last`, `MM.Cli.C77_all_planes_clip`, `MM.Cli.cube_two_planes`, `MM.Clipper.C78_no_degenerate_face_partial`, `MM.Clipper.cube_meets_C78`, `MM.Clipper.pyramid_meets_C78`, `MM.Clipper.C78_fails_on_flat_corner`, `MM.Hydro.C79_archimedes_partial`, `MM.Hydro.halfCube_meets_C79`, `MM.Hydro.octa_meets_C79`, `MM.Hydro.C80_stiffness_partial`, `MM.Hydro.C80_coupling_fails`, `MM.Hydro.halfCube_meets_C80`, `MM.Hydro.octa_meets_C80`, `MM.Old.C81_codes_partial`, `MM.Old.C81_pressure_partial`, `MM.Old.C81_fails`, `MM.Old.halfCube_meets_C81`, `MM.Old.C81_unstable`, `MM.Old.halfCube_meets_C81_unstable`, `MM.Old.C82_up_to_date_partial`, `MM.Old.C82_brought_up_to_date`, `MM.Old.C82_fails`, `MM.Cli.C83_edits`, `MM.Cli.cube_meets_C83`, `MM.Cli.C83_best_split_fails`, `MM.Io.C84_layouts`, `MM.Io.layout_meets_C84`, `MM.Io.C84_truncated_fails`, `MM.Io.C84_shared_line_refused`, `MM.Hydro.C85_immersed_body_partial`, `MM.Hydro.C85_part_of_hull_partial`, `MM.Hydro.C85_fails`, `MM.Hydro.C86_waterline_extents_partial`, `MM.Hydro.C86_fails`, `MM.Io.C87_hst_partial`, `MM.Io.C87_no_faces_fails`, `MM.Io.C87_second_section_fails`, `MM.Io.C88_tec_partial`, `MM.Io.C88_no_vertices_fails`, `MM.Io.C89_dat_partial`, `MM.Io.C89_no_vertices_fails`, `MM.Io.C89_order`, `MM.Io.C89_fused`, `MM.Io.C89_second_section_lost`, `MM.Io.C89_bad_name`, `MM.Io.C89_two_node_sections`, `MM.Hydro.C90_corrections_partial`, `MM.Hydro.C90_fails`, `MM.Report.C91_report_partial`, `MM.Report.C91_warnings`, `MM.Report.C91_fails`, `MM.C92_part_below_partial`, `MM.C92_two_parts_partial`, `MM.C92_volume_partial`, `MM.cube_meets_C92`, `MM.octa_meets_C92`, `MM.C93_surface_below_partial`, `MM.C93_normals_below_partial`, `MM.C93_two_parts_partial`, `MM.Hydro.C93_wetted_area_partial`, `MM.Hydro.C94_waterplane_closes_partial`, `MM.Hydro.halfCube_wetted_area`, `MM.Hydro.octa_wetted_area`, `MM.Clipper.goodHistory_allowed`, `MM.Clipper.C95_stale_fails`, `MM.Clipper.C95_default_plane_fails`, `MM.Clipper.C95_flag_fails`, `MM.Hydro.C96_returns_partial`, `MM.Hydro.octa_meets_C96`, `MM.Hydro.C96_returns_in_slab_partial`, `MM.Hydro.slabOcta_meets_C96`, `MM.Hydro.C96_fails_in_slab`, `MM.Io.C97_vtk`, `MM.Io.C98_obj`, `MM.Io.C99_stl`, `MM.Io.stlSample_meets_C99`

Axioms: propext (1 theorems)

`MM.Io.C103_vtk_partial`

Axioms: Quot.sound, propext (14 theorems)

`MM.Io.C105_no_nodes`, `MM.Io.C106_tags_fail`, `MM.C12_flip_normals_structure`, `MM.C21_completeness_fails`, `MM.C24_three_common_fails`, `MM.Io.C56_stl`, `MM.Io.C56_fails`, `MM.Io.C57_polydata`, `MM.Io.C57_unstructured_faces`, `MM.Io.C58_sequential_partial`, `MM.Clipper.C95_fresh_partial`, `MM.Clipper.C95_setPlane`, `MM.Clipper.C95_setTol`, `MM.Clipper.C95_create`
