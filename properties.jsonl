{"id": "C01", "title": "Merged rows are within the tolerance", "statement": "In merge_duplicate_rows(arr, atol), any two input rows that receive the same new index differ by at most atol in every coordinate, and each input row differs from the output row that replaces it by at most atol in every coordinate.", "quantifier": "every array of rows of any length and width, every non-negative tolerance, every order in which argsort may break ties", "why_tests_cant": "The number of rows, the clustering of values near the tolerance and the tie order of the unstable sort are unbounded; a test only visits a few arrays.", "anchors": ["meshmagick/tools.py:merge_duplicate_rows"]}
{"id": "C02", "title": "Exact duplicates are always merged", "statement": "Two identical rows always receive the same new index, so the rows returned by merge_duplicate_rows are pairwise distinct; and if no two rows are within the tolerance of each other the array is returned unchanged with the identity index map.", "quantifier": "every array of rows, every non-negative tolerance, every tie order of argsort", "why_tests_cant": "Requires reasoning about all sort orders and all positions of the duplicates.", "anchors": ["meshmagick/tools.py:merge_duplicate_rows"]}
{"id": "C03", "title": "The renumbering returned by the merge is total, in range and onto", "statement": "The index map returned by merge_duplicate_rows has one entry per input row, every entry is a valid row number of the output, every output row is hit, and every output row is one of the input rows.", "quantifier": "every array of rows, every non-negative tolerance, every tie order", "why_tests_cant": "An out-of-range or missed index only shows on particular arrays; tests cannot enumerate them.", "anchors": ["meshmagick/tools.py:merge_duplicate_rows"]}
{"id": "C04", "title": "Merging is complete and idempotent", "statement": "After merge_duplicate_rows no two remaining rows are within atol of each other in every coordinate, hence merging a second time changes nothing.", "quantifier": "every array, every tolerance", "why_tests_cant": "Chains of nearly-equal rows are needed to see a failure; random tests do not produce them.", "anchors": ["meshmagick/tools.py:merge_duplicate_rows", "meshmagick/mesh.py:Mesh.merge_duplicates"]}
{"id": "C05", "title": "Mesh.merge_duplicates moves every face corner by at most the tolerance", "statement": "After mesh.merge_duplicates(atol) the mesh has the same number of faces in the same order, all face indices are valid, and each corner of each face lies within atol (per coordinate) of where it was.", "quantifier": "every mesh with valid indices and at least one vertex, every non-negative tolerance, every tie order of argsort", "why_tests_cant": "Composition of a sort-based merge with index substitution must be right for all connectivity.", "anchors": ["meshmagick/mesh.py:Mesh.merge_duplicates", "meshmagick/tools.py:merge_duplicate_rows"]}
{"id": "C06", "title": "extract_faces preserves geometry", "statement": "mesh.extract_faces(ids) returns a mesh whose k-th face has, corner by corner, the same coordinates as face ids[k] of the original; the returned index array tells for each new vertex which old vertex it is.", "quantifier": "every mesh with valid indices, every list of face ids (repetitions and any order allowed)", "why_tests_cant": "Renumbering errors depend on which vertices are kept; the space of selections is exponential.", "anchors": ["meshmagick/mesh.py:Mesh.extract_faces"]}
{"id": "C07", "title": "extract_faces keeps exactly the used vertices once, in order", "statement": "The vertices of mesh.extract_faces(ids) are exactly the vertices of the original used by the selected faces, each exactly once, in increasing order of the original index.", "quantifier": "every mesh, every list of face ids", "why_tests_cant": "Same as above: exponential number of selections.", "anchors": ["meshmagick/mesh.py:Mesh.extract_faces"]}
{"id": "C08", "title": "remove_unused_vertices", "statement": "After mesh.remove_unused_vertices() every face has the same corner coordinates as before, every remaining vertex is used by some face, relative vertex order is kept, and a second call changes nothing.", "quantifier": "every mesh with valid indices", "why_tests_cant": "Depends on every pattern of used/unused vertices.", "anchors": ["meshmagick/mesh.py:Mesh.remove_unused_vertices"]}
{"id": "C09", "title": "heal_triangles canonicalises triangles without changing any face", "statement": "After mesh.heal_triangles() each face is a cyclic rotation of what it was (same corners, same orientation); any face having two cyclically consecutive equal corners starts and ends with the same vertex, i.e. is recognised as a triangle; faces already recognised are untouched.", "quantifier": "every mesh, every face including degenerate ones", "why_tests_cant": "All index patterns of all faces, including degenerate ones, must be handled by the three in-place rolls.", "anchors": ["meshmagick/mesh.py:Mesh.heal_triangles"]}
{"id": "C10", "title": "triangulate_quadrangles", "statement": "After mesh.triangulate_quadrangles() there are only triangles; the number of faces is the old number plus the number of quadrangles; triangles keep their position; each quadrangle a,b,c,d is replaced by a,c,d and a,b,c; the total surface area and all the fifteen total surface integrals are unchanged.", "quantifier": "every mesh (any number of triangles and quadrangles, planar or not)", "why_tests_cant": "Universal conservation law over all meshes.", "anchors": ["meshmagick/mesh.py:Mesh.triangulate_quadrangles"]}
{"id": "C11", "title": "Concatenation of meshes", "statement": "mesh1 + mesh2 has the faces of mesh1 followed by those of mesh2, each with the same corner coordinates up to the 1e-8 merge tolerance, and all indices valid.", "quantifier": "every pair of meshes with valid indices, not both without vertices", "why_tests_cant": "Index shift composed with merge must be right for all sizes.", "anchors": ["meshmagick/mesh.py:Mesh.__add__"]}
{"id": "C12", "title": "flip_normals reverses orientation and is an involution", "statement": "mesh.flip_normals() negates every face normal, keeps the corner set of each face and its triangle/quadrangle class; applying it twice restores the mesh.", "quantifier": "every mesh", "why_tests_cant": "Universal over faces.", "anchors": ["meshmagick/mesh.py:Mesh.flip_normals"]}
{"id": "C13", "title": "mirror is an isometric involution which preserves the enclosed volume sign", "statement": "mesh.mirror(plane) keeps all distances between vertices, applying it twice restores the mesh, points of the plane are fixed, and a closed mesh keeps its signed volume.", "quantifier": "every mesh with valid indices, every plane with unit normal; for the volume, closed consistently oriented meshes with plane convex faces that are not degenerate", "why_tests_cant": "Universal over meshes and planes.", "anchors": ["meshmagick/mesh.py:Mesh.mirror", "meshmagick/mesh.py:Plane.get_point_dist_wrt_plane"]}
{"id": "C14", "title": "symmetrize yields a symmetric mesh", "statement": "mesh.symmetrize(plane) yields a mesh with twice the faces whose set of vertices is, up to the merge tolerance, invariant by reflection through the plane, the added faces being the reflected originals with reversed orientation.", "quantifier": "every non-empty mesh with valid indices, every plane with unit normal", "why_tests_cant": "Universal over meshes and planes.", "anchors": ["meshmagick/mesh.py:Mesh.symmetrize"]}
{"id": "C15", "title": "Bounding boxes", "statement": "axis_aligned_bbox contains every vertex and each of its six sides is touched by a vertex; squared_axis_aligned_bbox is a cube with the same centre which contains it.", "quantifier": "every non-empty mesh", "why_tests_cant": "Universal over coordinates.", "anchors": ["meshmagick/mesh.py:Mesh.axis_aligned_bbox", "meshmagick/mesh.py:Mesh.squared_axis_aligned_bbox"]}
{"id": "C16", "title": "Edge length statistics", "statement": "min_edge_length, max_edge_length and mean_edge_length are the minimum, maximum and mean length of the edges of the faces of the mesh; in particular the minimum is positive when no edge is degenerate.", "quantifier": "every mesh mixing triangles and quadrangles", "why_tests_cant": "Universal over meshes; tests only print the values.", "anchors": ["meshmagick/mesh.py:Mesh._edges_stats"]}
{"id": "C17", "title": "Derived quantities never go stale", "statement": "After any sequence of mesh operations and queries, the values returned by faces_areas, faces_normals, faces_centers, triangles_ids, quadrangles_ids, vv, vf, ff, boundaries and get_surface_integrals are those of a freshly built mesh with the same vertices and faces.", "quantifier": "every mesh and every finite history of operations and queries", "why_tests_cant": "Histories are unbounded; cache invalidation bugs only show for particular interleavings of queries and mutations.", "anchors": ["meshmagick/mesh.py:Mesh.__internals__", "meshmagick/mesh.py:Mesh._remove_faces_properties", "meshmagick/mesh.py:Mesh._remove_connectivity", "meshmagick/mesh.py:Mesh.scale", "meshmagick/mesh.py:Mesh.merge_duplicates", "meshmagick/mesh.py:Mesh.heal_triangles", "meshmagick/mesh.py:Mesh.remove_degenerated_faces", "meshmagick/mesh.py:Mesh.flip_normals", "meshmagick/mesh.py:Mesh.heal_normals"]}
{"id": "C18", "title": "Rigid motions and scalings act as documented on geometric quantities", "statement": "translate and rotate keep all distances, face areas and (for closed meshes) the volume; scale(alpha) multiplies areas by alpha^2 and the volume by alpha^3; rotating with opposite angle about one axis or translating by the opposite vector restores the mesh.", "quantifier": "every mesh with valid indices, translation vector, rotation and positive scale factor; for the volume under translation, closed consistently oriented meshes with plane faces that are not degenerate", "why_tests_cant": "Universal over real parameters.", "anchors": ["meshmagick/mesh.py:Mesh.translate", "meshmagick/mesh.py:Mesh.rotate", "meshmagick/mesh.py:Mesh.rotate_matrix", "meshmagick/mesh.py:Mesh.scale"]}
{"id": "C19", "title": "Vertex adjacency", "statement": "mesh.vv[i] is exactly the set of vertices joined to i by an edge of some face (a symmetric relation), and mesh.vf[i] exactly the set of faces having i as a corner.", "quantifier": "every mesh with valid indices", "why_tests_cant": "Universal over connectivity.", "anchors": ["meshmagick/mesh.py:Mesh._connectivity"]}
{"id": "C20", "title": "Face adjacency", "statement": "mesh.ff[f] is exactly the set of other faces sharing an edge with f, a symmetric relation, whenever mesh connectivity is computed without error; an error is raised exactly when more than two faces contain two adjacent vertices.", "quantifier": "every mesh with valid indices", "why_tests_cant": "Universal over connectivity.", "anchors": ["meshmagick/mesh.py:Mesh._connectivity"]}
{"id": "C21", "title": "Boundaries are closed chains of boundary edges", "statement": "Each list in mesh.boundaries is a closed chain whose consecutive vertices are joined by an edge belonging to exactly one face; no boundary edge appears twice; if each boundary vertex has one incoming and one outgoing boundary edge then every boundary edge appears in some chain.", "quantifier": "every mesh whose faces have distinct corners and whose connectivity is computed without error, every iteration order of the sets", "why_tests_cant": "Chain extraction by repeated dictionary pops must be right for every boundary graph.", "anchors": ["meshmagick/mesh.py:Mesh._connectivity", "meshmagick/mesh.py:Mesh.boundaries"]}
{"id": "C22", "title": "is_mesh_closed decides watertightness", "statement": "mesh.is_mesh_closed() is true exactly when each edge belongs to two faces.", "quantifier": "every mesh whose connectivity is computed without error", "why_tests_cant": "A wrong answer needs a particular boundary graph and vertex numbering.", "anchors": ["meshmagick/mesh.py:Mesh.is_mesh_closed", "meshmagick/mesh.py:Mesh._connectivity"]}
{"id": "C23", "title": "is_mesh_conformal answers a boolean that accounts for all boundaries", "statement": "mesh.is_mesh_conformal() returns a boolean for every mesh, true when every boundary has non-zero projected area and false when some boundary is a zero-area slit; for a watertight mesh it returns True.", "quantifier": "every list of boundaries", "why_tests_cant": "Universal over boundary lists.", "anchors": ["meshmagick/mesh.py:Mesh.is_mesh_conformal"]}
{"id": "C24", "title": "heal_normals orients all adjacent faces consistently", "statement": "After mesh.heal_normals() on an orientable mesh, any two faces sharing an edge traverse it in opposite directions, each face has the same corners as before; for a closed mesh the enclosed volume is then non-negative; it can be called again.", "quantifier": "every orientable mesh, every order in which python iterates over sets, every history of previous queries", "why_tests_cant": "Flood fill over arbitrary adjacency graphs, with caches.", "anchors": ["meshmagick/mesh.py:Mesh.heal_normals"]}
{"id": "C25", "title": "Closed-form triangle integrals are the surface integrals", "statement": "The fifteen values computed per triangle are the integrals over the triangle of x, y, z, yz, xz, xy, x2, y2, z2, x3, y3, z3, x2y, y2z, z2x.", "quantifier": "every triangle in space", "why_tests_cant": "Polynomial identity in nine real variables; a test checks a few triangles of symmetrical bodies for which wrong terms cancel.", "anchors": ["meshmagick/mesh.py:Mesh._compute_triangles_integrals", "meshmagick/mesh.py:Mesh._compute_faces_integrals"]}
{"id": "C26", "title": "Volume of a closed mesh", "statement": "mesh.volume of a closed mesh of triangles is the sum of signed volumes of the tetrahedra spanned by an arbitrary apex and the faces; it does not depend on the apex, hence not on the position of the mesh, and is multiplied by -1 when the normals are flipped.", "quantifier": "every closed consistently oriented mesh of any size with plane convex faces that are not degenerate (triangles in particular), every apex, translation and rotation", "why_tests_cant": "Universal over meshes of unbounded size.", "anchors": ["meshmagick/mesh.py:Mesh.volume"]}
{"id": "C27", "title": "Plain inertia of a closed mesh", "statement": "eval_plain_mesh_inertias returns mass, centre of gravity and inertia matrix of the homogeneous solid bounded by the mesh: the sums over the faces of the corresponding moments of the signed tetrahedra joining the origin to the faces; translating the mesh by t moves the centre of gravity by t.", "quantifier": "every closed consistently oriented mesh of triangles and plane quadrangles that are not degenerate, of non-zero volume; every density, apex and translation", "why_tests_cant": "Polynomial identities over all meshes.", "anchors": ["meshmagick/mesh.py:Mesh.eval_plain_mesh_inertias"]}
{"id": "C28", "title": "Shell inertia", "statement": "eval_shell_mesh_inertias returns the mass, centre of gravity and inertia matrix of a homogeneous thin shell lying on the faces.", "quantifier": "every mesh, density and thickness", "why_tests_cant": "Polynomial identity in all vertex coordinates.", "anchors": ["meshmagick/mesh.py:Mesh.eval_shell_mesh_inertias"]}
{"id": "C29", "title": "Edge/plane intersection", "statement": "plane.get_edge_intersection(p0, p1) returns a point of the plane lying on the segment p0p1 whenever the end points are not strictly on the same side and not both on the plane, and raises when they are strictly on the same side; swapping the end points gives the same point.", "quantifier": "every plane and pair of points", "why_tests_cant": "Universal over reals.", "anchors": ["meshmagick/mesh.py:Plane.get_edge_intersection"]}
{"id": "C30", "title": "Orthogonal projection", "statement": "plane.orthogonal_projection_on_plane(p) is on the plane, is the nearest point of the plane to p, and projecting again changes nothing; get_point_dist_wrt_plane is the signed distance.", "quantifier": "every plane with unit normal, every point", "why_tests_cant": "Universal over reals.", "anchors": ["meshmagick/mesh.py:Plane.orthogonal_projection_on_plane", "meshmagick/mesh.py:Plane.get_point_dist_wrt_plane"]}
{"id": "C31", "title": "Plane orientation angles", "statement": "set_normal_from_angles(tx, ty) followed by get_normal_orientation_wrt_z gives back the angles (for total tilt in (0, pi)), and set_normal_from_angles(*get_normal_orientation_wrt_z()) gives back the normal; the plane normal is always a unit vector.", "quantifier": "every unit normal, every pair of angles, every history of normal modifications", "why_tests_cant": "Universal over reals, special values.", "anchors": ["meshmagick/mesh.py:Plane.set_normal_from_angles", "meshmagick/mesh.py:Plane.get_normal_orientation_wrt_z", "meshmagick/mesh.py:_rodrigues"]}
{"id": "C32", "title": "coord_in_plane gives in-plane coordinates", "statement": "plane.coord_in_plane(points) gives coordinates whose third component is the signed distance to the plane; it vanishes for points of the plane.", "quantifier": "every plane and point", "why_tests_cant": "Universal over reals; the only exercised planes are aligned with the axes.", "anchors": ["meshmagick/mesh.py:Plane.coord_in_plane"]}
{"id": "C33", "title": "flip_normal keeps the same plane", "statement": "plane.flip_normal() exchanges the two sides of the plane and leaves the set of its points unchanged.", "quantifier": "every plane", "why_tests_cant": "Universal over planes, in particular those not through the origin.", "anchors": ["meshmagick/mesh.py:Plane.flip_normal"]}
{"id": "C34", "title": "Rotation matrices are rotations", "statement": "cardan_to_rotmat, quat_to_rotmat (unit quaternion), axis_angle_to_rotmat (unit axis) and the matrices used by Mesh.rotate and Plane are orthogonal with determinant one.", "quantifier": "all angles, all unit quaternions, all unit axes", "why_tests_cant": "Universal over reals.", "anchors": ["meshmagick/rotations.py:cardan_to_rotmat", "meshmagick/rotations.py:quat_to_rotmat", "meshmagick/mesh.py:_rodrigues", "meshmagick/mesh.py:_cardan"]}
{"id": "C35", "title": "Cardan angles round trip", "statement": "cardan_to_rotmat(rotmat_to_cardan(R)) = R for every rotation matrix including gimbal lock, and rotmat_to_cardan(cardan_to_rotmat(phi, theta, psi)) = (phi, theta, psi) for angles in the principal ranges.", "quantifier": "every rotation matrix; every triple of principal angles", "why_tests_cant": "Singular cases have measure zero.", "anchors": ["meshmagick/rotations.py:rotmat_to_cardan", "meshmagick/rotations.py:cardan_to_rotmat"]}
{"id": "C36", "title": "Quaternions round trip and consistency", "statement": "quat_to_rotmat(rotmat_to_quat(R)) = R for every rotation matrix, rotmat_to_quat(quat_to_rotmat(q)) = q or -q for every unit quaternion, opposite quaternions give the same matrix, and quat_to_rotmat(cardan_to_quat(a)) = cardan_to_rotmat(a).", "quantifier": "every rotation matrix, unit quaternion and angle triple, whichever of the four branches is taken", "why_tests_cant": "Four-branch algorithm; all real inputs.", "anchors": ["meshmagick/rotations.py:rotmat_to_quat", "meshmagick/rotations.py:quat_to_rotmat", "meshmagick/rotations.py:cardan_to_quat"]}
{"id": "C37", "title": "Axis-angle conversions", "statement": "axis_angle_to_quat(quat_to_axis_angle(q)) represents the same rotation as q, and quat_to_axis_angle(axis_angle_to_quat(n, a)) = (n, a) for angles in (0, 2 pi) away from the small-angle threshold.", "quantifier": "every unit quaternion, unit axis and angle", "why_tests_cant": "Threshold behaviour near the identity.", "anchors": ["meshmagick/rotations.py:quat_to_axis_angle", "meshmagick/rotations.py:axis_angle_to_quat"]}
{"id": "C38", "title": "Inertia transport", "statement": "Changing the reduction point follows the parallel axis theorem: the inertia at P is the inertia at the centre of gravity plus mass times (d.d I - d d^T); going to P and back to the centre of gravity restores the matrix; changing reduction point through any sequence of points gives the same result as going directly to the last one.", "quantifier": "every mass, centre of gravity, inertia matrix and every history of reduction points", "why_tests_cant": "Histories are unbounded.", "anchors": ["meshmagick/inertia.py:RigidBodyInertia.shift_at_cog", "meshmagick/inertia.py:RigidBodyInertia.reduction_point", "meshmagick/inertia.py:RigidBodyInertia._huygens_transport"]}
{"id": "C39", "title": "Inertia of standard shapes", "statement": "The moments returned by each shape constructor equal the moments of the homogeneous body of that shape; degenerate parameters give the simpler shape (hollow with zero inner radius is solid, ellipsoid with equal axes is a sphere, and so on); each diagonal moment is at most the sum of the other two.", "quantifier": "all positive dimensions and densities", "why_tests_cant": "Identities between integrals and closed forms over all dimensions.", "anchors": ["meshmagick/inertia.py:right_circular_cylinder", "meshmagick/inertia.py:hollow_right_circular_cylinder", "meshmagick/inertia.py:sphere", "meshmagick/inertia.py:hollow_sphere", "meshmagick/inertia.py:hemisphere", "meshmagick/inertia.py:ellipsoid", "meshmagick/inertia.py:rectangular_prism", "meshmagick/inertia.py:right_angle_wedge"]}
{"id": "C40", "title": "Partition of the faces by the clipping plane", "statement": "Each face of the input mesh goes to exactly one of the upper, crown and lower meshes: upper when no corner is below or on the plane, lower when none is above or on, crown otherwise; a mesh entirely above or below the plane raises an error that tells which.", "quantifier": "every mesh with valid indices, every plane and non-negative vicinity tolerance", "why_tests_cant": "Universal over classification patterns.", "anchors": ["meshmagick/mesh_clipper.py:MeshClipper._vertices_positions_wrt_plane", "meshmagick/mesh_clipper.py:MeshClipper._partition_mesh"]}
{"id": "C41", "title": "Clipping leaves nothing above the plane", "statement": "Every vertex of every face of the clipped mesh is at signed distance to the plane at most the vicinity tolerance (plus the merge tolerances).", "quantifier": "every mesh with valid indices of triangles and convex planar quadrangles, every plane, every non-negative tolerance", "why_tests_cant": "Twenty-odd face cases times all vertex orders and positions.", "anchors": ["meshmagick/mesh_clipper.py:MeshClipper._clip_crown_by_plane"]}
{"id": "C42", "title": "Clipping handles every face", "statement": "MeshClipper never fails with 'clipping case not known' whatever the position of the corners of a face with respect to the plane.", "quantifier": "every face (triangle or quadrangle), every position of its corners, every vicinity tolerance", "why_tests_cant": "Some patterns occur only for corners at distance exactly the tolerance or special alignments.", "anchors": ["meshmagick/mesh_clipper.py:MeshClipper._clip_crown_by_plane", "meshmagick/mesh_clipper.py:MeshClipper._vertices_positions_wrt_plane"]}
{"id": "C43", "title": "Each clipped face is the part of the face below the plane", "statement": "For a face whose corners are all strictly above or below (outside the vicinity tolerance), the polygons emitted by the clipper cover exactly the part of the face under the plane, with the orientation of the face.", "quantifier": "every triangle and convex planar quadrangle crossing the plane", "why_tests_cant": "Universal over geometry.", "anchors": ["meshmagick/mesh_clipper.py:MeshClipper._clip_crown_by_plane"]}
{"id": "C44", "title": "Intersection polygons", "statement": "Each closed polygon returned by the clipper is a closed chain of consecutive intersection edges, each intersection edge is used exactly once over all closed polygons and open lines, and an error is raised iff an open line remains when closed boundaries are asserted.", "quantifier": "every set of intersection edges", "why_tests_cant": "Graph traversal by dictionary pops over all edge sets.", "anchors": ["meshmagick/mesh_clipper.py:MeshClipper._clip_crown_by_plane"]}
{"id": "C45", "title": "Clipping a watertight mesh gives closed waterlines", "statement": "If the mesh is watertight and consistently oriented with no vertex in the vicinity of the plane then the intersection edges form closed polygons only, so clipping never fails with 'open intersection polygons'.", "quantifier": "every watertight triangle mesh of any size, every plane in general position", "why_tests_cant": "Global combinatorial property of meshes of unbounded size.", "anchors": ["meshmagick/mesh_clipper.py:MeshClipper._clip_crown_by_plane"]}
{"id": "C46", "title": "Waterplane moments", "statement": "The six line sums used for the waterplane equal the area, first moments and second moments (x, y, xy, x2, y2) of the intersection polygons.", "quantifier": "every polygon (any number of vertices)", "why_tests_cant": "Polynomial identity; wrong terms cancel on symmetric hulls.", "anchors": ["meshmagick/hydrostatics.py:compute_hydrostatics"]}
{"id": "C47", "title": "Hydrostatic stiffness", "statement": "The stiffness matrix returned is symmetric, its heave term is rho g times the waterplane area, the flotation centre is the centroid of the waterplane, and translating the hull horizontally does not change the stiffness expressed at the centre of gravity.", "quantifier": "every closed immersed hull, density and gravity", "why_tests_cant": "Universal over hulls.", "anchors": ["meshmagick/hydrostatics.py:compute_hydrostatics"]}
{"id": "C48", "title": "Displacement equilibrium", "statement": "displacement_equilibrium returns a vertical correction for which the displacement matches the requested one within reltol; it always terminates; when the hull leaves or sinks below the free surface during iterations the correction is brought back instead of failing.", "quantifier": "every hull (any displacement function), every target displacement and tolerance", "why_tests_cant": "Iterative algorithm with arbitrary hull response.", "anchors": ["meshmagick/hydrostatics.py:displacement_equilibrium"]}
{"id": "C49", "title": "Full equilibrium", "statement": "full_equilibrium always terminates; the rotation it returns is a rotation matrix; each iteration moves by at most the relaxation limits; if it stops on convergence the residual criterion holds at the returned position.", "quantifier": "every hull response, every solver result", "why_tests_cant": "Iterative algorithm with arbitrary responses.", "anchors": ["meshmagick/hydrostatics.py:full_equilibrium"]}
{"id": "C50", "title": "Old hydrostatics: units and rigid coupling", "statement": "In Hydrostatics (old solver) the mass given in tons is the mass read back; gravity centre and external force application points move rigidly with the mesh through any sequence of set_displacement and equilibrate; reset restores the initial configuration.", "quantifier": "every history of calls", "why_tests_cant": "Histories and aliasing.", "anchors": ["meshmagick/hydrostatics_old.py:Hydrostatics.__init__", "meshmagick/hydrostatics_old.py:Hydrostatics.mass", "meshmagick/hydrostatics_old.py:Hydrostatics.gravity_center", "meshmagick/hydrostatics_old.py:Hydrostatics.reset", "meshmagick/hydrostatics_old.py:Hydrostatics.set_displacement", "meshmagick/hydrostatics_old.py:Force.update"]}
{"id": "C51", "title": "MAR files round trip", "statement": "Loading a written MAR file gives back the same faces and the same vertices rounded to 6 decimals.", "quantifier": "every mesh with valid indices and at least one face", "why_tests_cant": "Fixed-width columns fuse for large numbers; all sizes must be covered.", "anchors": ["meshmagick/mmio.py:write_MAR", "meshmagick/mmio.py:load_MAR"]}
{"id": "C52", "title": "NAT files round trip", "statement": "Loading a written NAT file gives back the same faces and the same vertices rounded to 6 decimals.", "quantifier": "every mesh", "why_tests_cant": "Header counts and fixed-width columns go wrong only for particular sizes.", "anchors": ["meshmagick/mmio.py:write_NAT", "meshmagick/mmio.py:load_NAT"]}
{"id": "C53", "title": "NEM files round trip", "statement": "Loading a written NEM (Nemoh1 mesh) file gives back the same faces and the same vertices rounded to 6 decimals.", "quantifier": "every mesh", "why_tests_cant": "All sizes and coordinates.", "anchors": ["meshmagick/mmio.py:write_NEM", "meshmagick/mmio.py:load_NEM"]}
{"id": "C54", "title": "GDF files round trip", "statement": "Writing a GDF file and loading it terminates and gives back faces with the same corner coordinates rounded to 6 significant decimals.", "quantifier": "every mesh, in particular with few faces", "why_tests_cant": "Termination of the loader and header counts fail only for particular sizes.", "anchors": ["meshmagick/mmio.py:write_GDF", "meshmagick/mmio.py:load_GDF"]}
{"id": "C55", "title": "PNL files round trip", "statement": "Loading a written PNL (HAMS) file gives back the same faces and the same vertices rounded to 6 decimals.", "quantifier": "every mesh with valid indices", "why_tests_cant": "All sizes and face patterns.", "anchors": ["meshmagick/mmio.py:write_PNL", "meshmagick/mmio.py:load_PNL"]}
{"id": "C56", "title": "Writers do not modify the mesh", "statement": "write_mesh leaves the vertices and faces passed by the caller unchanged, whatever the format.", "quantifier": "every mesh and format", "why_tests_cant": "In-place modification depends on the presence of quadrangles.", "anchors": ["meshmagick/mmio.py:write_STL", "meshmagick/mmio.py:write_mesh"]}
{"id": "C57", "title": "VTK in-memory conversion round trip", "statement": "Dumping the vtk object built from a mesh gives back the same vertices and, for faces in canonical form, the same faces; degenerate faces are converted to triangles.", "quantifier": "every mesh", "why_tests_cant": "All face patterns.", "anchors": ["meshmagick/mmio.py:_dump_vtk", "meshmagick/mmio.py:_build_vtkPolyData", "meshmagick/mmio.py:_build_vtkUnstructuredGrid"]}
{"id": "C58", "title": "Node numbering is honoured by loaders", "statement": "Loading a file whose nodes carry arbitrary distinct identifiers gives faces whose corners are the coordinates of the identified nodes.", "quantifier": "every numbering (any order, with gaps)", "why_tests_cant": "Files with contiguous numbering hide the defect.", "anchors": ["meshmagick/mmio.py:load_DAT", "meshmagick/mmio.py:load_MSH", "meshmagick/mmio.py:_load_MSH22", "meshmagick/mmio.py:load_RAD", "meshmagick/mmio.py:load_INP"]}
{"id": "C59", "title": "Format dispatch", "statement": "Every format name listed in extension_dict has a loader and a writer entry, aliases of a format share the same pair, load_mesh/write_mesh of an unknown extension raise, and the lookup ignores case.", "quantifier": "every string", "why_tests_cant": "All strings.", "anchors": ["meshmagick/mmio.py:extension_dict", "meshmagick/mmio.py:load_mesh", "meshmagick/mmio.py:write_mesh"]}
{"id": "C60", "title": "Densities", "statement": "get_density accepts every medium returned by list_medium in any letter case and raises for any other string; all densities are positive.", "quantifier": "every string", "why_tests_cant": "All strings.", "anchors": ["meshmagick/densities.py:get_density", "meshmagick/densities.py:list_medium"]}
{"id": "C61", "title": "Order of command line operations", "statement": "Whatever the order and combination of the geometric options given on the command line, the resulting vertices are: translate (vector then x, y, z), then rotate (vector then x, y, z), then scale (global then x, y, z), applied in that order.", "quantifier": "every combination of options and values", "why_tests_cant": "Exponential number of combinations.", "anchors": ["meshmagick/cli.py:main"]}
{"id": "C62", "title": "Plane arguments of the command line", "statement": "A plane argument is either one of the six key words, the index of a plane defined with -p or four scalars; anything else raises; the plane used has the documented normal and offset.", "quantifier": "every argument list and every list of defined planes", "why_tests_cant": "All strings.", "anchors": ["meshmagick/cli.py:main"]}
{"id": "C63", "title": "Hydrostatics mode selection", "statement": "Depending on which of displacement, cog and zcog options are given exactly the documented hydrostatics computation is run and inconsistent combinations are rejected.", "quantifier": "every combination of options", "why_tests_cant": "Decision table with interactions.", "anchors": ["meshmagick/cli.py:main"]}
{"id": "C64", "title": "The frame stored by a plane follows its normal", "statement": "After construction and any sequence of modifications of a Plane, the rotation matrix it stores is a rotation which sends the vertical axis to the plane normal.", "quantifier": "every history of plane modifications", "why_tests_cant": "histories are unbounded and the angles are real numbers", "anchors": ["meshmagick/mesh.py:Plane.rotate_normal", "meshmagick/mesh.py:Plane.normal"]}
{"id": "C65", "title": "remove_degenerated_faces removes exactly the small faces", "statement": "For rtol > 0, remove_degenerated_faces(rtol) leaves the vertices unchanged, removes exactly the faces whose area is below rtol times the mean area and keeps the other faces in their order; for rtol at most 1 it never removes all faces; rtol <= 0 raises.", "quantifier": "every mesh with valid indices, every rtol, whatever was cached", "why_tests_cant": "All meshes and tolerances; a threshold compared with a mean of all areas.", "anchors": ["meshmagick/mesh.py:Mesh.remove_degenerated_faces"]}
{"id": "C66", "title": "heal_mesh is the composition of its five repairs", "statement": "Whatever was queried before, heal_mesh leaves the mesh obtained by remove_unused_vertices, remove_degenerated_faces, merge_duplicates, heal_triangles and heal_normals applied in that order to freshly built meshes.", "quantifier": "every mesh with valid indices and every cache content that is up to date", "why_tests_cant": "The caches written before the call are read by the repairs; all histories.", "anchors": ["meshmagick/mesh.py:Mesh.heal_mesh"]}
{"id": "C67", "title": "set_plane_parameters rotates a plane about its point on the vertical axis", "statement": "plane.set_plane_parameters(scalar, theta_x, theta_y) replaces a plane that meets the vertical axis by its rotation about that point, by the rotation vector (theta_x, theta_y, 0), translated by scalar along the new normal.", "quantifier": "every plane, every scalar and every pair of angles", "why_tests_cant": "the planes and the angles are real numbers", "anchors": ["meshmagick/mesh.py:Plane.set_plane_parameters"]}
{"id": "C68", "title": "Old equilibrate always terminates", "statement": "Hydrostatics.equilibrate (old solver) returns or raises after finitely many iterations when max_iterations >= 2, at most max(1, max_restart) * (max_iterations - 1) + 1 passes of its loop, although the loop is a while True.", "quantifier": "every hull, set of forces, random restart, linear solver, parameters with max_iterations >= 2", "why_tests_cant": "Termination over all inputs and random draws.", "anchors": ["meshmagick/hydrostatics_old.py:Hydrostatics.equilibrate"]}
{"id": "C69", "title": "Clipping commutes with translations", "statement": "Clipping a translated mesh by the translated plane gives the translated clipped mesh, with the same faces, numbering and intersection polygons, or raises the same exception.", "quantifier": "every valid mesh, plane, tolerance, translation", "why_tests_cant": "All meshes and all translations; the merge of vertices sorts coordinates and could depend on the position.", "anchors": ["meshmagick/mesh_clipper.py:MeshClipper", "meshmagick/tools.py:merge_duplicate_rows"]}
{"id": "C70", "title": "Submerged length, breadth and draught", "statement": "length_overall_submerged, breadth_overall_submerged and draught of compute_hydrostatics are the extents of the immersed part of the hull.", "quantifier": "every hull and position", "why_tests_cant": "Hull shapes are unbounded; tests use wall-sided hulls for which unused vertices do not matter.", "anchors": ["meshmagick/hydrostatics.py:compute_hydrostatics", "meshmagick/mesh_clipper.py:MeshClipper.clipped_mesh", "meshmagick/mesh.py:Mesh.axis_aligned_bbox"]}
{"id": "C71", "title": "Length between perpendiculars given on the command line", "statement": "The length given with --lpp, or the position of the aft perpendicular announced with --orig-at-ap, is used in the hydrostatic report; without them the length of the waterline is used and marked as an estimate.", "quantifier": "every mesh and combination of options", "why_tests_cant": "All combinations of options.", "anchors": ["meshmagick/cli.py:main", "meshmagick/hydrostatics.py:compute_hydrostatics"]}
{"id": "C72", "title": "Inertia printed by the program", "statement": "Whatever the operations requested on the command line, the inertia printed are those of the mesh resulting from all of them, whatever was computed and cached on the way.", "quantifier": "every combination of options, every mesh", "why_tests_cant": "Interaction of a cache with any sequence of operations.", "anchors": ["meshmagick/cli.py:main", "meshmagick/mesh.py:Mesh.eval_plain_mesh_inertias", "meshmagick/mesh.py:Mesh.eval_shell_mesh_inertias"]}
{"id": "C73", "title": "Triangles of a file are triangles of the mesh", "statement": "A triangular panel of a file is loaded as a face that Mesh counts as a triangle.", "quantifier": "every file and every triangular panel", "why_tests_cant": "Depends on conventions spread over all loaders; must hold for every panel.", "anchors": ["meshmagick/mmio.py:load_PNL", "meshmagick/mmio.py:load_MSH", "meshmagick/mmio.py:load_RAD", "meshmagick/mmio.py:load_DAT", "meshmagick/mesh.py:Mesh.triangles_ids"]}
{"id": "C74", "title": "STL files describe the same surface", "statement": "The STL writer accepts every mesh and writes exactly the triangles of its faces, quadrangles being cut into two triangles along their first diagonal.", "quantifier": "every mesh, with any mixture of triangles and quadrangles", "why_tests_cant": "All mixtures and orders of faces.", "anchors": ["meshmagick/mmio.py:write_STL"]}
{"id": "C75", "title": "The clipped mesh and its boundary polygons close up", "statement": "After clipping a watertight mesh by a plane, the clipped mesh together with the boundary polygons returned by the clipper bound a closed body: every edge of the clipped mesh or of a polygon is balanced by an edge with the same end points in the opposite direction, the polygons are exactly the section of the mesh by the plane, and no gap opens between faces that were cut and faces that were kept.", "quantifier": "every watertight mesh of triangles and quadrangles, every plane, every tolerance", "why_tests_cant": "The cut faces, the merged crown and the kept faces are assembled by three different steps with two different merge tolerances; that they fit together concerns every edge of every mesh.", "anchors": ["meshmagick/mesh_clipper.py:MeshClipper.clip", "meshmagick/mesh_clipper.py:MeshClipper._clip_crown_by_plane", "meshmagick/mesh_clipper.py:MeshClipper._compute_clipped_crown_boundary", "meshmagick/tools.py:merge_duplicate_rows"]}
{"id": "C76", "title": "The file written by the command line", "statement": "A run of the command line program writes a file if and only if an output file or an output format is given. The file is the output file given, otherwise the input file with the output format for extension; its format is the output format given, otherwise the one of its extension, whatever the letter case; it contains the mesh at the end of the run; and the input file is not overwritten unless it is given as the output file.", "quantifier": "every input file name with an extension, every combination of options, every environment in which the run ends without exception", "why_tests_cant": "The name, the format and the content of the file depend on the combination of two options and of the shape of the name of the file; tests fix them.", "anchors": ["meshmagick/cli.py:main"]}
{"id": "C77", "title": "Options given several times", "statement": "The options --clip-by-plane, --symmetrize and --plane may be given any number of times and all their values are used, in the order of the command line: the mesh is clipped by all the planes one after the other. The other options with values keep the last value given.", "quantifier": "every list of options", "why_tests_cant": "It concerns lists of options of any length in any order.", "anchors": ["meshmagick/cli.py:get_parser", "meshmagick/cli.py:main"]}
{"id": "C78", "title": "Clipping makes no degenerate face", "statement": "If no triangle of the mesh is degenerate and its quadrangles are plane and strictly convex, no face of the clipped mesh is degenerate: each triangle has a non zero area and each quadrangle is plane and strictly convex, so that every normal of the result is defined.", "quantifier": "every mesh, plane, tolerance and sorting routine, the vertices being out of the tolerance band and the points involved being well separated", "why_tests_cant": "it depends on which of the fifteen position types each face falls in, and on the geometry of the face; tests try a few faces", "anchors": ["meshmagick/mesh_clipper.py: MeshClipper.clip, MeshClipper._partition_mesh", "meshmagick/mesh.py: Mesh.faces_normals"]}
{"id": "C79", "title": "Archimedes' principle", "statement": "For a watertight hull, when compute_hydrostatics returns, the force of the hydrostatic pressure of the water on the hull (minus the integral of p n over the part of the hull below z = 0) is vertical and equals the displaced mass returned times gravity, and the moment of the pressure about the origin is the moment of this force applied at the buoyancy centre returned (placed in the working position).", "quantifier": "every watertight hull with plane strictly convex faces, every position (rotation and immersion), density, gravity, option and sorting routine, vertices out of the tolerance band of the free surface", "why_tests_cant": "it relates, for every hull and attitude, an integral over the hull to numbers computed by cutting faces, merging vertices and summing closed-form integrals; tests compare a few hulls with reference values", "anchors": ["meshmagick/hydrostatics.py: compute_hydrostatics", "meshmagick/mesh_clipper.py: MeshClipper", "meshmagick/mesh.py: Mesh.eval_plain_mesh_inertias, Mesh.volume"]}
{"id": "C80", "title": "The stiffness matrix is the variation of the restoring force and moments", "statement": "For a watertight hull floating with its displaced mass, each coefficient of the 3x3 stiffness matrix returned by compute_hydrostatics (heave, roll, pitch) is minus the derivative of the vertical force, roll moment and pitch moment, exerted by gravity and by the hydrostatic pressure on the hull, with respect to a heave, a roll and a pitch of the body, about the origin of the working frame or, with at_cog, about the vertical of the buoyancy centre (coefficients below 1e-4 are set to zero).", "quantifier": "every watertight hull with plane strictly convex faces, every position, gravity centre, density, gravity, option and sorting routine; small motions in the sense of the derivative", "why_tests_cant": "the derivative is a limit over motions of an integral over the hull, related to sums over the edges of the waterline; tests compare with reference values on a few hulls", "anchors": ["meshmagick/hydrostatics.py: compute_hydrostatics", "meshmagick/mesh_clipper.py: MeshClipper"]}
{"id": "C81", "title": "Return codes of the equilibrium solver mean what they say", "statement": "The solver for equilibrium of the (old) hydrostatics object returns 0, 1 or 2. With 1 or 2, the weight, the pressure of the water on the hull and the added forces balance at the position reached, within the relative tolerance. With 1 this position is stable: a small heave, roll or pitch gives a restoring load. With 2 it is not. After any return the gravity centre is on the vertical axis.", "quantifier": "every mesh, gravity centre, mass, set of added forces, solver settings, random restarts and linear solver", "why_tests_cant": "The position reached depends on an iteration over all meshes and on random restarts; a test sees a few trajectories.", "anchors": ["meshmagick/hydrostatics_old.py:equilibrate", "meshmagick/hydrostatics_old.py:_compute_residual"]}
{"id": "C82", "title": "Hydrostatic data follow the current position", "statement": "After the constructor and any history of calls on the (old) hydrostatics object (changing gravity, density, mass, gravity centre, adding forces, setting the displacement, resetting, equilibrating), the hydrostatic data it gives are those of its mesh at its current position with the current parameters.", "quantifier": "every mesh and every finite history of calls which return", "why_tests_cant": "Histories are unbounded; the staleness shows only after some orders of calls.", "anchors": ["meshmagick/hydrostatics_old.py:_update_hydrostatic_properties", "meshmagick/hydrostatics_old.py:equilibrate", "meshmagick/hydrostatics_old.py:reset"]}
{"id": "C83", "title": "Options which edit the mesh, and their order", "statement": "A run of the program with any combination of the options which concatenate a file, merge duplicate nodes, mirror, symmetrize (several times, Oxz by default), translate, rotate, scale, flip the normals and triangulate quadrangles succeeds on well-formed meshes with valid values and ends with the mesh of the file edited in this order: faces of the other file added, no corner moved more than the tolerance, reflection through the coordinate plane given, reflected faces added for each plane, moves, normals flipped, quadrangles split, the split with the best aspect ratios being kept.", "quantifier": "every pair of meshes, every combination and order of these options, every number of symmetrizations", "why_tests_cant": "The combinations of options and the meshes are unbounded; tests run single options on sample files.", "anchors": ["meshmagick/cli.py:main", "meshmagick/mesh.py:Mesh.symmetrize", "meshmagick/mesh.py:Mesh.mirror", "meshmagick/mesh.py:Mesh.triangulate_quadrangles"]}
{"id": "C84", "title": "GDF files are read whatever the layout of the numbers", "statement": "A GDF file is loaded with the right corners however the twelve numbers of its panels are laid out on lines, and a truncated file is refused.", "quantifier": "every GDF text: every number of panels, every way to break the numbers into lines, every point where the file is cut", "why_tests_cant": "Layouts and cut points are unbounded; sample files have one layout.", "anchors": ["meshmagick/mmio.py:load_GDF"]}
{"id": "C85", "title": "Displacement, buoyancy centre and inertia are those of the immersed body", "statement": "The displaced volume, the buoyancy centre and the inertia returned by compute_hydrostatics are the volume, the centroid and the inertia tensor at the gravity centre of the solid bounded by the wetted hull and the free surface.", "quantifier": "every watertight hull with convex faces, every position, density and gravity centre", "why_tests_cant": "The integrals are over solids with any number of faces; tests compare with a few closed forms.", "anchors": ["meshmagick/hydrostatics.py:compute_hydrostatics", "meshmagick/inertia.py:RigidBodyInertia", "meshmagick/mesh.py:eval_plain_mesh_inertias"]}
{"id": "C86", "title": "Length and breadth at the waterline, forward perpendicular", "statement": "The length and the breadth at the waterline returned by compute_hydrostatics are the extents along x and y of the intersection of the hull with the free surface, and the forward perpendicular is the largest abscissa of this intersection, whatever the reference point asked for.", "quantifier": "every hull and position for which compute_hydrostatics returns, with and without at_cog", "why_tests_cant": "Hulls may be cut in any number of polygons; the sample hulls are centred on the origin, where a wrong reference point does not show.", "anchors": ["meshmagick/hydrostatics.py:compute_hydrostatics"]}
{"id": "C87", "title": "HST files give the mesh back", "statement": "A mesh saved to an HST file and loaded again has the same faces, and the same vertices in the same order up to the rounding of the seven printed digits.", "quantifier": "every mesh", "why_tests_cant": "The file is read with backtracking regular expressions: the outcome depends on every character, for any number of lines and any width of the numbers.", "anchors": ["meshmagick/mmio.py:load_HST", "meshmagick/mmio.py:write_HST"]}
{"id": "C88", "title": "TEC files give the mesh back", "statement": "A mesh saved to a TEC file and loaded again has the same faces, and the same vertices in the same order up to the rounding of the seven printed digits.", "quantifier": "every mesh and every file name", "why_tests_cant": "The file is read with one regular expression whose groups must stop at the right place for any number and width of coordinates and indices, and which must skip any file name.", "anchors": ["meshmagick/mmio.py:load_TEC", "meshmagick/mmio.py:write_TEC"]}
{"id": "C89", "title": "DAT files give the mesh back", "statement": "A mesh saved to a DAT file and loaded again has the same panels, and the same vertices in the same order up to the rounding of the six printed digits.", "quantifier": "every mesh, file name and date; every DAT file for the sections read", "why_tests_cant": "Sections are found with regular expressions that may match inside names or fail on fused columns; panels and identifiers are unbounded.", "anchors": ["meshmagick/mmio.py:load_DAT", "meshmagick/mmio.py:write_DAT"]}
{"id": "C90", "title": "The corrections printed in the report give the position", "statement": "Applying to the initial mesh the corrections printed by the hydrostatic report, in the order given by its notes (rotation of the heel angle around X, of the trim angle around Y, then vertical translation), gives the position for which the hydrostatics are reported.", "quantifier": "every mesh, rotation, vertical correction, gravity centre and density for which compute_hydrostatics returns", "why_tests_cant": "The rotation is accumulated by the solver over any number of steps; an error shows only when heel and trim are mixed.", "anchors": ["meshmagick/hydrostatics.py:get_hydrostatic_report", "meshmagick/hydrostatics.py:full_equilibrium", "meshmagick/rotations.py:rotmat_to_cardan"]}
{"id": "C91", "title": "The hydrostatic report says what was computed", "statement": "Each line of the report shows, under its label and unit, the quantity computed, rounded to the digits shown; a direction is reported unstable exactly when its metacentric height is negative, and the length between perpendiculars is marked as not trusted exactly when it was neither given nor measured from the aft perpendicular.", "quantifier": "every set of hydrostatic data", "why_tests_cant": "All values, signs and magnitudes must print in columns that can be read back; tests look at one report at most.", "anchors": ["meshmagick/hydrostatics.py:get_hydrostatic_report"]}
{"id": "C92", "title": "Clipping gives the part of the solid under the plane, and the reversed plane the rest", "statement": "For a watertight mesh, the solid bounded by the clipped mesh and the plane is the part of the input solid under the plane: volume, first and second moments are the integrals over the input solid restricted to the points under the plane. Clipping by the plane with the opposite normal gives the complementary part, and the two parts add up to the whole.", "quantifier": "All meshes with convex faces, all planes with no vertex of the mesh within the tolerance, all polynomials of degree at most two", "why_tests_cant": "The integral over an arbitrary polyhedron cut by an arbitrary plane has no finite set of samples, and the claim is about every mesh", "anchors": ["meshmagick/mesh_clipper.py:MeshClipper", "meshmagick/mesh.py:Mesh.eval_plain_mesh_inertias"]}
{"id": "C93", "title": "Clipping keeps the area under the plane; wetted surface area", "statement": "The clipped mesh covers exactly the part of the surface under the plane: its area, and the integral over it of any polynomial of degree at most two, are those of the part of the input surface under the plane; the areas of the parts under and above the plane add up to the area of the input. The wetted surface area of compute_hydrostatics is the area of the hull under the free surface.", "quantifier": "All meshes with convex faces, watertight or not, all planes with no vertex within the tolerance, all positions of the hull", "why_tests_cant": "Area is a property of every mesh and plane; a test compares with a few closed forms", "anchors": ["meshmagick/mesh_clipper.py:MeshClipper", "meshmagick/hydrostatics.py:compute_hydrostatics", "meshmagick/mesh.py:Mesh.faces_areas"]}
{"id": "C94", "title": "The wetted surface closes on the waterplane", "statement": "For a watertight hull, the area vector of the part of the hull under the free surface is vertical and minus the waterplane area returned; the waterplane area is at most the wetted surface area.", "quantifier": "All watertight hulls, all positions, all options", "why_tests_cant": "Relates two outputs computed by different code paths (polygons of the intersection, faces of the clipped mesh) for every hull", "anchors": ["meshmagick/hydrostatics.py:compute_hydrostatics", "meshmagick/mesh_clipper.py:MeshClipper"]}
{"id": "C95", "title": "What is read from a clipper belongs to its current parameters", "statement": "At any time, the meshes, polygons and lines read from a MeshClipper are those of clipping its source mesh by its current plane with its current tolerance. Assigning the plane or the tolerance raises exactly when clipping raises, and then nothing of the previous run can be read. A clipper built without plane clips by z = 0. A clipper with the assertion of closed boundaries on has no open lines.", "quantifier": "All histories of constructions, assignments of plane and tolerance, changes of the flag, modifications of planes and meshes, with exceptions caught at any point, for any number of clippers sharing planes and meshes", "why_tests_cant": "Stale data appear only for particular interleavings of operations on shared objects", "anchors": ["meshmagick/mesh_clipper.py:MeshClipper.__init__,vicinity_tol,plane,_update,_clip,assert_closed_boundaries_on"]}
{"id": "C96", "title": "compute_hydrostatics returns exactly when the hull crosses the free surface", "statement": "For a watertight hull, compute_hydrostatics returns hydrostatic data exactly when some face of the hull, in its working position, has a corner under the free surface and either a corner above it or two corners on it; otherwise it raises an exception instead of returning data.", "quantifier": "every watertight hull with strictly convex faces, every position, density, gravity and option", "why_tests_cant": "Success over every hull and position cannot be settled by trying some; the clipper has many internal failure points (open curves, unknown cases, empty crown).", "anchors": ["meshmagick/hydrostatics.py:compute_hydrostatics", "meshmagick/mesh_clipper.py:MeshClipper"]}
{"id": "C97", "title": "VTK files give back every mesh", "statement": "The .vtk file written by write_VTK is accepted by any reader of the legacy ASCII VTK format; the reader finds the vertices in order rounded to six decimals, and the faces in order with three vertices for triangles and four for quadrangles; the announced counts and size are right.", "quantifier": "every mesh (any number of vertices and faces, any vertex numbers, any coordinates) and every date text", "why_tests_cant": "The text depends on every coordinate and every index; a test reads back a few meshes only, and counts that are wrong on a mix of triangles and quadrangles may be tolerated by one reader.", "anchors": ["meshmagick/mmio.py:write_VTK"]}
{"id": "C98", "title": "OBJ files give back every mesh", "statement": "The .obj file written by write_OBJ is made of comments, empty lines, v lines and f lines only; a reader of the format finds the vertices in order rounded to six decimals and the faces in order (numbered from 1) with three vertices for triangles and four for quadrangles.", "quantifier": "every mesh and every date text", "why_tests_cant": "Must hold for all coordinates and index widths (fields that overflow their width must not merge).", "anchors": ["meshmagick/mmio.py:write_OBJ"]}
{"id": "C99", "title": "STL files describe the surface of the mesh", "statement": "write_STL never raises on a mesh whose faces refer to existing vertices; a reader of the ASCII STL format finds, up to order, exactly the triangles of the faces (quadrangles cut along their first diagonal) with the corners in the same order to seven digits, and for triangles that are not flat the unit normal of the right-hand rule.", "quantifier": "every mesh with valid vertex numbers and coordinates in the floating point range", "why_tests_cant": "Fields are not separated by blanks in the format string: that numbers never merge, for every exponent and sign, is a universal statement.", "anchors": ["meshmagick/mmio.py:write_STL"]}
{"id": "C100", "title": "GMSH 2 files are read as their surface", "statement": "load_MSH on a GMSH version 2 ASCII file gives the nodes in order and one face per triangle then per quadrangle, whose corners are the positions of the element's nodes; elements of other types and other sections are ignored; version 4 goes to load_MSH41, any other version raises RuntimeError.", "quantifier": "every file: any nodes, any elements of any type with any tags, any other sections before, between and after, any number of lines", "why_tests_cant": "The loader searches the whole text with regular expressions (greedy, lazy, multi-line): that no other section, tag or element type can be taken for a panel is a statement on all texts.", "anchors": ["meshmagick/mmio.py:load_MSH", "meshmagick/mmio.py:load_MSH22"]}
{"id": "C101", "title": "RADIOSS files give their shell elements", "statement": "Loading a RADIOSS file gives the nodes of the file as vertices, in order, and one face per shell element, whose corners are the positions of the nodes of the element, whatever the blanks between columns, the key words, the comments and what follows the elements.", "quantifier": "all texts made of key word lines, node lines (number, three decimal numbers) and element lines (seven numbers), with any numbers of nodes, elements and blanks", "why_tests_cant": "The loader cuts the text with backtracking regular expressions, which must not start too early in the header, must not stop early, and must not mix node lines and element lines, for every content; tests try a few files.", "anchors": ["meshmagick/mmio.py:load_RAD"]}
{"id": "C102", "title": "Answers of the old hydrostatics after equilibrate", "statement": "When Hydrostatics.equilibrate (old solver) answers that it found an equilibrium, is_at_equilibrium() called next answers True, and isstable() answers True exactly when the code returned was 1.", "quantifier": "every mesh, mass, gravity centre, added forces, random restarts and linear solver", "why_tests_cant": "The residual is recomputed after a horizontal translation; tests use bodies centred on the axis.", "anchors": ["meshmagick/hydrostatics_old.py:Hydrostatics.equilibrate", "meshmagick/hydrostatics_old.py:Hydrostatics.is_at_equilibrium", "meshmagick/hydrostatics_old.py:Hydrostatics.isstable"]}
{"id": "C103", "title": "Cells of VTK and OBJ files", "statement": "Loading a VTK, VTP, VTU or OBJ file gives the points of the file in their order and one face for each cell, in the same order, with the points of the cell in the same order.", "quantifier": "everything the vtk readers can return", "why_tests_cant": "Tests load files made of triangles and quadrangles; lines, vertices and longer polygons are not tried.", "anchors": ["meshmagick/mmio.py:_dump_vtk", "meshmagick/mmio.py:load_VTU", "meshmagick/mmio.py:load_VTP", "meshmagick/mmio.py:load_VTK", "meshmagick/mmio.py:load_OBJ"]}
{"id": "C104", "title": "Loading STL files", "statement": "Loading an STL file gives one triangle for each facet, in the same order and with the same orientation, each corner within 1e-8 of the facet; equal corners of two facets become one vertex, and corners further apart than 1e-8 are not identified.", "quantifier": "every list of facets and every way the vtk reader shares points, every sort", "why_tests_cant": "The identification of corners depends on all the coordinates of the file.", "anchors": ["meshmagick/mmio.py:load_STL", "meshmagick/tools.py:merge_duplicate_rows"]}
{"id": "C105", "title": "Loading MED files", "statement": "Loading a MED file gives its nodes in their order, then its triangles and its quadrangles with the right nodes, whatever the order in which the entries of the file are visited.", "quantifier": "every list of entries of a HDF5 file, every order", "why_tests_cant": "The order of the visit and the other entries depend on the program which wrote the file.", "anchors": ["meshmagick/mmio.py:load_MED"]}
{"id": "C106", "title": "Loading GMSH files of version 4", "statement": "Loading a GMSH file of version 4 gives one face for each triangle and quadrangle, whose corners are the nodes having the tags written in the file.", "quantifier": "every answer of gmshparser", "why_tests_cant": "Tags can be any distinct numbers; the tests have consecutive ones.", "anchors": ["meshmagick/mmio.py:load_MSH41"]}
{"id": "C107", "title": "Loading an INP file gives the nodes and elements of its mesh file", "statement": "For every INP file that declares frames, one set of nodes placed by a frame and one or more sets of elements in one mesh file, in any order with comments and other key words, load_INP returns the nodes of the mesh file moved by the vector of the frame, and one face for each element of the sections called, whose corners are the nodes whose numbers are written, a triangle ending with its first node.", "quantifier": "All lists of lines, names, options, vectors and all mesh files: any numbers of nodes, sections and elements, any distinct node numbers, any column widths", "why_tests_cant": "The text is cut by regular expressions with greedy repetitions over lines; which lines are taken depends on the layout of the whole file, and sections are handed out by counters; tests read one or two files.", "anchors": ["meshmagick/mmio.py:load_INP"]}
{"id": "C108", "title": "Meshes share no array with each other nor with the program", "statement": "Meshes and the arrays of a program behave as values: an action which is not on a given mesh (an operation on another mesh, on a copy of it, on a mesh built from its vertices and faces, on a part extracted from it or a sum, or writing into the array it was built from) leaves that mesh exactly as it is with all it reports, and no constructor, setter or operation modifies an array which it was given.", "quantifier": "All programs: any sequence of array creations, array writings, constructions, copies, sums, extractions, assignments, operations and queries on any number of meshes", "why_tests_cant": "Sharing depends on the whole history of the arrays; tests try a few sequences on one or two meshes and rarely look at the other objects", "anchors": ["meshmagick/mesh.py:Mesh.__init__", "meshmagick/mesh.py:Mesh.copy", "meshmagick/mesh.py:Mesh.vertices", "meshmagick/mesh.py:Mesh.faces", "meshmagick/mesh.py:Mesh.extract_faces", "meshmagick/mesh.py:Mesh.__add__", "meshmagick/tools.py:merge_duplicate_rows"]}
{"id": "C109", "title": "Arrays obtained from a mesh are not modified by later operations", "statement": "An array obtained from mesh.vertices, mesh.faces, mesh.faces_areas, mesh.faces_normals or mesh.faces_centers keeps its content whatever is done to the mesh and to others afterwards.", "quantifier": "All programs, all meshes, all later sequences of actions", "why_tests_cant": "Whether an array is replaced or written depends on the operation, on what is cached and on what was done before", "anchors": ["meshmagick/mesh.py:Mesh.vertices", "meshmagick/mesh.py:Mesh.faces", "meshmagick/mesh.py:Mesh.translate_x", "meshmagick/mesh.py:Mesh.mirror", "meshmagick/mesh.py:Mesh.heal_triangles", "meshmagick/mesh.py:Mesh.heal_normals", "meshmagick/mesh.py:Mesh.triangulate_quadrangles", "meshmagick/mesh.py:Mesh.flip_normals"]}
{"id": "C110", "title": "The report of the Hydrostatics class says the hydrostatic data", "statement": "In the text returned by Hydrostatics.get_hydrostatic_report, every quantity of the hydrostatic data, the absolute and relative residuals of the force balance and the tolerance of the solver can be read back under their label, with the number of decimals or digits announced; the relative residual is the absolute one divided by the weight, and by the weight times the breadth and the length at the waterline for the moments.", "quantifier": "every state of a Hydrostatics object with finite data", "why_tests_cant": "the text depends on the values: columns of fixed width run into each other for some signs and magnitudes only", "anchors": ["meshmagick/hydrostatics_old.py:Hydrostatics.get_hydrostatic_report", "meshmagick/hydrostatics_old.py:Hydrostatics._scale"]}
{"id": "C111", "title": "The residual is the balance of the forces on the body", "statement": "The residual of a Hydrostatics object is the vertical component of the resultant, and the moments about the x and y axes, of the force returned by get_gravity_force, the force returned by get_buoyancy_force and the forces added by the user; without added force it vanishes exactly when the displaced mass is the mass and the buoyancy centre is on the vertical of the gravity centre.", "quantifier": "every state of a Hydrostatics object, every list of added forces", "why_tests_cant": "an identity between three methods over all states and all lists of forces", "anchors": ["meshmagick/hydrostatics_old.py:Hydrostatics.residual", "meshmagick/hydrostatics_old.py:Hydrostatics.get_gravity_force", "meshmagick/hydrostatics_old.py:Hydrostatics.get_buoyancy_force", "meshmagick/hydrostatics_old.py:Force.hs_force"]}
{"id": "C112", "title": "The text shown for a mesh gives its true counts and bounds", "statement": "str(mesh), which the command line prints with --info, shows on exactly one line each: the exact number of vertices, of faces, of triangles (first and last vertex numbers equal) and of quadrangles, and, rounded to 6 decimals, the least and greatest coordinates of the vertices along x, y and z (zeros for a mesh without vertices); the name is shown on its own line.", "quantifier": "every mesh, empty ones and meshes mixing triangles and quadrangles included, and every name without an end of line", "why_tests_cant": "the numbers printed depend on arbitrary meshes and arbitrarily large or small coordinates; a test sees a few texts", "anchors": ["meshmagick/mesh.py: Mesh.__str__", "meshmagick/mesh.py: Mesh.axis_aligned_bbox", "meshmagick/mesh.py: Mesh.nb_triangles", "meshmagick/cli.py: main (--info)"]}
{"id": "C113", "title": "Meshes of a session have distinct numbers and automatic names", "statement": "Over a session of constructions, copies, renamings, sums and extractions, meshes which are not copies have distinct ids (0, 1, 2, ... in order of creation), and a mesh made without a name gets a name that no other mesh of the session has, as long as the user does not give a name which is itself a number or mesh_ followed by a number.", "quantifier": "every finite sequence of operations on every choice of meshes and names", "why_tests_cant": "it is about all histories of a process-wide counter; a test plays one history", "anchors": ["meshmagick/mesh.py: Mesh._ids, Mesh.__init__, Mesh.copy, Mesh.name, Mesh.__add__, Mesh.extract_faces"]}
{"id": "C114", "title": "Axis and angle of a rotation matrix", "statement": "_get_axis_angle_from_rotation_matrix(R) returns the angle and the unit axis of the rotation: for the matrix of the rotation of an angle a in (0, pi) about a unit vector n (right-hand rule) it returns (a, n); for every rotation matrix which is not symmetric it returns an angle in (0, pi) and a unit vector such that R v is v turned by this angle about this vector, for every v; for symmetric ones (identity, half turns) it raises an error.", "quantifier": "all rotation matrices, all unit axes, all angles in (0, pi) (exact arithmetic)", "why_tests_cant": "a continuum of matrices", "anchors": ["meshmagick/mesh.py: _get_axis_angle_from_rotation_matrix"]}
{"id": "C115", "title": "VRML files are loaded entirely or refused", "statement": "load_WRL loads the geometry of a VRML 2.0 file: points and faces are those of the file; files of another version or without header are refused.", "quantifier": "every header, version and rest of the file, every list of shapes found by the vtk importer", "why_tests_cant": "files have arbitrarily many shapes, headers with any blanks; a test loads one file", "anchors": ["meshmagick/mmio.py: load_WRL, _dump_vtk"]}
{"id": "C116", "title": "at_cog gives the stiffness about the gravity centre", "statement": "compute_hydrostatics(..., at_cog=True) gives the hydrostatic stiffness about the axes through the gravity centre: the moments of the waterplane entering the heave-roll, heave-pitch, roll and pitch coefficients are taken about it.", "quantifier": "all hulls, positions, gravity centres and densities for which the function returns", "why_tests_cant": "the matrix is a function of a mesh and of a continuum of gravity centres; a test compares a few numbers at equilibrium positions, where the two centres are on the same vertical", "anchors": ["meshmagick/hydrostatics.py: compute_hydrostatics"]}
{"id": "C117", "title": "Merging duplicate rows in floating point", "statement": "When the differences are rounded as in floating-point arithmetic, merging the rows of an array with a tolerance that is a floating-point number behaves exactly like the exact algorithm with a tolerance between the one given and this one divided by (1 - u), u being the unit roundoff: merged rows differ by no more than this in every coordinate, identical rows are always merged, rows farther apart than this are kept, and the numbering is total, in range and onto.", "quantifier": "every rounding function that is monotone, odd and of relative error at most u < 1, every behaviour of argsort, every non-negative tolerance fixed by the rounding, every array", "why_tests_cant": "tests use a few arrays whose differences are exact or far from the tolerance", "anchors": ["meshmagick/tools.py merge_duplicate_rows"]}
{"id": "C118", "title": "Sorting vertices by a plane in floating point", "statement": "With rounded arithmetic the computed distance of a point to a plane differs from the true one by at most g S + u (|d| + g S); a point farther than this from the two planes at the vicinity tolerance is classified above, on or below as in exact arithmetic, and a mesh with only such vertices is refused in the same cases and cut into the same three parts as in exact arithmetic.", "quantifier": "every rounding of relative error at most u, every scalar product of relative error at most g (any order of summation), every plane, tolerance, point and mesh", "why_tests_cant": "tests use a few meshes far from the tolerance, on one machine with one BLAS", "anchors": ["meshmagick/mesh.py Plane.get_point_dist_wrt_plane", "meshmagick/mesh_clipper.py MeshClipper._vertices_positions_wrt_plane, _partition_mesh"]}
{"id": "C119", "title": "Cutting an edge in floating point", "statement": "With rounded arithmetic, an edge whose ends are classified on both sides of the plane, for a tolerance that exceeds the rounding errors of the scalar products, is cut without the error 'Intersection is outside the edge'; the point is within three rounding errors of a point of the edge and its distance to the plane is at most (g + eta (1 + 3 g) + omega) B, B bounding the absolute values involved.", "quantifier": "every rounding of relative error at most u < 1 that fixes 1, every two scalar products of relative error at most g, every plane and every edge", "why_tests_cant": "a raise caused by a parameter just above 1 would show only for particular roundings", "anchors": ["meshmagick/mesh.py Plane.get_edge_intersection", "meshmagick/mesh_clipper.py MeshClipper"]}
{"id": "C120", "title": "Merging points known up to an error", "statement": "Merging an array whose coordinates are those of an exact array up to an error e, with differences rounded and any sorting of ties, gives every vertex the same new number as merging the exact array exactly, provided no difference of two coordinates in a column lies within 2e (and a relative rounding) of the tolerance; the merged rows then differ by at most the tolerance plus e, and by at most e when the merged exact points are equal.", "quantifier": "every array of rows, every perturbation of size e, every rounding, every two argsorts, every tolerance that is a floating point number, every gap hypothesis", "why_tests_cant": "merging decides on differences of computed coordinates; tests use points which are well separated and cannot show for which point sets the roundings never change the connectivity", "anchors": ["meshmagick/tools.py:merge_duplicate_rows", "meshmagick/mesh.py:Mesh.merge_duplicates"]}
{"id": "C121", "title": "Clipping in floating point gives the same connectivity", "statement": "If no vertex is within rounding error of the two planes at the clipper's tolerance, and no coordinate difference between vertices and intersection points is within rounding error of the two merge tolerances, then clipping in floating point raises the same exception as in exact arithmetic or else gives the same faces, the same closed polygons and open lines, and vertices within an explicit bound e of the exact ones, whatever the order of summation of scalar products and the sorting of ties.", "quantifier": "every mesh, plane, tolerance, rounding function, implementation of scalar products and pair of argsorts, subject to the clearance and gap conditions", "why_tests_cant": "the control flow of the clipper depends on computed distances, computed points and two rounds of merging; tests only sample meshes on which roundings happen not to change it", "anchors": ["meshmagick/mesh_clipper.py:MeshClipper", "meshmagick/mesh.py:Plane.get_edge_intersection", "meshmagick/mesh.py:Mesh.merge_duplicates", "meshmagick/tools.py:merge_duplicate_rows"]}
{"id": "C122", "title": "Waterlines and displaced volume in floating point", "statement": "Clipping a watertight, consistently oriented mesh in floating point succeeds with closed waterlines only, under the clearance conditions of C121 and those of the exact property C45; and the volume enclosed between the clipped surface and the origin differs from that of the exact clip by at most 6 (R+e)^2 e per face, R bounding the coordinates and e the errors of the vertices.", "quantifier": "every watertight mesh, plane, tolerance, rounding, implementation of scalar products and argsort, under the stated conditions", "why_tests_cant": "the effect of roundings on the volume depends on all cut points at once and on decisions made on computed values; tests only compare a few hulls with loose tolerances", "anchors": ["meshmagick/mesh_clipper.py:MeshClipper", "meshmagick/mesh.py:Mesh.volume"]}
{"id": "C123", "title": "Displaced volume with corners close to the free surface", "statement": "For a watertight hull some corners of which lie within the tolerance of the clipper (1e-3) of the free surface, the displaced volume returned by compute_hydrostatics differs from the volume of the part of the hull under the free surface by at most the tolerance times the sum of the wetted area, the area of the hull and two thirds of the areas, seen from above, of the triangles that join the origin to the waterline edges.", "quantifier": "Every watertight hull with strictly convex faces, every position, density, gravity and option, corners at any height but exactly the tolerance", "why_tests_cant": "The clipper moves the waterline to the corners that are within the tolerance, so the result is not the exact volume; a test compares a few hulls to a few digits, the bound has to hold for every hull and every set of corners in the slab.", "anchors": ["meshmagick/hydrostatics.py:compute_hydrostatics", "meshmagick/mesh_clipper.py:MeshClipper"]}
{"id": "C124", "title": "Buoyancy centre with corners close to the free surface", "statement": "For a watertight hull some corners of which lie within the tolerance of the clipper (1e-3) of the free surface, the displaced volume times the buoyancy centre returned by compute_hydrostatics differs from the first moment of the part of the hull under the free surface by at most the tolerance times an explicit sum of the wetted area, the area of the hull and the breadths of the waterline edges (times the largest horizontal coordinate); vertically the error is at most half the square of the tolerance times the areas.", "quantifier": "Every watertight hull with strictly convex faces, every position, density, gravity and option, corners at any height but exactly the tolerance", "why_tests_cant": "The buoyancy centre enters the metacentric heights and the equilibrium; a test compares a few hulls, the bound has to hold for every hull and every set of corners in the slab.", "anchors": ["meshmagick/hydrostatics.py:compute_hydrostatics", "meshmagick/mesh_clipper.py:MeshClipper", "meshmagick/mesh.py:eval_plain_mesh_inertias"]}
{"id": "C125", "title": "Wetted surface area with corners close to the free surface", "statement": "For a hull some corners of which lie within the tolerance of the clipper (1e-3) of the free surface, the wetted surface area returned by compute_hydrostatics is at least the area of the part of the hull deeper than the tolerance and at most the area of the part not higher than the tolerance; it differs from the area under the free surface by at most the area of the hull in the slab. More generally the mesh kept by MeshClipper covers the surface under the slab and nothing above it.", "quantifier": "Every hull with strictly convex faces, watertight or not, every position, density, gravity and option, corners at any height but exactly the tolerance; every plane and tolerance for the clipper", "why_tests_cant": "Corners close to the plane are moved by the clipper from one side to the other; a test compares a few hulls, the bound has to hold for every hull and every set of corners in the slab.", "anchors": ["meshmagick/hydrostatics.py:compute_hydrostatics", "meshmagick/mesh_clipper.py:MeshClipper"]}
{"id": "C126", "title": "Printed inertia can be read back", "statement": "print(inertia) shows, each on its own line, the mass, the centre of gravity, the point at which the matrix is expressed and the three rows of the matrix, to seven significant digits: the columns never run into each other and a reader who splits the lines into words finds these numbers, in this order, and no others. The command line options --plain-inertia and --shell-inertia print the density to one decimal (and the thickness to three), the mass in tons and the centre of gravity to three decimals, the rows of the matrix and the point at which it is expressed to four digits.", "quantifier": "all masses, centres, points and matrices with entries in the range of floating point numbers (for the command line text: all values)", "why_tests_cant": "The widths and roundings must be right for every magnitude and sign of twelve and more numbers at once; tests print one inertia.", "anchors": ["meshmagick/inertia.py:RigidBodyInertia.__str__", "meshmagick/cli.py:main"]}
{"id": "C127", "title": "The command line reads its files in the format asked for", "statement": "Whatever the other options, a run reads its file with the reader of the last --input-format given, as typed, or else of the extension of the file in lower case. It stops with IOError when the file does not exist, when the format is unknown or when there is neither option nor extension, and with the exception of the reader when it raises one; in these cases nothing is written. The file given to --concatenate-file is read in the same format, whatever its extension. The letter case counts in a typed format only: hull.OBJ is read, --input-format OBJ is refused.", "quantifier": "all file names, files, lists of options in any order and with repetitions", "why_tests_cant": "The option list, the file names and the other options vary without bound; a test runs one command line.", "anchors": ["meshmagick/cli.py:main", "meshmagick/mmio.py:load_mesh", "meshmagick/mmio.py:extension_dict"]}
{"id": "C128", "title": "Volume and inertia are accurate in floating point", "statement": "For a mesh of n triangles, volume computed in floating point with relative roundings u differs from the volume delimited by the mesh by at most ((1+u)^(3n+11)-1) n L^2 R, where R bounds the coordinates and L the sides, in whatever order the terms are summed and whatever the accuracy of the norms of the vector products. The same holds for the mass, the centre of gravity and the matrix of eval_plain_mesh_inertias with bounds of the same kind, n+18 roundings on each term; the centre needs the error of the volume to be less than the volume.", "quantifier": "all meshes of triangles whose computed vector products have a non-zero norm, all roundings, all orders of summation", "why_tests_cant": "The accumulated rounding depends on the number of faces and on the sizes of all terms; tests compare a few volumes with a tolerance chosen by hand.", "anchors": ["meshmagick/mesh.py:Mesh.volume", "meshmagick/mesh.py:Mesh.eval_plain_mesh_inertias", "meshmagick/mesh.py:Mesh._compute_triangles_integrals"]}
{"id": "C129", "title": "Volume of a mesh with quadrangles, and displaced volume, in floating point", "statement": "For a mesh of non-degenerate triangles and plane quadrangles (diagonal from the first corner inside) with coordinates at most R, the volume computed in floating point differs from the volume delimited by the mesh by at most n R^3 (357 eps + 11 ((1+u)^(3n+1) - 1)), n being the number of faces, whatever the order in which the terms are added and as long as the norms have a relative error at most eps. When the mesh is the result of clipping in floating point (with the conditions of C121), the volume obtained is within that bound of the volume of the mesh clipped exactly.", "quantifier": "every mesh with real coordinates (strictly convex faces for the clipped one), every rounding of unit u <= eps <= 1/100, every order of summation, every plane and tolerance", "why_tests_cant": "the error is a bound over all meshes, roundings and orders of summation; a test compares one mesh on one machine", "anchors": ["meshmagick/mesh.py:Mesh.volume", "meshmagick/mesh.py:Mesh._compute_faces_integrals", "meshmagick/mesh.py:Mesh._compute_faces_properties", "meshmagick/mesh_clipper.py:MeshClipper"]}
{"id": "C130", "title": "Watertight meshes stay watertight", "statement": "A watertight mesh (each directed edge of its faces appears as often as the same edge the other way round) stays watertight through any sequence of operations of the mesh API: moves, rotations, scaling, flipping the normals, mirror, merging duplicate vertices with any tolerance, removing unused vertices, healing or triangulating faces, symmetrization, and reads of derived quantities. So is the sum of two watertight meshes. It is not so of remove_degenerated_faces, which drops thin faces and leaves holes.", "quantifier": "all meshes, all histories of operations except replacing the faces, remove_degenerated_faces, heal_normals and heal_mesh, all orders of ties in the sorts", "why_tests_cant": "Sequences of operations are unbounded and merging identifies vertices in ways which depend on all the coordinates.", "anchors": ["meshmagick/mesh.py:Mesh", "meshmagick/tools.py:merge_duplicate_rows"]}
{"id": "C131", "title": "Symmetrizing a half hull gives a watertight hull", "statement": "A half mesh which is open only along the plane of symmetry (each edge that is not balanced by the same edge the other way round has both ends on the plane) becomes watertight after symmetrize with this plane.", "quantifier": "all meshes with coordinates in an ordered field, all planes, all orders of ties in the sort", "why_tests_cant": "The merge of the vertices of the plane depends on every vertex and on the tie order.", "anchors": ["meshmagick/mesh.py:Mesh.symmetrize"]}
{"id": "C132", "title": "Exchange formats give back the mesh", "statement": "A mesh with at least one face written to STL and read again has the triangles of the mesh (quadrangles cut along the first diagonal), up to their order and with the same orientation; each vertex of the mesh becomes a single vertex, at 1e-8 plus the precision of the digits written and of the reader; and a watertight mesh is read as a watertight mesh. Written to VTK or OBJ and read again, a mesh whose faces have distinct corners has the same faces and the same vertices in the same order, to six decimals and the precision of the reader.", "quantifier": "all well-formed meshes with coordinates and normals within the range of floating point numbers, all dates without newline, all reading precisions", "why_tests_cant": "Formatting, cutting and merging interact for every choice of coordinates and faces.", "anchors": ["meshmagick/mmio.py:write_STL", "meshmagick/mmio.py:load_STL", "meshmagick/mmio.py:write_VTK", "meshmagick/mmio.py:write_OBJ", "meshmagick/mmio.py:_dump_vtk"]}
{"id": "C133", "title": "Motions in floating point", "statement": "After any sequence of n translations and rotations computed in floating point, each vertex is within ((1+39 delta)^n - 1) B of its exact position, B bounding the distances to the origin and delta the relative errors of the arithmetic, scalar products, cosines and sines; the distance of two vertices changes by at most twice that; and the volume computed afterwards for a watertight mesh with plane faces differs from the volume before the motions by at most F B^3 (357 eps + 11((1+u)^(3F+1)-1)), F being the number of faces and eps that bound relative to B.", "quantifier": "all meshes (watertight with plane faces for the volume), all sequences of motions, all roundings and orders of summation", "why_tests_cant": "The length of the history and the way roundings accumulate are unbounded; a test compares one or two rotations.", "anchors": ["meshmagick/mesh.py:Mesh.rotate", "meshmagick/mesh.py:Mesh.rotate_matrix", "meshmagick/mesh.py:Mesh.translate", "meshmagick/rotations.py:cardan_to_rotmat"]}
{"id": "C134", "title": "Saving and loading a mesh repeatedly does not make it drift", "statement": "Saving a mesh and loading it again, any number of times, in any sequence of the MAR, NEM, VTK and OBJ formats, by programs which read numbers with a given relative precision, always succeeds and always ends with the same faces in the same order and with the vertices of the first file (the vertices rounded to six decimals) as the last program reads them: the error is that of the last stage alone and does not grow with the number of conversions. The vertices end within one millionth of those of the original mesh.", "quantifier": "all meshes with at least one face, faces with distinct corners, coordinates at most b with relative precision times (b+1) below half a unit of the sixth decimal; all finite sequences of formats and of reading programs of that precision", "why_tests_cant": "the number of conversions is unbounded, and the rounding of each program and each coordinate differs; a test converts a few times", "anchors": ["meshmagick/mmio.py:write_MAR", "meshmagick/mmio.py:load_MAR", "meshmagick/mmio.py:write_NEM", "meshmagick/mmio.py:load_NEM", "meshmagick/mmio.py:write_VTK", "meshmagick/mmio.py:write_OBJ", "meshmagick/mmio.py:_dump_vtk"]}
{"id": "C135", "title": "Areas of faces and wetted area in floating point", "statement": "The area of each face and the total area of a mesh, computed in floating point with the areas added in any order, differ from the exact areas by at most a bound which tends to zero with the precision (proportional to the square of the size of the mesh and, for the total, to the number of faces), including for degenerate and for warped faces. The same holds for the wetted area, obtained by clipping the mesh in floating point and adding the areas of what remains, under the conditions of C121.", "quantifier": "all roundings of relative error u, all norms of relative error at most epsilon, all summation orders, all meshes and all meshes with vertices off by at most epsilon times the size; for the wetted area all meshes, planes and tolerances which meet the conditions of C121", "why_tests_cant": "the summation order and the rounding are not fixed by the code, and the errors depend on every coordinate; a test compares one value with a tolerance", "anchors": ["meshmagick/mesh.py:Mesh._faces_properties", "meshmagick/mesh.py:Mesh.faces_areas", "meshmagick/hydrostatics.py:compute_hydrostatics", "meshmagick/mesh_clipper.py:MeshClipper"]}
{"id": "C136", "title": "Mass, centre and inertia of any mesh in floating point", "statement": "For a closed mesh of triangles and plane quadrangles, the mass, the centre of gravity and the six inertia coefficients that eval_plain_mesh_inertias computes in floating point differ from the integrals over the body by at most explicit bounds that tend to 0 with the unit roundoff, whatever the order of the additions. The same holds of the displaced mass and of the centre of buoyancy of a mesh clipped in floating point.", "quantifier": "every mesh with plane faces and vertices in a cube of half side R, every rounding of relative error at most u, every order of summation, every density, every point of reference; for the clipped mesh every plane, tolerance and mesh meeting the separation conditions of C121", "why_tests_cant": "tests compare a few meshes with rounded reference values; they cannot bound the error for every mesh and every order of summation", "anchors": ["meshmagick/mesh.py:eval_plain_mesh_inertias", "meshmagick/mesh.py:_compute_faces_integrals", "meshmagick/hydrostatics.py:compute_hydrostatics"]}
{"id": "C137", "title": "The waterplane area and its moments are accurate in floating point", "statement": "The waterplane area, first moments and second moments that compute_hydrostatics derives from the clipping polygons, computed in floating point with every operation rounded, differ from the exact integrals over the polygons by at most an explicit bound proportional to the number of sides, to the size of the mesh and to the rounding error. The same holds when the mesh has been clipped in floating point: the polygons are those of the exact run and the sums are within the bound.", "quantifier": "every set of closed polygons and every mesh, plane and tolerance that keep clear of the decision thresholds, every rounding, every rounded dot product", "why_tests_cant": "A test compares a few waterplanes with a tolerance; the bound has to hold for every number of polygons and sides and for every rounding.", "anchors": ["meshmagick/hydrostatics.py:compute_hydrostatics", "meshmagick/mesh_clipper.py:MeshClipper"]}
{"id": "C138", "title": "Hydrostatic results are accurate in floating point", "statement": "The displaced volume and mass, the waterplane area, the metacentric radii and heights, the stiffness matrix and the centre of flotation that compute_hydrostatics returns in floating point, every operation being rounded from the clipping of the mesh to the coefficients, differ from those of exact arithmetic by at most explicit multiples of the relative error of the mass, of the centre of buoyancy and of the waterplane sums; the stiffness matrix is still symmetric.", "quantifier": "every mesh whose vertices keep clear of the decision thresholds of the clipper, every density, gravity and centre of gravity, every rounding, every rounded dot product and norm, every order of the sums over the faces", "why_tests_cant": "A test compares the results of a few hulls with a tolerance; the bound has to hold for every hull and every rounding.", "anchors": ["meshmagick/hydrostatics.py:compute_hydrostatics", "meshmagick/mesh_clipper.py:MeshClipper", "meshmagick/mesh.py:eval_plain_mesh_inertias"]}
{"id": "C139", "title": "Repeated conversions in formats with exponents do not drift", "statement": "A mesh saved and loaded any number of times in NAT, HST and TEC, in any order, by programs reading numbers in double precision, keeps its faces, and its vertices are those of the first mesh rounded once to seven significant digits, as read by the last program: the errors of the stages do not accumulate.", "quantifier": "every mesh with at least 3 vertices and 4 to 99999 faces, every coordinate in the range of double precision, every sequence of formats and reading programs of any length", "why_tests_cant": "A test saves and loads a few meshes once or twice; the property is about every sequence of conversions and about numbers just below a power of ten.", "anchors": ["meshmagick/mmio.py:write_NAT", "meshmagick/mmio.py:load_NAT", "meshmagick/mmio.py:write_HST", "meshmagick/mmio.py:load_HST", "meshmagick/mmio.py:write_TEC", "meshmagick/mmio.py:load_TEC"]}
{"id": "C140", "title": "Conversions between any text formats do not drift", "statement": "A mesh saved and loaded any number of times in MAR, NEM, VTK, OBJ, NAT, HST and TEC, in any order, keeps its faces, and each coordinate x ends within 1e-6 (1 + |x|) of its first value, whatever the number of conversions.", "quantifier": "every mesh with at least 3 vertices and 4 to 99999 faces and coordinates below 9999990, every sequence of formats and reading programs of any length", "why_tests_cant": "A test converts a few meshes a few times; the property is about every sequence of conversions between formats that round in different ways.", "anchors": ["meshmagick/mmio.py:write_mesh", "meshmagick/mmio.py:load_mesh", "meshmagick/cli.py:main"]}
{"id": "C141", "title": "Inertia of a shell in floating point", "statement": "eval_shell_mesh_inertias(rho, thickness), computed in floating point, returns the mass, the centre of gravity and the diagonal moments of inertia of a thin shell of surface density rho*thickness on the faces, up to an explicit error that tends to zero with the rounding unit and grows with the number of faces, the size of the mesh and the density only; the products of inertia are near those of the exact calculation. The faces may be degenerate or not plane; for the centre the area must exceed its error.", "quantifier": "every mesh of triangles and quadrangles, every density and thickness, every rounding of relative error at most u, every order of the sums, vertices off by at most eps R", "why_tests_cant": "tests compare one machine's result for a few meshes with a tolerance chosen by hand; they cannot show that no mesh, order of summation or rounding gives a larger error", "anchors": ["meshmagick/mesh.py:Mesh.eval_shell_mesh_inertias", "meshmagick/mesh.py:Mesh._compute_triangles_integrals", "meshmagick/mesh.py:Mesh._compute_faces_integrals"]}
{"id": "C142", "title": "Parallel axis theorem in floating point", "statement": "Setting the reduction point of an inertia expressed at its centre of gravity, in floating point, leaves mass and centre unchanged and gives the matrix of the parallel axis theorem up to 142 eps (J + M R^2), where M bounds the mass, J the matrix and R the coordinates of the centre and of the point.", "quantifier": "every inertia expressed at its centre of gravity, every point, every rounding and every scalar product of bounded relative error", "why_tests_cant": "a test checks a few bodies and points against a tolerance; cancellation and rounding depend on all the values", "anchors": ["meshmagick/inertia.py:RigidBodyInertia.reduction_point", "meshmagick/inertia.py:RigidBodyInertia.at_cog", "meshmagick/inertia.py:RigidBodyInertia._huygens_transport"]}
{"id": "C143", "title": "Area, mass, centre and inertia after rigid motions, in floating point", "statement": "After any sequence of translations and rotations done in floating point, the area computed in floating point is that of the mesh before the motions, and for a watertight mesh with flat faces the computed mass is that of the solid before the motions, the computed centre is the moved centre and the computed moments and products are those of the moved points of the solid, up to errors bounded by the unit roundoff, the number of motions, the number of faces and the largest distance from the origin.", "quantifier": "every sequence of motions, every mesh (watertight with flat faces that are not too small for the inertia), every rounding, scalar product, cosine and sine of bounded error", "why_tests_cant": "a test checks a few motions of a few meshes; the errors of the motions and of the sums accumulate with any number of motions and faces", "anchors": ["meshmagick/mesh.py:Mesh.rotate", "meshmagick/mesh.py:Mesh.translate", "meshmagick/mesh.py:Mesh.faces_areas", "meshmagick/mesh.py:Mesh.eval_plain_mesh_inertias"]}
{"id": "C144", "title": "Inertia of a shell after rigid motions, in floating point", "statement": "After any sequence of translations and rotations done in floating point, the mass of the shell computed in floating point is that of the mesh before the motions, its computed centre is the moved centre and its computed moments are those of the moved points of the faces, up to errors bounded by the unit roundoff, the number of motions, the number of faces and the largest distance from the origin.", "quantifier": "every sequence of motions, every mesh (open or closed) whose area is larger than the error of the area, every rounding, scalar product, cosine and sine of bounded error", "why_tests_cant": "a test checks a few motions of a few meshes; the errors of the motions and of the sums accumulate with any number of motions and faces", "anchors": ["meshmagick/mesh.py:Mesh.rotate", "meshmagick/mesh.py:Mesh.translate", "meshmagick/mesh.py:Mesh.eval_shell_mesh_inertias"]}
{"id": "C145", "title": "The text of a plane gives the plane", "statement": "The text of a plane contains exactly four numbers, in order the components of its normal and its scalar, each within half a unit of the sixth decimal; the plane read has the same signed distance to each point up to 5e-7 (|x|+|y|+|z|+1).", "quantifier": "every plane with finite components", "why_tests_cant": "a test prints a few planes; signs, roundings and carries depend on the values", "anchors": ["meshmagick/mesh.py:Plane.__str__"]}
{"id": "C146", "title": "quick_save writes one file named .vtp", "statement": "quick_save writes exactly one file: the name given when it ends with .vtp, the name given followed by .vtp otherwise, quick_save.vtp when no name (or an empty name) is given; it contains what the VTP writer makes of the mesh and no other file changes.", "quantifier": "every mesh, every name, every state of the files", "why_tests_cant": "a test tries a few names", "anchors": ["meshmagick/mesh.py:Mesh.quick_save"]}
{"id": "C147", "title": "Scalings multiply the volume by the factors, also in floating point", "statement": "A sequence of calls of scale, scalex, scaley and scalez succeeds exactly when all factors are positive; each coordinate is then multiplied by the product of the factors along its axis with a relative error at most (1+u)^n - 1 for n calls, the faces are unchanged, in exact arithmetic the volume of a mesh with flat faces is multiplied by the product of the factors along the three axes, and the volume computed in floating point is this value up to an error bounded by the unit roundoff, the number of calls and faces and the largest coordinate.", "quantifier": "every sequence of scalings, every mesh, every rounding of bounded relative error (for the volume: flat faces not too small)", "why_tests_cant": "a test scales a few meshes a few times; the errors accumulate with any number of calls and faces", "anchors": ["meshmagick/mesh.py:Mesh.scale", "meshmagick/mesh.py:Mesh.scalex", "meshmagick/mesh.py:Mesh.scaley", "meshmagick/mesh.py:Mesh.scalez", "meshmagick/mesh.py:Mesh.volume"]}
{"id": "C148", "title": "mirror in floating point", "statement": "mirror(plane), run in floating point with a plane whose stored unit normal is itself rounded, gives the mirrored mesh: the faces are exactly those of the mirrored mesh, every coordinate is that of the exact mirror image up to 57 eps R, and the volume then computed in floating point is that of the mesh before the call up to an explicit bound that goes to zero with the rounding unit.", "quantifier": "every mesh, every plane with unit normal and every rounding of it, every rounding function and every accurate dot product; for the volume every closed oriented mesh with plane convex faces that are not too small", "why_tests_cant": "a test compares a few meshes and planes with a tolerance chosen by hand; it cannot bound the rounding error for all of them", "anchors": ["meshmagick/mesh.py: Mesh.mirror", "meshmagick/mesh.py: Mesh.flip_normals", "meshmagick/mesh.py: Mesh.volume", "meshmagick/mesh.py: Plane.normal"]}
{"id": "C149", "title": "symmetrize in floating point", "statement": "symmetrize(plane), run in floating point with a plane whose stored unit normal is itself rounded, succeeds on every mesh with vertices and valid indices. The result has the faces of the mesh followed by their mirror images with reversed orientation, each corner within 57 eps R plus the merge tolerance of its ideal position; no two vertices of the result are equal; the exact mirror image of every vertex lies within 114 eps R plus the merge tolerance of a vertex of the result. For the plane Oxz the vertices with y = 0 are not doubled.", "quantifier": "every mesh, every plane with unit normal and every rounding of it, every rounding function, every accurate dot product and every sorting of ties", "why_tests_cant": "a test compares a few meshes and planes with a tolerance chosen by hand; it cannot bound the rounding error for all of them nor exclude doubled seam vertices", "anchors": ["meshmagick/mesh.py: Mesh.symmetrize", "meshmagick/mesh.py: Mesh.merge_duplicates", "meshmagick/tools.py: merge_duplicate_rows"]}
{"id": "C150", "title": "Planes given by any vector, in floating point", "statement": "Plane(n, c) accepts a normal of any length: in floating point the stored normal is that of the plane v.n = c |n| up to 2.1 delta per coordinate, whatever the length of n, and the scalar is c. Hence mesh.mirror(Plane(n, c)) and mesh.symmetrize(Plane(n, c)) give the mirror image through that plane and the symmetric mesh, up to explicit bounds in delta and the size of the mesh.", "quantifier": "every vector which is not zero, every scalar, every mesh (non empty with valid indices for symmetrize), every rounding function, every accurate norm and dot product", "why_tests_cant": "a test uses a few planes, often with unit coordinate normals where nothing is rounded", "anchors": ["meshmagick/mesh.py: Plane.__init__", "meshmagick/mesh.py: Plane.normal", "meshmagick/mesh.py: Mesh.mirror", "meshmagick/mesh.py: Mesh.symmetrize"]}
{"id": "C151", "title": "Volume of a symmetrized half hull", "statement": "Let a half hull be open along the plane of symmetry only, with plane convex faces. After mesh.symmetrize(plane), mesh.volume is twice the volume of the solid between the half hull and the plane: the integral of 1 over the signed tetrahedra which join any point of the plane to the faces of the half hull.", "quantifier": "every half hull with valid indices whose vertices and mirror images are equal or differ by more than the merge tolerance in a coordinate, every plane with unit normal, every order of ties in the sort, every point of the plane", "why_tests_cant": "tests use one half hull and the plane Oxz through the origin, where the terms of the plane's offset vanish", "anchors": ["meshmagick/mesh.py: Mesh.symmetrize", "meshmagick/mesh.py: Mesh.volume", "meshmagick/tools.py: merge_duplicate_rows"]}
{"id": "C152", "title": "Centre and inertia of a symmetrized half hull", "statement": "Let a half hull be open along the plane of symmetry only, with plane convex faces. After mesh.symmetrize(plane) the centre of gravity given by eval_plain_mesh_inertias lies in the plane. For the plane Oxz the mass, the moments of inertia and the product xz are twice the integrals over the solid between the half hull and the plane, and the products xy and yz are zero.", "quantifier": "every half hull with valid indices whose vertices and mirror images are equal or differ by more than the merge tolerance in a coordinate, every plane with unit normal, every density, every order of ties in the sort", "why_tests_cant": "tests look at one hull with a tolerance; the cancellation must hold for every shape", "anchors": ["meshmagick/mesh.py: Mesh.symmetrize", "meshmagick/mesh.py: Mesh.eval_plain_mesh_inertias", "meshmagick/tools.py: merge_duplicate_rows"]}
{"id": "C153", "title": "Area, centre and moments of a symmetrized shell", "statement": "For a mesh with plane convex faces, closed or not, mesh.symmetrize(plane) doubles the sum of faces_areas and puts the centre of gravity given by eval_shell_mesh_inertias in the plane. For the plane Oxz it doubles the mass and the moments of inertia xx, yy and zz given by eval_shell_mesh_inertias, keeps x and z of the centre of gravity and gives it y = 0.", "quantifier": "every mesh with valid indices and plane convex faces whose vertices and mirror images are equal or differ by more than the merge tolerance in a coordinate, every plane with unit normal, every density and thickness, every order of ties in the sort", "why_tests_cant": "the mirrored quadrangles are split along the other diagonal; that both splits agree must hold for every convex quadrangle", "anchors": ["meshmagick/mesh.py: Mesh.symmetrize", "meshmagick/mesh.py: Mesh.faces_areas", "meshmagick/mesh.py: Mesh.eval_shell_mesh_inertias"]}
{"id": "C154", "title": "Hydrostatics of a symmetrized half hull", "statement": "Let a half hull be open along the plane Oxz only, with plane convex faces, and be symmetrized about it. For the upright hull with the free surface at any height, compute_hydrostatics gives twice the volume of the immersed part of the solid between the half hull and the plane, and a buoyancy centre with y = 0; when the gravity centre is at the origin of the upright frame, the products of inertia xy and yz are zero. The wetted surface area is twice the area of the half under the free surface. More generally, over the part of the symmetrized solid under any plane perpendicular to the plane of symmetry, the integral of a product of two affine functions is the sum of its integral and of that of the reflected function over the half.", "quantifier": "every half hull with valid indices whose vertices and mirror images are equal or differ by more than the merge tolerance in a coordinate, every height of the free surface such that each vertex is on it or farther than the tolerance of the clipper, the quadrangles being strictly convex and distinct vertices and cut points being farther apart than 1e-5, every gravity centre, density and gravity, every order of ties in the sort", "why_tests_cant": "a test sees one hull at one draft; the cancellation must hold for every shape and every free surface, where the clipper cuts the mirrored faces along another diagonal", "anchors": ["meshmagick/mesh.py: Mesh.symmetrize", "meshmagick/hydrostatics.py: compute_hydrostatics", "meshmagick/mesh_clipper.py: MeshClipper"]}
