{
 "claims": [
  {
   "property": "C01",
   "status": "proved",
   "theorems": [
    "Enve.C01_profile_radius"
   ],
   "note": "exact reals"
  },
  {
   "property": "C02",
   "status": "partial",
   "theorems": [
    "Enve.C02_derivative_is_slope_partial",
    "Enve.C02_centre_band_refuted"
   ],
   "note": "refuted inside the centre band (the code returns 0 there); outside it the derivative is exact"
  },
  {
   "property": "C03",
   "status": "proved",
   "theorems": [
    "Enve.C03_width_guard",
    "Enve.C03_width_guard_real"
   ],
   "note": "any arithmetic, NaN included; and the reading on reals"
  },
  {
   "property": "C04",
   "status": "proved",
   "theorems": [
    "Enve.C04_resize_ribs",
    "Enve.C04_ribs_tile_width",
    "Enve.C04_construct"
   ],
   "note": "exact reals, profiles with the stated parameter ranges"
  },
  {
   "property": "C05",
   "status": "proved",
   "theorems": [
    "Enve.C05_resize_zero"
   ],
   "note": "any arithmetic"
  },
  {
   "property": "C06",
   "status": "partial",
   "theorems": [
    "Enve.C06_standard_refuted",
    "Enve.C06_more_than_200_ribs_refuted",
    "Enve.C06_reserved_storage_partial",
    "Enve.C06_mesh_setup_partial"
   ],
   "note": "refuted: m_out is only reserved, so every access is undefined behaviour by the standard, and outside the storage with more than 200 ribs; with at most 200 ribs every access stays in the reserved storage, and setup on every mesh read from a file is defined in any arithmetic (C06_mesh_setup_partial)"
  },
  {
   "property": "C07",
   "status": "partial",
   "theorems": [
    "Enve.C07_check_partial",
    "Enve.C07_pose_not_checked_refuted",
    "Enve.C07_check_accepts_shear_refuted"
   ],
   "note": "Refuted: the result of the check is discarded (C07_pose_not_checked_refuted), and the check itself accepts shears (C07_check_accepts_shear_refuted). What the check accepts and rejects, exactly, over the reals: C07_check_partial."
  },
  {
   "property": "C08",
   "status": "proved",
   "theorems": [
    "Enve.C08_pose_stays_rigid"
   ],
   "note": "exact reals"
  },
  {
   "property": "C09",
   "status": "partial",
   "theorems": [
    "Enve.C09_box_encloses_ribs_partial",
    "Enve.C09_round_profiles_partial",
    "Enve.C09_tilted_refuted"
   ],
   "note": "refuted for a tilted wide shell; proved for ribs inside the ball of radius Rx, in particular for profiles with exponents at most 2 and Ry at most Rx"
  },
  {
   "property": "C10",
   "status": "partial",
   "theorems": [
    "Enve.C10_box_follows_pose_partial",
    "Enve.C10_box_stale_refuted"
   ],
   "note": "refuted: transform, translate and rotate leave the box; setup and construction update it"
  },
  {
   "property": "C11",
   "status": "proved",
   "theorems": [
    "Enve.C11_box_query_exact",
    "Enve.C11_box_query_exact_real"
   ],
   "note": "any arithmetic whose non-NaN numbers are linearly ordered; and in real space"
  },
  {
   "property": "C12",
   "status": "proved",
   "theorems": [
    "Enve.C12_build_keeps_boxes",
    "Enve.C12_nodes_enclose",
    "Enve.C12_nodes_enclose_points"
   ],
   "note": "box preservation in any arithmetic; enclosure for ordered numbers"
  },
  {
   "property": "C13",
   "status": "proved",
   "theorems": [
    "Enve.C13_touching_triangle_found"
   ],
   "note": "exact reals"
  },
  {
   "property": "C14",
   "status": "proved",
   "theorems": [
    "Enve.C14_intersects_iff_common_point",
    "Enve.C14_constructor",
    "Enve.C14_intersects_symmetric",
    "Enve.C14_intersects_reflexive",
    "Enve.C14_common_part",
    "Enve.C14_merged_smallest"
   ],
   "note": "exact reals; merging for any linearly ordered numbers"
  },
  {
   "property": "C15",
   "status": "partial",
   "theorems": [
    "Enve.C15_empty_mesh_refuted",
    "Enve.C15_loaded_mesh_safe_partial",
    "Enve.C15_loaded_mesh_any_partial"
   ],
   "note": "refuted: querying an empty mesh is undefined behaviour; proved for loaded meshes, for every box including boxes with NaN corners and in any arithmetic (C15_loaded_mesh_any_partial)"
  },
  {
   "property": "C16",
   "status": "partial",
   "theorems": [
    "Enve.C16_clear_refuted",
    "Enve.C16_copy_refuted",
    "Enve.C16_clear_partial",
    "Enve.C16_copy_partial"
   ],
   "note": "refuted: clear and copy leave the tree alone; proved when the tree still fits"
  },
  {
   "property": "C17",
   "status": "partial",
   "theorems": [
    "Enve.C17_query_follows_ids",
    "Enve.C17_vector_mesh_partial",
    "Enve.C17_user_ids_refuted"
   ],
   "note": "refuted: the answer follows the user's ids; proved when ids are positions; the general answer is characterised"
  },
  {
   "property": "C18",
   "status": "proved",
   "theorems": [
    "Enve.C18_candidates_exact"
   ],
   "note": "exact reals, equivalence"
  },
  {
   "property": "C19",
   "status": "proved",
   "theorems": [
    "Enve.C19_rdf_load",
    "Enve.C19_rdf_load_exact"
   ],
   "note": ""
  },
  {
   "property": "C20",
   "status": "proved",
   "theorems": [
    "Enve.C20_obj_load",
    "Enve.C20_obj_load_only"
   ],
   "note": ""
  },
  {
   "property": "C21",
   "status": "partial",
   "theorems": [
    "Enve.C21_rdf_malformed_rejected",
    "Enve.C21_obj_malformed_rejected_partial",
    "Enve.C21_obj_smallest_int_refuted"
   ],
   "note": "proved for RDF; for OBJ refuted by the index INT_MIN (signed overflow), proved otherwise"
  },
  {
   "property": "C22",
   "status": "partial",
   "theorems": [
    "Enve.C22_out_of_range_refuted",
    "Enve.C22_ub_only_from_dangling_partial",
    "Enve.C22_obj_out_of_range_refuted",
    "Enve.C22_obj_ub_only_from_dangling_partial"
   ],
   "note": "refuted: a dangling index is undefined behaviour; proved that nothing else is"
  },
  {
   "property": "C23",
   "status": "partial",
   "theorems": [
    "Enve.C23_reload_never_succeeds_refuted",
    "Enve.C23_reload_refuted",
    "Enve.C23_reload_partial"
   ],
   "note": "refuted: a second load always throws and leaves the new triangles behind; after clear() it works"
  },
  {
   "property": "C24",
   "status": "partial",
   "theorems": [
    "Enve.C24_obj_blank_lines_partial",
    "Enve.C24_rdf_blank_lines_partial",
    "Enve.C24_rdf_blank_line_refuted"
   ],
   "note": "refuted in RDF sections; proved for OBJ and outside sections"
  },
  {
   "property": "C25",
   "status": "proved",
   "theorems": [
    "Enve.C25_contact_friction",
    "Enve.C25_triangle_friction",
    "Enve.C25_flat_friction",
    "Enve.C25_reference_bypasses_check"
   ],
   "note": "construction in any arithmetic; contacts on exact reals, for the geometric method on a mesh only when the reported volume is not zero (C36 shows the division by zero). The mutable reference flat::friction() bypasses the check, shown separately"
  },
  {
   "property": "C26",
   "status": "proved",
   "theorems": [
    "Enve.C26_triangle_normal",
    "Enve.C26_flat_normal"
   ],
   "note": "exact reals"
  },
  {
   "property": "C27",
   "status": "proved",
   "theorems": [
    "Enve.C27_triangle_box"
   ],
   "note": "exact reals"
  },
  {
   "property": "C28",
   "status": "proved",
   "theorems": [
    "Enve.C28_highest_hit",
    "Enve.C28_highest_ground"
   ],
   "note": "Law-free/order-only for every scalar type; geometric reading on the exact reals."
  },
  {
   "property": "C29",
   "status": "proved",
   "theorems": [
    "Enve.C29_order_independent"
   ],
   "note": "Exact reals."
  },
  {
   "property": "C30",
   "status": "proved",
   "theorems": [
    "Enve.C30_no_contact_record",
    "Enve.C30_no_contact_point",
    "Enve.C30_after_setup"
   ],
   "note": "the record in any arithmetic; lowest point of the rib on exact reals"
  },
  {
   "property": "C31",
   "status": "proved",
   "theorems": [
    "Enve.C31_records",
    "Enve.C31_area_volume",
    "Enve.C31_monotone"
   ],
   "note": "Exact reals; area against the Lebesgue measure of the circular segment; records of flat geometric, flat sampling and mesh sampling contacts."
  },
  {
   "property": "C32",
   "status": "proved",
   "theorems": [
    "Enve.C32_setup",
    "Enve.C32_contact_iff",
    "Enve.C32_contact"
   ],
   "note": "Exact reals, rigid poses; exact tolerance thresholds in the contact decision."
  },
  {
   "property": "C33",
   "status": "partial",
   "theorems": [
    "Enve.C33_setup_partial",
    "Enve.C33_above_ground_partial",
    "Enve.C33_past_centre_refuted"
   ],
   "note": "Proved while the rib centre is not below the ground; refuted past the centre. For the sampling method on any ground the depth law is C131."
  },
  {
   "property": "C34",
   "status": "partial",
   "theorems": [
    "Enve.C34_setup_partial",
    "Enve.C34_order_partial",
    "Enve.C34_order_refuted"
   ],
   "note": "Proved: when no triangle is cut in a segment shorter than eps, every permutation gives the same outcome. Refuted otherwise: a triangle that is only touched stops the loop."
  },
  {
   "property": "C35",
   "status": "partial",
   "theorems": [
    "Enve.C35_geometric_mesh_partial",
    "Enve.C35_setup_mesh_partial",
    "Enve.C35_setup_partial",
    "Enve.C35_sampling_refuted",
    "Enve.C35_geometric_flat_partial",
    "Enve.C35_geometric_mesh_refuted"
   ],
   "note": "Exact reals. Geometric method on flat ground: proved for rib and tyre. On a mesh: C35_geometric_mesh_partial (rib) and C35_setup_mesh_partial (tyre) for sections that do not meet, before and after spinning, the half plane behind the wheel axis where the angles of the code jump; refuted across it (C35_geometric_mesh_refuted). Refuted for the sampling method (C35_sampling_refuted)."
  },
  {
   "property": "C36",
   "status": "partial",
   "theorems": [
    "Enve.C36_superposition",
    "Enve.C36_nan_refuted",
    "Enve.C36_weights_partial",
    "Enve.C36_zero_volume_refuted",
    "Enve.C36_volume_pos_partial"
   ],
   "note": "Exact reals. False for contacts of zero volume: C36_zero_volume_refuted gives such a contact, C36_nan_refuted shows, with the special values of IEEE 754, that point, normal, friction and depth are then NaN. C36_volume_pos_partial: a contact has a positive volume, so that all of this holds, if no plane of a triangle contains the centre of the rib."
  },
  {
   "property": "C37",
   "status": "partial",
   "theorems": [
    "Enve.C37_setup_partial",
    "Enve.C37_near_vertex_refuted"
   ],
   "note": "Proved for every built mesh and rigid pose when no triangle has two vertices on the same side of a rib plane of which one is within eps (relative) of it. Refuted otherwise."
  },
  {
   "property": "C38",
   "status": "partial",
   "theorems": [
    "Enve.C38_mesh_flag",
    "Enve.C38_mesh_flag_records",
    "Enve.C38_flat_flag_partial",
    "Enve.C38_flat_flag_refuted"
   ],
   "note": "mesh proved; flat refuted (the last rib decides)"
  },
  {
   "property": "C39",
   "status": "partial",
   "theorems": [
    "Enve.C39_unknown_method_partial",
    "Enve.C39_no_triangles_refuted",
    "Enve.C39_methods"
   ],
   "note": "refuted when no triangle is near; otherwise proved"
  },
  {
   "property": "C40",
   "status": "proved",
   "theorems": [
    "Enve.C40_history_independent",
    "Enve.C40_after_any_history"
   ],
   "note": "any arithmetic, all reachable states"
  },
  {
   "property": "C41",
   "status": "partial",
   "theorems": [
    "Enve.C41_total_partial",
    "Enve.C41_total_refuted"
   ],
   "note": "refuted: shell::contactArea(total) adds up the frictions; proved what it returns, and when it agrees"
  },
  {
   "property": "C42",
   "status": "proved",
   "theorems": [
    "Enve.C42_total",
    "Enve.C42_total_real",
    "Enve.C42_nonneg"
   ],
   "note": "sum in any arithmetic; non-negative on exact reals"
  },
  {
   "property": "C43",
   "status": "proved",
   "theorems": [
    "Enve.C43_average",
    "Enve.C43_bounds",
    "Enve.C43_after_setup"
   ],
   "note": "exact reals"
  },
  {
   "property": "C44",
   "status": "partial",
   "theorems": [
    "Enve.C44_light_partial",
    "Enve.C44_light_refuted"
   ],
   "note": "refuted: below the threshold the depth is the average volume; proved what it returns"
  },
  {
   "property": "C45",
   "status": "partial",
   "theorems": [
    "Enve.C45_shell_normal",
    "Enve.C45_rib_normal",
    "Enve.C45_geometric_mesh_partial",
    "Enve.C45_geometric_mesh_refuted",
    "Enve.C45_after_setup",
    "Enve.C45_mesh_partial",
    "Enve.C45_mesh_tyre_partial"
   ],
   "note": "Exact reals. Aggregated normal and all methods but one proved; refuted for the geometric mesh method, which can report a normal of length zero. C45_mesh_partial, C45_mesh_tyre_partial: with that method the normals of ribs and tyre are unit vectors that point to the upper side of the wheel if the planes of the triangles are below the wheel axis inside the disks of the ribs."
  },
  {
   "property": "C46",
   "status": "proved",
   "theorems": [
    "Enve.C46_shell_frame",
    "Enve.C46_rib_frame",
    "Enve.C46_parallel",
    "Enve.C46_mesh_tyre"
   ],
   "note": "exact reals; the parallel case is characterised too; C46_mesh_tyre: the frames exist after a geometric setup on a mesh that passes below the wheel axis"
  },
  {
   "property": "C47",
   "status": "partial",
   "theorems": [
    "Enve.C47_vector_getters",
    "Enve.C47_frames_partial",
    "Enve.C47_frames_refuted"
   ],
   "note": "refuted for the frame and angle vectors, which are not resized (undefined behaviour when too short); proved for all others, and for those when long enough"
  },
  {
   "property": "C48",
   "status": "partial",
   "theorems": [
    "Enve.C48_shape_copy",
    "Enve.C48_shape_copy_approx",
    "Enve.C48_rib_copy_refuted",
    "Enve.C48_rib_copy_partial",
    "Enve.C48_triangle_copy_id_refuted",
    "Enve.C48_triangle_copy_partial",
    "Enve.C48_flat_copy"
   ],
   "note": "refuted for rib (y) and ground triangle (id); proved for shape, flat ground and the remaining members"
  },
  {
   "property": "C49",
   "status": "proved",
   "theorems": [
    "Enve.C49_line_plane"
   ],
   "note": "Exact reals: soundness and completeness of line/plane intersection outside the parallel tolerance."
  },
  {
   "property": "C50",
   "status": "proved",
   "theorems": [
    "Enve.C50_line_triangle_exact",
    "Enve.C50_line_triangle_tolerance"
   ],
   "note": "Exact reals: with tolerance the hit lies on the line, in the triangle's plane and within the relative tolerance of the triangle; with tolerance 0 and a non-parallel line a hit is reported exactly when the line meets the triangle."
  },
  {
   "property": "C51",
   "status": "proved",
   "theorems": [
    "Enve.C51_plane_plane"
   ],
   "note": "Exact reals, unit normals (as every plane the library builds)."
  },
  {
   "property": "C52",
   "status": "proved",
   "theorems": [
    "Enve.C52_plane_disk",
    "Enve.C52_plane_disk_none"
   ],
   "note": "Exact reals: the reported chord is the exact section outside the tolerance band."
  },
  {
   "property": "C53",
   "status": "proved",
   "theorems": [
    "Enve.C53_triangle_disk"
   ],
   "note": "Exact reals: soundness of every reported segment."
  },
  {
   "property": "C54",
   "status": "proved",
   "theorems": [
    "Enve.C54_bus",
    "Enve.C54_bad_selector",
    "Enve.C54_fill_total"
   ],
   "note": "any arithmetic"
  },
  {
   "property": "C55",
   "status": "partial",
   "theorems": [
    "Enve.C55_disk_formulas_refuted",
    "Enve.C55_disk_formulas_partial"
   ],
   "note": "refuted: the two formulas are exchanged; they agree exactly for radii 0 and 2"
  },
  {
   "property": "C56",
   "status": "proved",
   "theorems": [
    "Enve.C56_shell",
    "Enve.C56_rib"
   ],
   "note": "exact reals, gimbal branches included"
  },
  {
   "property": "C57",
   "status": "partial",
   "theorems": [
    "Enve.C57_failed_resize_refuted",
    "Enve.C57_failed_resize_partial",
    "Enve.C57_valid_profile_partial"
   ],
   "note": "refuted for a profile whose radius becomes negative; for valid profiles resize cannot fail"
  },
  {
   "property": "C58",
   "status": "proved",
   "theorems": [
    "Enve.C58_tokenizer"
   ],
   "note": ""
  },
  {
   "property": "C59",
   "status": "partial",
   "theorems": [
    "Enve.C59_flat_mesh_partial",
    "Enve.C59_small_contact_refuted"
   ],
   "note": "Proved for every rib, rigid pose (not only upright) and plane, when the chord lies inside the triangle, away from the section thresholds and with the wheel centre above the plane where needed. Refuted for very small contacts, whose detection thresholds differ."
  },
  {
   "property": "C60",
   "status": "proved",
   "theorems": [
    "Enve.C60_setup",
    "Enve.C60_sampling_flat",
    "Enve.C60_inclined"
   ],
   "note": "Exact reals, any heading and position, rib of positive width. C60_inclined: the closed form of the depth, normal and point on any inclined plane and any rigid pose with its z axis upwards."
  },
  {
   "property": "C61",
   "status": "partial",
   "theorems": [
    "Enve.C61_search_geometric_partial",
    "Enve.C61_outside_box_refuted"
   ],
   "note": "Proved for every reachable shell whose rib disks are inside its bounding box and every built mesh none of whose triangles nearly touches a rib plane or is cut in a segment shorter than eps. Refuted for a shell wider than high: outer ribs are outside the box, so the triangle below them is not found."
  },
  {
   "property": "C62",
   "status": "partial",
   "theorems": [
    "Enve.C62_sampling_local",
    "Enve.C62_geometric_local_partial",
    "Enve.C62_far_triangle_refuted"
   ],
   "note": "Sampling method: proved in full (friction excepted, as in C29). Geometric method: proved when no triangle near the shell is cut by a rib in a segment shorter than eps. False otherwise (C62_far_triangle_refuted): a triangle a kilometre below the tyre, numbered after the others, changes the shape of the tree, hence the order of the triangles found, and the contact disappears."
  },
  {
   "property": "C63",
   "status": "proved",
   "theorems": [
    "Enve.C63_no_ground_file",
    "Enve.C63_init",
    "Enve.C63_init_rdf",
    "Enve.C63_init_obj"
   ],
   "note": "Exact reals. The conversion of the double SizePar to a count, and the memory leaked when a later constructor throws, are outside the model."
  },
  {
   "property": "C64",
   "status": "proved",
   "theorems": [
    "Enve.C64_run"
   ],
   "note": "Any scalars (no arithmetic laws used). Holds for any reachable shell in place of the freshly initialised one."
  },
  {
   "property": "C65",
   "status": "partial",
   "theorems": [
    "Enve.C65_step_partial",
    "Enve.C65_run_partial",
    "Enve.C65_step_refuted"
   ],
   "note": "False: the geometric method on a mesh throws when a vertex is almost on a rib plane (C65_step_refuted), and more than 200 ribs is undefined behaviour (C06). Proved: with at most 200 ribs, every step on the flat ground and every sampling step on a mesh at any pose, and geometric steps on a mesh at rigid poses when no vertex is within eps of a rib plane without being on it; for whole runs of any length."
  },
  {
   "property": "C66",
   "status": "proved",
   "theorems": [
    "Enve.C66_parallel",
    "Enve.C66_symmetric",
    "Enve.C66_short_directions",
    "Enve.C66_vector"
   ],
   "note": "Exact reals, all 81 pairs of kinds, and a vector against each kind (C66_vector); C66_short_directions shows that the unit length is needed."
  },
  {
   "property": "C67",
   "status": "partial",
   "theorems": [
    "Enve.C67_orthogonal_partial",
    "Enve.C67_line_plane_refuted",
    "Enve.C67_symmetric",
    "Enve.C67_vector"
   ],
   "note": "Exact reals. False for a line and a plane (C67_line_plane_refuted: a line in the plane is reported orthogonal to it, the normal line is not); proved for all other pairs. C67_vector: a vector against each kind; the overload for a plane is the correct one."
  },
  {
   "property": "C68",
   "status": "partial",
   "theorems": [
    "Enve.C68_same_line_partial",
    "Enve.C68_collinear_partial",
    "Enve.C68_swap",
    "Enve.C68_ray_ray_refuted"
   ],
   "note": "Exact reals. False for two rays (C68_ray_ray_refuted: perpendicular rays with a common origin are reported collinear); proved for all other pairs."
  },
  {
   "property": "C69",
   "status": "proved",
   "theorems": [
    "Enve.C69_coplanar",
    "Enve.C69_lines",
    "Enve.C69_other"
   ],
   "note": "Exact reals. Pairs with a plane, triangle or disk are characterised in the limit of all tolerances."
  },
  {
   "property": "C70",
   "status": "partial",
   "theorems": [
    "Enve.C70_swap_partial",
    "Enve.C70_plane_disk_refuted",
    "Enve.C70_dim",
    "Enve.C70_ball_none",
    "Enve.C70_plane_triangle_refuted"
   ],
   "note": "Law-free (any scalar type), all pairs of different kinds except plane/triangle and plane/disk, where it is false: C70_plane_triangle_refuted (a plane and a triangle in it: triangle against empty), C70_plane_disk_refuted (plane first: a reference bound to a null pointer)."
  },
  {
   "property": "C71",
   "status": "partial",
   "theorems": [
    "Enve.C71_common_point_partial",
    "Enve.C71_complete",
    "Enve.C71_parallel_none",
    "Enve.C71_entity",
    "Enve.C71_skew_refuted",
    "Enve.C71_skew_segments_refuted"
   ],
   "note": "Exact reals. Proved for entities in a common plane, and completeness without that hypothesis; C71_skew_refuted: skew lines or segments at any distance are reported to meet in a point that is not common."
  },
  {
   "property": "C72",
   "status": "partial",
   "theorems": [
    "Enve.C72_line_ball",
    "Enve.C72_line_ball_none",
    "Enve.C72_ray_ball",
    "Enve.C72_ray_ball_none",
    "Enve.C72_plane_ball",
    "Enve.C72_segment_ball_partial",
    "Enve.C72_segment_ball_missed_refuted",
    "Enve.C72_segment_ball_false_refuted"
   ],
   "note": "Exact reals. Lines, rays and planes proved. Segments: proved for length 1, false for other lengths (C72_segment_ball_missed_refuted, C72_segment_ball_false_refuted: length and normalised parameter are mixed)."
  },
  {
   "property": "C73",
   "status": "proved",
   "theorems": [
    "Enve.C73_three_planes"
   ],
   "note": "Exact reals."
  },
  {
   "property": "C74",
   "status": "proved",
   "theorems": [
    "Enve.C74_point",
    "Enve.C74_point_result",
    "Enve.C74_ball"
   ],
   "note": "Exact reals for membership (in the limit of all tolerances); results, exceptions and argument order law-free."
  },
  {
   "property": "C75",
   "status": "partial",
   "theorems": [
    "Enve.C75_sound",
    "Enve.C75_complete_partial",
    "Enve.C75_none",
    "Enve.C75_ray_start_refuted"
   ],
   "note": "Exact reals, all nine pairs. Completeness excludes rays that start within the tolerance of a plane or disk (C75_ray_start_refuted: a ray that starts on the plane is reported to miss it)."
  },
  {
   "property": "C76",
   "status": "partial",
   "theorems": [
    "Enve.C76_overlap_partial",
    "Enve.C76_segments",
    "Enve.C76_rays_throw_refuted",
    "Enve.C76_segments_throw_refuted"
   ],
   "note": "Exact reals, all pairs. False for two rays that point away from each other and for perpendicular rays from one point: the call throws (C76_rays_throw_refuted). Segments of any length that are nearly on one line, within the tolerance of the collinearity test, can make it throw (C76_segments_throw_refuted)."
  },
  {
   "property": "C77",
   "status": "partial",
   "theorems": [
    "Enve.C77_contain",
    "Enve.C77_are_partial",
    "Enve.C77_areSegment_refuted",
    "Enve.C77_isAt",
    "Enve.C77_count",
    "Enve.C77_clampable",
    "Enve.C77_countNonClampable_refuted",
    "Enve.C77_partition",
    "Enve.C77_degenerated_partial",
    "Enve.C77_containDegenerated_refuted",
    "Enve.C77_table",
    "Enve.C77_container",
    "Enve.C77_remove_partial",
    "Enve.C77_remove_clampable_partial",
    "Enve.C77_remove_clampable_refuted",
    "Enve.C77_remove_refuted",
    "Enve.C77_remove_degenerated_partial",
    "Enve.C77_move_partial",
    "Enve.C77_move_refuted"
   ],
   "note": "Law-free except the witness of C77_move_refuted. False: areSegment tests for balls, containDegenerated asks for all entities, countNonClampable counts the clampable ones, remove* reorders by std::remove_if without erasing (the entities kept are in front, stale or null pointers stay behind), an object that occurs twice is moved twice."
  },
  {
   "property": "C78",
   "status": "partial",
   "theorems": [
    "Enve.C78_boxes",
    "Enve.C78_box",
    "Enve.C78_collections",
    "Enve.C78_unbounded",
    "Enve.C78_no_tree_refuted",
    "Enve.C78_moved_refuted",
    "Enve.C78_clear_refuted",
    "Enve.C78_all"
   ],
   "note": "Exact reals. False without a tree and for the empty collection (null pointer dereferenced, C78_no_tree_refuted), after the entities are moved (the tree is stale, C78_moved_refuted) and after clear (out of range access, C78_clear_refuted)."
  },
  {
   "property": "C79",
   "status": "proved",
   "theorems": [
    "Enve.C79_transform",
    "Enve.C79_transform_image",
    "Enve.C79_translate",
    "Enve.C79_proper",
    "Enve.C79_rigidity_needed",
    "Enve.C79_rotate"
   ],
   "note": "Exact reals; rotate by Rodrigues' formula. C79_rigidity_needed shows that transform with a map that is not rigid does not move the point set of a plane."
  },
  {
   "property": "C80",
   "status": "partial",
   "theorems": [
    "Enve.C80_contains",
    "Enve.C80_smallest",
    "Enve.C80_clampable",
    "Enve.C80_disk_refuted"
   ],
   "note": "Exact reals. Containment for all kinds; smallest for all but the disk, whose box is a cube whatever its orientation (C80_disk_refuted: a flat disk gets a box of height 2r)."
  },
  {
   "property": "C81",
   "status": "partial",
   "theorems": [
    "Enve.C81_box",
    "Enve.C81_select_partial",
    "Enve.C81_flat_refuted"
   ],
   "note": "Exact reals, boxes of positive extents. False for flat boxes: with the special values of IEEE 754 the distance is NaN and no candidate is returned (C81_flat_refuted)."
  },
  {
   "property": "C82",
   "status": "partial",
   "theorems": [
    "Enve.C82_rigid_partial",
    "Enve.C82_planes",
    "Enve.C82_triangle_disk_partial",
    "Enve.C82_translation_refuted",
    "Enve.C82_relations",
    "Enve.C82_rotation"
   ],
   "note": "Exact reals. The four relations: all pairs, all rigid motions. Intersection: all pairs for rotations about the origin of the axes (C82_rotation); with a shift for all pairs except two points, two planes (the line is the same set of points, C82_planes) and pairs with a triangle (C82_rigid_partial; triangle/disk away from the corners in C82_triangle_disk_partial). False for two points: they are compared relatively to their distance from the origin (C82_translation_refuted)."
  },
  {
   "property": "C83",
   "status": "proved",
   "theorems": [
    "Enve.C83_isolation",
    "Enve.C83_session",
    "Enve.C83_handles",
    "Enve.C83_distinct"
   ],
   "note": "Law-free. Scripts whose calls all return or raise (a call with undefined behaviour ends the script)."
  },
  {
   "property": "C84",
   "status": "partial",
   "theorems": [
    "Enve.C84_first_partial",
    "Enve.C84_second_partial",
    "Enve.C84_refuted"
   ],
   "note": "Law-free. Holds for values that are no handles and for live objects of another class (C84_first_partial, C84_second_partial). False for deleted objects and numbers that never were handles: undefined behaviour (C84_refuted)."
  },
  {
   "property": "C85",
   "status": "partial",
   "theorems": [
    "Enve.C85_vector_partial",
    "Enve.C85_pose_partial",
    "Enve.C85_vector_crash",
    "Enve.C85_refuted"
   ],
   "note": "Law-free. The tests ask for three rows or one column: a scalar crashes the program (C85_refuted); C85_vector_crash says exactly which values do."
  },
  {
   "property": "C86",
   "status": "partial",
   "theorems": [
    "Enve.C86_shell_partial",
    "Enve.C86_rib",
    "Enve.C86_profile",
    "Enve.C86_flat",
    "Enve.C86_triangle",
    "Enve.C86_mesh",
    "Enve.C86_new",
    "Enve.C86_resize",
    "Enve.C86_rotation_refuted",
    "Enve.C86_checkTransformation_refuted",
    "Enve.C86_load_refuted",
    "Enve.C86_int8_refuted",
    "Enve.C86_setPlane_refuted"
   ],
   "note": "Law-free. False for rotation (transposed), checkTransformation and load (never return), setPlane with the handle getPlane returns, and negative int8 numbers. Triangle numbers from -2^31 on, in any class but int8."
  },
  {
   "property": "C87",
   "status": "partial",
   "theorems": [
    "Enve.C87_copy_refuted",
    "Enve.C87_unknown_refuted",
    "Enve.C87_setPlane",
    "Enve.C87_copy",
    "Enve.C87_vec",
    "Enve.C87_default_refuted",
    "Enve.C87_obj_refuted",
    "Enve.C87_mesh_new",
    "Enve.C87_mesh_refuses",
    "Enve.C87_mesh_pose_refuted",
    "Enve.C87_identifier_refuted"
   ],
   "note": "Law-free. setPlane, the copies of meshes and triangles, isApprox and the Vec methods are right. False: enve_flat.copy refuses flats, setVertex1..3 and surfaceWidthBound call commands that do not exist, enve_flat without parameters cannot be made, enve_mesh of an OBJ file without friction is silently empty, getTriangleground loses the identifier. C87_mesh_new and C87_mesh_refuses: the constructor of enve_mesh loads RDF and OBJ files and what it refuses; C87_mesh_pose_refuted: a column of four numbers in place of a pose is accepted and gives an empty mesh."
  },
  {
   "property": "C88",
   "status": "partial",
   "theorems": [
    "Enve.C88_careful_script_partial",
    "Enve.C88_standard_refuted"
   ],
   "note": "Law-free. C88_careful_script_partial: no undefined behaviour when records in reserved storage may be accessed (the view under which C06 holds up to 200 ribs). By the C++ standard false: C88_standard_refuted."
  },
  {
   "property": "C89",
   "status": "partial",
   "theorems": [
    "Enve.C89_geometric_flat",
    "Enve.C89_sampling",
    "Enve.C89_geometric_mesh_partial",
    "Enve.C89_setup_flat",
    "Enve.C89_getters",
    "Enve.C89_setup_mesh_partial",
    "Enve.C89_geometric_mesh_refuted",
    "Enve.C89_setup_mesh_sampling"
   ],
   "note": "Exact reals. Proved for flat ground (both methods, rib and tyre) with all aggregated results, and for a mesh with the sampling method (rib: motions that keep the vertical; tyre: translations, friction up to ties). Geometric method on a mesh: proved when no vertex is within the tolerance of the rib plane, sections are longer than eps and volumes are not zero; false otherwise (C89_geometric_mesh_refuted: a scene that throws at the origin is evaluated ten units higher, because points are compared relative to their distance from the origin)."
  },
  {
   "property": "C90",
   "status": "partial",
   "theorems": [
    "Enve.C90_frozen",
    "Enve.C90_constructed",
    "Enve.C90_translate",
    "Enve.C90_safe_partial",
    "Enve.C90_search_refuted",
    "Enve.C90_normal_refuted"
   ],
   "note": "True of construction (C90_constructed), of swap and copy in any sequence (C90_safe_partial). False of all other operations: normal and box are never updated (C90_frozen, any arithmetic), no translation but zero keeps the box right (C90_translate), a field lowered under the tyre gives no contact although a field built there does (C90_search_refuted), and a turned triangle reports its old normal (C90_normal_refuted)."
  },
  {
   "property": "C91",
   "status": "partial",
   "theorems": [
    "Enve.C91_good_iff",
    "Enve.C91_constructed",
    "Enve.C91_edit_iff",
    "Enve.C91_safe_partial",
    "Enve.C91_reverse_contact",
    "Enve.C91_friction_contact",
    "Enve.C91_friction_refuted",
    "Enve.C91_reverse_refuted"
   ],
   "note": "C91_edit_iff states for each operation exactly when it keeps a valid ground valid; C91_safe_partial proves it for sequences of safe operations and that the result is what the constructor returns for its data. False otherwise, nothing is checked: negative friction is reported by contacts (C91_friction_refuted), a reversed ground gives contacts with the negated normal and otherwise the same (C91_reverse_contact, C91_reverse_refuted)."
  },
  {
   "property": "C92",
   "status": "partial",
   "theorems": [
    "Enve.C92_triangle_partial",
    "Enve.C92_others_partial",
    "Enve.C92_negative_refuted",
    "Enve.C92_unchecked_refuted",
    "Enve.C92_size_t_refuted"
   ],
   "note": "Any arithmetic. Proved in range, and beyond the upper end for triangles (C92_triangle_partial, C92_others_partial). False for negative indices of triangles (undefined behaviour, edge returns the third edge), for every index out of range of swap, segments and boxes, and for size_t indices of ground triangles from 2^31 on, which are converted to int before the check (2^32 reads vertex 0)."
  },
  {
   "property": "C93",
   "status": "partial",
   "theorems": [
    "Enve.C93_angle_partial",
    "Enve.C93_unique_partial",
    "Enve.C93_invariant_partial",
    "Enve.C93_special_partial",
    "Enve.C93_triangle_partial",
    "Enve.C93_zero_refuted",
    "Enve.C93_rounding_refuted"
   ],
   "note": "Exact real arithmetic: C93_angle_partial (equals Mathlib's InnerProductGeometry.angle), C93_unique_partial, C93_invariant_partial, C93_special_partial, C93_triangle_partial. 'Always returns a number' is false: NaN for a zero vector (C93_zero_refuted), and in the arithmetic of double the angle between (1,1,1) and itself is NaN, because the quotient is rounded to a number above one and nothing clamps it (C93_rounding_refuted)."
  },
  {
   "property": "C94",
   "status": "partial",
   "theorems": [
    "Enve.C94_sizes_partial",
    "Enve.C94_monotone_partial",
    "Enve.C94_moved_partial",
    "Enve.C94_collinear_refuted",
    "Enve.C94_negative_refuted",
    "Enve.C94_box_partial",
    "Enve.C94_box_refuted"
   ],
   "note": "Proved: the test is exactly 'some size below the tolerance' (C94_sizes_partial), monotone in the tolerance, unchanged by rigid motions; C94_box_partial states what the test of boxes computes. False: triangles with three different points on a line are not found (C94_collinear_refuted), nor balls of negative radius; the test of boxes is relative to the distance from the origin, so that a unit cube far away counts as degenerated for every tolerance and a tiny cube at the origin for none (C94_box_refuted)."
  },
  {
   "property": "C95",
   "status": "partial",
   "theorems": [
    "Enve.C95_values_partial",
    "Enve.C95_geometric_partial",
    "Enve.C95_sampling_partial",
    "Enve.C95_far_refuted"
   ],
   "note": "B64, rounding to nearest with 53 bits. Proved: whenever the reported depth is between zero and the radius (geometric) or the diameter (sampling), depth, area and volume are numbers and depth and area nonnegative (C95_values_partial, C95_geometric_partial, C95_sampling_partial). False without it: an upright wheel 1.46 mm above flat ground, 4194304 m from the origin, gets a contact of negative depth with NaN area and volume from the geometric method (C95_far_refuted), since the line of intersection starts near the origin and the discriminant cancels; exact arithmetic reports no contact."
  },
  {
   "property": "C96",
   "status": "partial",
   "theorems": [
    "Enve.C96_translate",
    "Enve.C96_displacement",
    "Enve.C96_rotate",
    "Enve.C96_rotate_fixed",
    "Enve.C96_rotate_distance",
    "Enve.C96_compose",
    "Enve.C96_undo",
    "Enve.C96_transform",
    "Enve.C96_only_pose",
    "Enve.C96_ground_frame_partial",
    "Enve.C96_ground_frame_refuted"
   ],
   "note": "C96_translate, C96_displacement, C96_rotate, C96_rotate_fixed, C96_rotate_distance, C96_compose, C96_undo, C96_transform, C96_only_pose. False: translation() grows by the vector given to translate. The vector is taken in the frame of the tyre; any new shell turned by a right angle about the vertical and translated by (1,0,0) is at (0,1,0) (C96_ground_frame_refuted); true exactly when the rotation fixes the vector (C96_ground_frame_partial). The declared rotate(angle, string) has no definition."
  },
  {
   "property": "C97",
   "status": "proved",
   "theorems": [
    "Enve.C97_search",
    "Enve.C97_candidates",
    "Enve.C97_highest"
   ],
   "note": "C97_search, C97_candidates, C97_highest, over the arithmetic of double (Base/Binary64.lean)."
  },
  {
   "property": "C98",
   "status": "proved",
   "theorems": [
    "Enve.C98_geometric",
    "Enve.C98_sampling"
   ],
   "note": "C98_geometric, C98_sampling, exact reals. On a mesh steps of the ground are steps of the depth, so no such statement is made there."
  },
  {
   "property": "C99",
   "status": "proved",
   "theorems": [
    "Enve.C99_geometric_flat",
    "Enve.C99_sampling",
    "Enve.C99_symmetric",
    "Enve.C99_setup_flat",
    "Enve.C99_setup_mesh_sampling",
    "Enve.C99_values"
   ],
   "note": "C99_geometric_flat, C99_sampling (one rib), C99_symmetric, C99_setup_flat, C99_setup_mesh_sampling, C99_values; exact reals. Outside the statement: the geometric method on a mesh, and the flag returned on flat ground, which is the flag of the last rib only (C38)."
  },
  {
   "property": "C100",
   "status": "partial",
   "theorems": [
    "Enve.C100_shell_partial",
    "Enve.C100_rib_partial",
    "Enve.C100_mirror_partial",
    "Enve.C100_double_refuted"
   ],
   "note": "C100_shell_partial, C100_rib_partial, C100_mirror_partial: exact reals. C100_double_refuted: in IEEE double arithmetic an upright wheel yawed by the angle with sine 51/149 and cosine 140/149 on a level road reports a yaw of at least 3 (pi minus about 5.5e-17), since rounding makes the product of the x axis of the contact frame with the wheel axis positive."
  },
  {
   "property": "C101",
   "status": "partial",
   "theorems": [
    "Enve.C101_report_partial",
    "Enve.C101_angles_partial",
    "Enve.C101_ub",
    "Enve.C101_format_refuted",
    "Enve.C101_format_partial",
    "Enve.C101_angles_refuted",
    "Enve.C101_area_refuted"
   ],
   "note": "C101_report_partial: all quantities but the relative angles, and one line per rib. C101_angles_partial, C101_angles_refuted: the relative angles are printed in the order yaw, camber, rotation behind a label that announces camber, rotation, yaw; a wheel turned by a quarter shows its rotation in the place of the yaw. C101_area_refuted: the total area is the sum of the frictions (C41). C101_ub: no report where the records cannot be read (C06). C101_format_refuted, C101_format_partial: the report of a shell leaves the stream in scientific format; the reports of a shape, a triangle and a flat ground do not."
  },
  {
   "property": "C102",
   "status": "proved",
   "theorems": [
    "Enve.C102_mesh",
    "Enve.C102_mesh_determined",
    "Enve.C102_tree",
    "Enve.C102_values",
    "Enve.C102_objects",
    "Enve.C102_pose",
    "Enve.C102_labels"
   ],
   "note": "C102_mesh, C102_mesh_determined, C102_tree, C102_values, C102_pose, C102_objects. Numbers are compared before they are turned into text (six digits)."
  },
  {
   "property": "C103",
   "status": "partial",
   "theorems": [
    "Enve.C103_volume_partial",
    "Enve.C103_buried_refuted"
   ],
   "note": "C103_volume_partial: explicit error bound (2 ly/n)(2 A + 4 rx ly |c|/sqrt(1-c^2)) + 4 ly eps/(1-c^2), c the scalar product of ground normal and wheel axis, A the area of the largest section, against the Lebesgue measure of the solid, whenever the axis of the wheel within the tyre is above the ground and the squared sine is at least eps. C103_buried_refuted: below the ground it is false; a tyre wholly below the ground, with any number of ribs, reports volume 0 (the depth uses the absolute height of the hub)."
  },
  {
   "property": "C104",
   "status": "partial",
   "theorems": [
    "Enve.C104_radius_partial",
    "Enve.C104_build_partial",
    "Enve.C104_sharp_refuted"
   ],
   "note": "C104_build_partial: up to 2^20 ribs, lengths from 2^-100 to 2^100, exponents from 1/16 to 2^10: success, positions within (3i+6) units of 2^-52 ly, widths within one unit in the last place, radii in (0, rx]. C104_sharp_refuted: for the exponent 2^-12, also a valid profile, the radius of a rib underflows to zero and the constructor throws, though it succeeds in exact arithmetic. C104_radius_partial: at the centre c of each rib, a double, the profile's equation at c gives an exact radius R > 0 and the computed radius differs from it by at most R (((my+1)/(mx (R/rx)^mx) + 2^9) / 2^50); for a common tyre that is ten decimal digits."
  },
  {
   "property": "C105",
   "status": "partial",
   "theorems": [
    "Enve.C105_sampling_partial",
    "Enve.C105_setup_partial",
    "Enve.C105_far_refuted"
   ],
   "note": "C105_sampling_partial and, for the records of a tyre after a setup on a constructed ground, C105_setup_partial: radii from 1/8 to 2, widths from 1/64 to 1, slopes and turns up to 60 degrees, origin and place within 2^10; depth within 2^28 (1 + R/w) eps, normal within 2^27 (1/R + 1/w) eps, point within 2^19 eps, friction within 16 eps. The flag is only determined outside the error bound. C105_far_refuted: 3 * 2^50 m from the origin a rib 25 cm deep in the ground is missed. The depth is that of the exact program by C60_inclined."
  },
  {
   "property": "C106",
   "status": "partial",
   "theorems": [
    "Enve.C106_slope_partial",
    "Enve.C106_slope_refuted"
   ],
   "note": "C106_slope_partial: the depth is the true depth less h (1 - n_z), h the vertical distance of the centre from the ground: never too large, and right on level ground. C106_slope_refuted: on a slope of 3 to 4 a rib of radius 1 that is 12 cm deep in the ground is missed, because the reach of the rib is taken along the normal and the distance of the centre vertically."
  },
  {
   "property": "C107",
   "status": "partial",
   "theorems": [
    "Enve.C107_height_partial",
    "Enve.C107_triangulation_partial",
    "Enve.C107_plane_partial",
    "Enve.C107_fine_refuted",
    "Enve.C107_double_partial"
   ],
   "note": "C107_height_partial: surface nowhere steeper than L, triangles up to D long: never below the road and at most 32 eps L D above. C107_triangulation_partial: two triangulations agree up to 32 eps L D. C107_plane_partial: plane road, exactly the record of the flat ground. C107_double_partial: in doubles, within L D / 2^19 + Z / 2^26 + C / 2^52, for triangles that are no needles (area at least D^2 / 2^12) and not smaller than twice the tolerance. C107_fine_refuted: triangles whose area seen from above is below the tolerance 2^-26 square metres (legs of 0.1 mm) are never found: the same road, divided finely enough, gives no contact at all."
  },
  {
   "property": "C108",
   "status": "partial",
   "theorems": [
    "Enve.C108_fine_refuted",
    "Enve.C108_road_partial",
    "Enve.C108_setup_partial"
   ],
   "note": "C108_road_partial: one rib on a list of triangles; C108_setup_partial: a tyre on a loaded mesh, through the search in the tree; bounds 2^28 (1 + R/w) eps' for the depth with eps' of 2^-40 for triangles up to 4 m and vertices within 2^-24 m of the plane. Missing: other scenes, and meshes with triangles smaller than twice the tolerance. C108_fine_refuted: a level road in doubles divided in 2^29 triangles is never found."
  },
  {
   "property": "C109",
   "status": "partial",
   "theorems": [
    "Enve.C109_nearest",
    "Enve.C109_geometric_partial",
    "Enve.C109_setup_partial",
    "Enve.C109_far_refuted"
   ],
   "note": "C109_nearest: the specified point is the nearest of the cut; C109_geometric_partial: one rib; C109_setup_partial: a whole tyre through shell::setup. In a scene of M metres (16 to 1024) the depth is within 2^17 M eps, the point within 2^16 M eps, the contact is decided up to (2^19 M^2 eps + 2^-25) / R. Missing: other scenes; normals when the centre is within 10 cm of the ground. C109_far_refuted: 4194 km from the origin a wheel that is 2 mm deep in the ground has no contact."
  },
  {
   "property": "C110",
   "status": "partial",
   "theorems": [
    "Enve.C110_geometric_partial",
    "Enve.C110_sampling_partial",
    "Enve.C110_flat_partial",
    "Enve.C110_geometric_refuted",
    "Enve.C110_sampling_refuted"
   ],
   "note": "Any arithmetic. C110_geometric_partial: on a mesh exactly when the first section met is run through clockwise; C110_sampling_partial: exactly when a sampling line misses; C110_flat_partial: never with the geometric method on flat ground, and with the sampling method only on vertical ground. Otherwise the evaluation is that of the model. C110_geometric_refuted: a wheel above an ordinary triangle exchanges two variables without a value; C110_sampling_refuted: a wheel beside a triangle adds points without a value (point::point() discards the NaN it computes)."
  },
  {
   "property": "C111",
   "status": "partial",
   "theorems": [
    "Enve.C111_query_partial",
    "Enve.C111_query_exact",
    "Enve.C111_build_partial",
    "Enve.C111_balance_refuted"
   ],
   "note": "Any arithmetic: C111_query_partial (at most 2n-1 tests, counted by a search that finds the same pairs), C111_query_exact (where boxes can be compared: one test for the root and two for every inner node whose box meets the query; 2n-1 if it meets all), C111_build_partial (height at most n, at most n(n+1)/2-1 boxes handled). Balance is refuted: C111_balance_refuted gives, for every n, n boxes whose tree is n high and for which building takes the largest number of steps."
  },
  {
   "property": "C112",
   "status": "proved",
   "theorems": [
    "Enve.C112_average",
    "Enve.C112_range",
    "Enve.C112_normal"
   ],
   "note": "B64. C112_average: volume up to n 2^-52 of it, friction, point and depth up to n 2^-50 times the largest record; C112_range: between the smallest and the largest record up to that error; C112_normal: the direction of the average normal up to n 2^-46 if the average is at least half a unit long. Depth below the volume threshold is left to C44."
  },
  {
   "property": "C113",
   "status": "partial",
   "theorems": [
    "Enve.C113_values",
    "Enve.C113_positive",
    "Enve.C113_flat",
    "Enve.C113_mesh_sampling",
    "Enve.C113_negative_refuted"
   ],
   "note": "B64. C113_values (formulas), C113_flat and C113_mesh_sampling (records after a setup of the tyre), C113_positive. C113_negative_refuted: a wheel of radius 11/32 m that is 2^-54 m deep in the ground gets a negative volume from the sampling method. Missing: the geometric method on meshes, whose volume is a sum over triangles, and depths beyond the radius."
  },
  {
   "property": "C114",
   "status": "partial",
   "theorems": [
    "Enve.C114_ball",
    "Enve.C114_triangle_area",
    "Enve.C114_triangle_centroid",
    "Enve.C114_triangle_normal",
    "Enve.C114_segment",
    "Enve.C114_plane",
    "Enve.C114_plane_scale",
    "Enve.C114_plane_refuted"
   ],
   "note": "R. All parts proved; plane distances are Euclidean only for unit normals (C114_plane), otherwise multiplied by the length of the normal (C114_plane_scale, C114_plane_refuted). Area and perimeter of a disk, which are exchanged in the code, are C55."
  },
  {
   "property": "C115",
   "status": "proved",
   "theorems": [
    "Enve.C115_points",
    "Enve.C115_ray_reverse",
    "Enve.C115_sense",
    "Enve.C115_disk_sense"
   ],
   "note": "R. Induction over the sequence of operations. C115_disk_sense: reversing a disk turns its normal."
  },
  {
   "property": "C116",
   "status": "partial",
   "theorems": [
    "Enve.C116_vector",
    "Enve.C116_entities",
    "Enve.C116_laws",
    "Enve.C116_place_refuted",
    "Enve.C116_transitive_refuted",
    "Enve.C116_zero_tolerance_refuted"
   ],
   "note": "R. C116_vector and C116_entities say exactly what is compared: differences relative to the distance from the origin, radii absolutely. C116_laws: reflexive, symmetric, monotone. Refuted: C116_place_refuted (arbitrarily near points near the origin differ, arbitrarily far points away from it are equal), C116_transitive_refuted, C116_zero_tolerance_refuted."
  },
  {
   "property": "C117",
   "status": "partial",
   "theorems": [
    "Enve.C117_volume_partial",
    "Enve.C117_contact_partial"
   ],
   "note": "B64. Combines C105, C112 and C113. Partial: moderate scenes, hubs above the ground; C117_contact_partial also needs that no rib is within the error bounds of just touching the ground (its volume may be negative, C113_negative_refuted) and a contact volume of at least 2^-26."
  },
  {
   "property": "C118",
   "status": "partial",
   "theorems": [
    "Enve.C118_geometric_nan",
    "Enve.C118_geometric_number",
    "Enve.C118_sampling_number",
    "Enve.C118_mesh_sampling_number",
    "Enve.C118_default_ground",
    "Enve.C118_setup_flat",
    "Enve.C118_setup_mesh_sampling",
    "Enve.C118_mesh_geometric_refuted"
   ],
   "note": "B64. Sampling: proved for flat ground and meshes, NaN and infinite, for ribs and setup. Geometric on flat ground: proved for NaN, and for infinite entries where the depth is not negative (C95 has contacts of negative depth). Refuted for the geometric method on a mesh: a NaN in the rotation makes it throw 'exception not handled.' on any triangle (C118_mesh_geometric_refuted)."
  },
  {
   "property": "C119",
   "status": "partial",
   "theorems": [
    "Enve.C119_first_refuted",
    "Enve.C119_others_partial"
   ],
   "note": "B64. Refuted: if the first vertex of the first triangle is not a number, every query of the mesh is empty and no setup finds contact (C119_first_refuted). Partial: if the first vertices of all triangles are free of NaN, the query is exact whatever the second and third vertices."
  },
  {
   "property": "C120",
   "status": "partial",
   "theorems": [
    "Enve.C120_radius_partial",
    "Enve.C120_exponent_partial",
    "Enve.C120_partial",
    "Enve.C120_exponent_refuted",
    "Enve.C120_infinite_refuted",
    "Enve.C120_width_refuted",
    "Enve.C120_negative_refuted",
    "Enve.C120_larger_refuted"
   ],
   "note": "B64. Proved: Rx is never NaN; with Mx a positive number and My not 0 no other parameter is NaN and Ly is a number that is not negative; with Mx NaN all ribs lie in the middle. Refuted: Mx may be NaN, Rx infinite or negative, Ly NaN (with Mx infinite, for any number of ribs), and with a negative Mx ribs are twice as large as Rx and as the bounding box."
  },
  {
   "property": "C121",
   "status": "partial",
   "theorems": [
    "Enve.C121_volume_partial",
    "Enve.C121_clear_refuted"
   ],
   "note": "B64. Proved for tyres of ordinary size, camber up to 3/5 and a hub above the ground: the volume is NaN or within an explicit bound of the measure of the sunk part of the solid, and it is a number if no rib grazes the ground within an explicit distance. Refuted: an upright wheel clear of the ground, 16 km from the origin, reports contact with a volume that is NaN."
  },
  {
   "property": "C122",
   "status": "partial",
   "theorems": [
    "Enve.C122_volume_partial",
    "Enve.C122_area_partial",
    "Enve.C122_fine_refuted",
    "Enve.C122_sunk_refuted",
    "Enve.C122_kerb_refuted"
   ],
   "note": "Over the reals. Proved for roads whose triangles are cut away from the tolerances: the volume is the width times the Lebesgue measure of the part of the disk below the road when no piece of road within the disk has a line that passes above the centre, and is greater than that product otherwise. Refuted: a kerb that falls off in front of the centre is counted with the wrong sign; and if every section is shorter than sqrt(eps) divided by the radius, no contact is reported however deep the rib is. C122_area_partial: under the same hypotheses the area reported is the width times the length of the road (integral of √(1+slope²)) inside the disk, overhead pieces or not."
  },
  {
   "property": "C123",
   "status": "partial",
   "theorems": [
    "Enve.C123_plane",
    "Enve.C123_contained",
    "Enve.C123_disk_partial",
    "Enve.C123_tangent_refuted",
    "Enve.C123_triangle_partial",
    "Enve.C123_vertex_partial",
    "Enve.C123_segment_partial",
    "Enve.C123_triangles_refuted",
    "Enve.C123_disks_refuted",
    "Enve.C123_overlap_partial",
    "Enve.C123_star_refuted"
   ],
   "note": "Over the reals. Proved: C123_plane and C123_contained (plane and anything in it, every positive tolerance), C123_disk_partial (line, ray or segment against a disk, if not nearly tangent), C123_triangle_partial (line or ray against a triangle that is cut at one corner, cut through a vertex, touched along an edge, or missed by more than the tolerance), C123_vertex_partial (a line that touches the triangle in a vertex only), C123_segment_partial (segment against a triangle, up to half the tolerance), C123_overlap_partial (the yes/no overload, when a vertex of one triangle is in the other). Refuted: near tangency a point instead of the chord; two coplanar triangles always give nothing; two coplanar disks, or a triangle and a disk, throw; the yes/no overload says no for the two triangles of a star."
  },
  {
   "property": "C124",
   "status": "partial",
   "theorems": [
    "Enve.C124_triangles_partial",
    "Enve.C124_disks_partial"
   ],
   "note": "Over the reals. C124_triangles_partial and C124_disks_partial: for planes whose normals have a squared sine of at least the tolerance, and sections away from the tolerances, the segment contains all common points and exceeds either body by at most half the tolerance, and nothing is returned only if there is no common point. The sections may be through vertices or along edges. Not proved: a plane that touches the other triangle in a vertex only."
  },
  {
   "property": "C125",
   "status": "partial",
   "theorems": [
    "Enve.C125_volume_partial",
    "Enve.C125_fine",
    "Enve.C125_roller_refuted"
   ],
   "note": "Over the reals. C125_volume_partial: error at most 2·ly/n·(2·segmentArea + 4·rx·L·ly) + n·eps, with L the slope along the axis, when no piece of road is overhead, the sections are away from the tolerances and the disks of the ribs are inside the sphere of radius rx around the hub. C125_fine and C125_roller_refuted: with short sections (length times radius below √eps) setup reports no contact and volume zero, however deep the tyre is."
  },
  {
   "property": "C126",
   "status": "partial",
   "theorems": [
    "Enve.C126_inside",
    "Enve.C126_tolerance_refuted",
    "Enve.C126_translate",
    "Enve.C126_translate_double",
    "Enve.C126_translate_double_refuted",
    "Enve.C126_update",
    "Enve.C126_clear",
    "Enve.C126_set_partial",
    "Enve.C126_set_refuted"
   ],
   "note": "Reals: membership, translation, ordering. Doubles (all finite numbers, rounding to nearest even, overflow included): translation keeps points inside, boxes in order and boxes that meet meeting; the converse is refuted (boxes a metre apart meet after a translation by 2^54). Refuted: the tolerance of isInside is ignored; a corner set through min()/max() can invert the box, which then holds no point and still meets others. clear: holds and meets nothing, updateMaxMin then reports corners in order while checkMaxMin reports they are not."
  },
  {
   "property": "C127",
   "status": "partial",
   "theorems": [
    "Enve.C127_shape",
    "Enve.C127_rib",
    "Enve.C127_ground_partial",
    "Enve.C127_tolerance_refuted",
    "Enve.C127_self_refuted",
    "Enve.C127_laws"
   ],
   "note": "Reals. Profiles and ribs: equivalences with all members (the number of a rib counts as a real). Grounds: equivalence for the default tolerance. Refuted: for any other tolerance vertices and planes are still compared with the default one (too strict above it, too lax below it); with tolerance zero nothing is approximately equal to itself."
  },
  {
   "property": "C128",
   "status": "partial",
   "theorems": [
    "Enve.C128_profile",
    "Enve.C128_slope_partial",
    "Enve.C128_band",
    "Enve.C128_box",
    "Enve.C128_default"
   ],
   "note": "Reals, histories by induction. Slope and angle outside the band of the tolerance around the middle, where they are the derivative and its arc tangent; inside the band they are zero (see C02 for the refutation there). C128_default (double): a default profile returns NaN instead of throwing, and no tyre can be built with it."
  },
  {
   "property": "C129",
   "status": "partial",
   "theorems": [
    "Enve.C129_independent_partial",
    "Enve.C129_query_partial",
    "Enve.C129_build",
    "Enve.C129_meet_partial",
    "Enve.C129_copy_refuted",
    "Enve.C129_receiver_refuted",
    "Enve.C129_moved_refuted",
    "Enve.C129_copy_answer_refuted",
    "Enve.C129_argument_refuted"
   ],
   "note": "Any scalar type. Proved by induction over programs without copies; queries and all-pairs intersections equal the operations on values (C78) when the output is another collection. Refuted: a copy shares the tree of the original, so building one changes the answers of the other (a wrong answer without any error); a query into its receiver is undefined behaviour as soon as it finds something; a query into its argument reports wrong pairs; a collection that was moved from cannot be used again."
  },
  {
   "property": "C130",
   "status": "partial",
   "theorems": [
    "Enve.C130_mesh_partial",
    "Enve.C130_mesh_tyre_partial",
    "Enve.C130_geometric_partial",
    "Enve.C130_rib_partial",
    "Enve.C130_tyre_partial",
    "Enve.C130_new_tyre_partial",
    "Enve.C130_nan_refuted"
   ],
   "note": "On the reals. The points of the triangles that a rib cuts are in its disk, and an average with non-negative weights stays there (induction over the triangles); the same for the ribs of the tyre. Exception: on a mesh with the geometric method, a rib with a contact area but no contact volume (the cut points at the wheel axis), where the code divides by zero; C130_nan_refuted has the IEEE outcome, and C130_mesh_partial shows that this needs a triangle whose plane contains the centre of the rib (C130_mesh_tyre_partial: the tyre). A contact of a volume below eps reports a depth up to eps instead of up to Rx (C44)."
  },
  {
   "property": "C131",
   "status": "proved",
   "theorems": [
    "Enve.C131_heights",
    "Enve.C131_mesh",
    "Enve.C131_flat",
    "Enve.C131_tyre"
   ],
   "note": "On the reals. The four sampling lines are vertical, so a wheel moved vertically samples the same lines, and the intersection of a line with a triangle or a plane does not depend on the point from which the line is described. C131_heights gives the record at every height, C131_mesh and C131_flat compare two heights, C131_tyre compares two setups of the whole tyre on a mesh (friction excepted: the order of the triangles found can differ, C29)."
  },
  {
   "property": "C132",
   "status": "partial",
   "theorems": [
    "Enve.C132_volume_partial"
   ],
   "note": "On the reals. C132_volume_partial. Missing: sections that are not roads below the centre of the rib, faces overhead (the volume is then too large, C122), and triangles cut within the tolerances."
  },
  {
   "property": "C133",
   "status": "partial",
   "theorems": [
    "Enve.C133_triangle",
    "Enve.C133_tyre",
    "Enve.C133_setup_flat",
    "Enve.C133_small_wheel_flat",
    "Enve.C133_fine_mesh_sampling",
    "Enve.C133_coarse_refuted",
    "Enve.C133_sampling_flat",
    "Enve.C133_sampling_mesh_partial",
    "Enve.C133_geometric_flat_partial",
    "Enve.C133_geometric_mesh_partial",
    "Enve.C133_setup_mesh_sampling_partial",
    "Enve.C133_setup_flat_geometric_partial",
    "Enve.C133_setup_mesh_geometric_partial",
    "Enve.C133_values_partial"
   ],
   "note": "On the reals. Proved for the sampling method on flat ground and any k (C133_sampling_flat, C133_setup_flat), for the construction of tyres and triangles (C133_tyre, C133_triangle), and towards smaller units (k ≥ 1), rib by rib and for setups: for the sampling method on meshes whose triangles have a projection above the tolerance, for the geometric method on flat ground, and for the geometric method on meshes whose sections are above the tolerance; also the values of the whole tyre for a volume above the tolerance (C133_values_partial). Refuted towards larger units: the tolerances are absolute, so a contact is lost once the wheel or the triangles are small numbers (C133_coarse_refuted, C133_small_wheel_flat, C133_fine_mesh_sampling). Missing: sections within the tolerances (where the claim is false)."
  },
  {
   "property": "C134",
   "status": "partial",
   "theorems": [
    "Enve.C134_wall",
    "Enve.C134_wall_refuted",
    "Enve.C134_normal",
    "Enve.C134_geometric_partial",
    "Enve.C134_setup_partial",
    "Enve.C134_corner_refuted",
    "Enve.C134_sampling_partial"
   ],
   "note": "On the reals. Proved for the normal and box of every face (C134_normal: the normal of a vertical face may be opposite), for the sampling method unless a sampling line is beside a corner within the tolerance (C134_sampling_partial), for the geometric method unless a face is vertical or a vertex within the tolerance of the plane of a rib (C134_geometric_partial), and for setups of whole tyres (C134_setup_partial). False in the excepted cases: on a vertical face everything is kept except the part of the contact normal along the axis of the wheel, which changes its sign with the order (C134_wall, C134_wall_refuted); a line beside a corner is accepted or refused depending on the position of the corner in the list (C134_corner_refuted). Missing: the geometric method with vertices within the tolerance of the plane of a rib."
  },
  {
   "property": "C135",
   "status": "partial",
   "theorems": [
    "Enve.C135_bridge_refuted",
    "Enve.C135_geometric_partial",
    "Enve.C135_tyre_partial",
    "Enve.C135_sampling_partial"
   ],
   "note": "On the reals. Geometric method: proved for ribs and for whole tyres when no vertex is within the tolerance of the plane of a rib and no section is shorter than the tolerance (C135_geometric_partial, C135_tyre_partial); a section shorter than that ends the evaluation, see C34. Sampling method: faces below the highest one on each of the four lines can be left out (C135_sampling_partial), but a face above them counts as the road even if the rib does not touch it: a deck over the wheel removes the contact (C135_bridge_refuted)."
  },
  {
   "property": "C136",
   "status": "partial",
   "theorems": [
    "Enve.C136_sampling",
    "Enve.C136_geometric_refuted",
    "Enve.C136_sampling_tyre",
    "Enve.C136_tyre_partial"
   ],
   "note": "On the reals. Sampling method: proved, for ribs and whole tyres (C136_sampling, C136_sampling_tyre; the friction too unless faces with different frictions are hit at the same height). Geometric method: false in every contact (C136_geometric_refuted): on a mesh listed k times the contact point, normal, friction and depth stay, but area and volume are k times as large; likewise for whole tyres (C136_tyre_partial). Missing: the geometric method with only some of the faces repeated, where point, normal, friction and depth are weighted averages that change too (see C36_superposition)."
  },
  {
   "property": "C137",
   "status": "partial",
   "theorems": [
    "Enve.C137_section",
    "Enve.C137_rib",
    "Enve.C137_tyre",
    "Enve.C137_sampling_blind",
    "Enve.C137_wall_refuted"
   ],
   "note": "On the reals. Geometric method: proved for faces cut away from the tolerances that have common points at least 1/64 apart, on meshes without short sections (C137_section: the section is exactly the common part; C137_rib, C137_tyre: contact reported, and only then). Sampling method: false; it does not see vertical faces at all (C137_sampling_blind), so a tyre pressed through a wall has no contact by sampling (C137_wall_refuted, where the geometric method reports contact). Missing: touching along less than 1/64, and faces within the tolerances of the plane of a rib."
  },
  {
   "property": "C138",
   "status": "partial",
   "theorems": [
    "Enve.C138_geometric",
    "Enve.C138_sampling_partial",
    "Enve.C138_tyre",
    "Enve.C138_values"
   ],
   "note": "On the reals. Geometric method: C138_geometric (one rib) and C138_tyre (all ribs and the flag), with spin. C138_values: all values of the tyre, without spin, for both methods. Sampling method: C138_sampling_partial, without spin and for motions that keep the vertical; with spin it is false (C35_sampling_refuted)."
  },
  {
   "property": "C139",
   "status": "partial",
   "theorems": [
    "Enve.C139_build",
    "Enve.C139_setup",
    "Enve.C139_values",
    "Enve.C139_linear",
    "Enve.C139_linear_flat",
    "Enve.C139_monotone_partial",
    "Enve.C139_area_refuted"
   ],
   "note": "Any arithmetic, also undefined and throwing outcomes: C139_setup (outcome and records), C139_values (what the tyre and its ribs report), C139_build (painting before or after building the mesh is the same). Reals: C139_linear, C139_linear_flat, C139_monotone_partial (contacts of the geometric method must have a volume, see C36). False for the total contact area, which adds up frictions (C139_area_refuted, see C41)."
  },
  {
   "property": "C140",
   "status": "partial",
   "theorems": [
    "Enve.C140_outcome",
    "Enve.C140_placed",
    "Enve.C140_moved",
    "Enve.C140_sampling",
    "Enve.C140_geometric_partial",
    "Enve.C140_overturned_refuted"
   ],
   "note": "Any arithmetic and any text, also for throwing and undefined outcomes: C140_outcome. Reals: C140_placed (any affine pose), C140_moved (normals too), C140_sampling (contacts, translations), C140_geometric_partial (contacts; no vertex on the plane of a rib, no section below the threshold). False for motions that do not keep the vertical: normals are turned upwards on loading (C140_overturned_refuted)."
  },
  {
   "property": "C141",
   "status": "partial",
   "theorems": [
    "Enve.C141_numbered_partial",
    "Enve.C141_numbers_unread_refuted",
    "Enve.C141_numbered_refuted"
   ],
   "note": "False: the id column is skipped and elements refer to positions (C141_numbered_refuted: a wrong vertex without any message; C141_numbers_unread_refuted: in any arithmetic texts that differ in the numbers give the same faces). Proved for texts whose numbers are the positions counted from zero: C141_numbered_partial."
  },
  {
   "property": "C142",
   "status": "partial",
   "theorems": [
    "Enve.C142_comment",
    "Enve.C142_block_refuted"
   ],
   "note": "Any arithmetic, any text, equality of outcomes including the state after an exception: C142_comment. False for comments over several lines, whose further lines are read as data without a message (C142_block_refuted); the source says that this is not implemented."
  },
  {
   "property": "C143",
   "status": "partial",
   "theorems": [
    "Enve.C143_geometric_flat",
    "Enve.C143_sampling",
    "Enve.C143_geometric_mesh_partial",
    "Enve.C143_geometric_mesh_refuted",
    "Enve.C143_setup_flat_partial",
    "Enve.C143_setup_mesh_partial",
    "Enve.C143_flag_refuted",
    "Enve.C143_values"
   ],
   "note": "Over the reals. Proved for the ribs on flat ground with both methods (C143_geometric_flat, C143_sampling), by sampling on every mesh, by the geometric method on meshes whose sections do not meet the level of the axle (C143_geometric_mesh_partial), for whole tyres (C143_setup_flat_partial, C143_setup_mesh_partial) and all values (C143_values). False when a section meets the level of the axle of the spun wheel (C143_geometric_mesh_refuted) and for the flag on flat ground, which is that of the last rib (C143_flag_refuted)."
  },
  {
   "property": "C144",
   "status": "partial",
   "theorems": [
    "Enve.C144_geometric_flat",
    "Enve.C144_sampling_flat",
    "Enve.C144_larger",
    "Enve.C144_setup_flat_partial",
    "Enve.C144_setup_mesh_partial",
    "Enve.C144_sampling_mesh_refuted"
   ],
   "note": "Over the reals. Proved on flat ground for the geometric method at every rigid pose (C144_geometric_flat) and for the sampling method with ground and tyre upwards (C144_sampling_flat), for tyres made by the constructor (C144_larger), whole tyres on flat ground (C144_setup_flat_partial), and the contact volume on meshes by the geometric method up to eps per rib where the rib planes cut the ground in a road below the centres (C144_setup_mesh_partial). False for the sampling method on a mesh: the lines of a larger rib are farther apart and can miss the ground (C144_sampling_mesh_refuted)."
  },
  {
   "property": "C145",
   "status": "partial",
   "theorems": [
    "Enve.C145_rib_partial",
    "Enve.C145_point_partial",
    "Enve.C145_tyre_partial",
    "Enve.C145_point_refuted"
   ],
   "note": "Over the reals, for the geometric method, where the plane of the rib cuts both meshes in the same road below its centre, away from the tolerances and with no piece overhead (RoadOf). The flag, the area and the volume are the same, and so is a friction common to all triangles (C145_rib_partial); the contact volumes of whole tyres agree up to eps per rib (C145_tyre_partial); on a straight road the reported point is on the road and the depth at most that of the nearest point of the road (C145_point_partial). The point, the normal and the depth do depend on the triangles (C145_point_refuted): two coplanar triangles can give a flat road a leaning normal. For the sampling method see C107."
  },
  {
   "property": "C146",
   "status": "partial",
   "theorems": [
    "Enve.C146_sampling_partial",
    "Enve.C146_geometric_flat",
    "Enve.C146_geometric_mesh_partial",
    "Enve.C146_tyre_partial",
    "Enve.C146_mesh_tyre_partial",
    "Enve.C146_sampling_refuted"
   ],
   "note": "Over the reals. Sampling method: on every ground the normal is on the same side of the horizontal as the up axis of the wheel, for ribs (C146_sampling_partial) and tyres (C146_tyre_partial, which also has both methods on flat ground). So the claim is false if the pose contains the rotation of the wheel: half a turn gives a normal that points straight down (C146_sampling_refuted). Geometric method: on flat ground the normal points up at every pose (C146_geometric_flat); on a mesh below the axis the part of the normal along the up axis of the wheel is positive, if the contact has volume (C146_geometric_mesh_partial) or no triangle is in line with a rib centre (C146_mesh_tyre_partial); contacts without volume have normal zero (C45_geometric_mesh_refuted)."
  },
  {
   "property": "C147",
   "status": "partial",
   "theorems": [
    "Enve.C147_ribs",
    "Enve.C147_tyre_partial",
    "Enve.C147_light_partial",
    "Enve.C147_light_refuted"
   ],
   "note": "Over the reals. Ribs: C147_ribs, for every rib with a contact volume, and on flat ground and with the sampling method for every rib with a positive depth. Tyre: C147_tyre_partial if the total volume reaches the threshold. False below the threshold: the tyre then reports the friction times the share of its ribs that touch (C147_light_partial, flat ground or sampling); a tyre of two ribs, one touching a road of friction 1, reports 1/2 (C147_light_refuted)."
  },
  {
   "property": "C148",
   "status": "partial",
   "theorems": [
    "Enve.C148_rib_partial",
    "Enve.C148_depth_partial",
    "Enve.C148_tyre_partial",
    "Enve.C148_mesh_refuted"
   ],
   "note": "Over the reals. Proved on flat ground with both methods and on every mesh with the sampling method, for ribs (C148_rib_partial, with the case of equality) and for tyres (C148_tyre_partial). The bound of the depth holds for contacts with volume on every mesh and with both methods (C148_depth_partial). The bound of the volume is false of the geometric method on a mesh that lists a face often enough: more than the volume of the whole rib (C148_mesh_refuted)."
  },
  {
   "property": "C149",
   "status": "partial",
   "theorems": [
    "Enve.C149_plane_partial",
    "Enve.C149_below_partial",
    "Enve.C149_light_refuted"
   ],
   "note": "Over the reals, if the total volume reaches the threshold: C149_plane_partial, at every pose, with both methods and on every flat ground; C149_below_partial, for new tyres at every heading, with the geometric method at every angle of rotation, with the sampling method for a wheel that is not turned about its axis and whose centre is above the ground. False below the threshold, where ribs that do not touch the ground count as much as those that do: a tyre of two ribs leaning on the road reports a contact point above the road (C149_light_refuted)."
  },
  {
   "property": "C150",
   "status": "partial",
   "theorems": [
    "Enve.C150_geometric_partial",
    "Enve.C150_sampling_partial",
    "Enve.C150_camber_refuted",
    "Enve.C150_lean_partial"
   ],
   "note": "Over the reals, against the Lebesgue measure of the footprint. C150_geometric_partial: geometric method, every pose whose wheel axis is parallel to the ground, at every height; the error is at most (2 ly/n) 4 sqrt(rx^2 - h^2) + 4 ly sqrt(eps), h the height of the hub. C150_sampling_partial: sampling method, upright wheel on level ground not above the hub, without the second term. C150_lean_partial: geometric method, wheels that lean: the areas add up to the area of the footprint times the sine of the angle between wheel axis and ground normal, with an error of order 1/sqrt(n). So the claim is false for wheels that lean (C150_camber_refuted): the width of a rib is taken along the wheel axis and not along the ground, so the areas are too small; in the witness they add up to at most 1 for every number of ribs, while at least 3/2 of the ground is inside the tyre. The member that returns the total adds up frictions (C41), so the areas are read rib by rib."
  },
  {
   "property": "C151",
   "status": "proved",
   "theorems": [
    "Enve.C151_needs_axis_above",
    "Enve.C151_ribs",
    "Enve.C151_point"
   ],
   "note": "Over the reals. C151_ribs: the comparison of the ribs. C151_point: the contact point. The example leans a tyre of any number of ribs on the road with its lower edge on the road and shows that the threshold is reached. C151_needs_axis_above: without the condition on the axis the claim is false, by a tyre of two ribs whose hub is below the road. The sampling method is not covered."
  },
  {
   "property": "C152",
   "status": "proved",
   "theorems": [
    "Enve.C152_ribs",
    "Enve.C152_level"
   ],
   "note": "Over the reals. C152_ribs: any two ribs. C152_level: a wheel whose axis is parallel to the ground, read off by the numbers of the ribs. The sampling method is not covered."
  }
 ]
}