{
 "claims": [
  {
   "property": "C01",
   "status": "proved",
   "theorems": [
    "Cafes.Props.C01_visits_exactly",
    "Cafes.Props.C01_order_once",
    "Cafes.Props.C01_any_kernel",
    "Cafes.Props.C01_empty"
   ],
   "note": ""
  },
  {
   "property": "C02",
   "status": "proved",
   "theorems": [
    "Cafes.Props.C02_elements_partition",
    "Cafes.Props.C02_nodes_partition",
    "Cafes.Props.C02_loop_sum"
   ],
   "note": ""
  },
  {
   "property": "C03",
   "status": "proved",
   "theorems": [
    "Cafes.Props.C03_nested",
    "Cafes.Props.C03_elements_nested"
   ],
   "note": ""
  },
  {
   "property": "C04",
   "status": "proved",
   "theorems": [
    "Cafes.Props.C04_q1_window",
    "Cafes.Props.C04_element2_in_window",
    "Cafes.Props.C04_element3_in_window",
    "Cafes.Props.C04_4q1_window",
    "Cafes.Props.C04_4q1_2d",
    "Cafes.Props.C04_4q1_3d",
    "Cafes.Props.C04_localIndex2_range",
    "Cafes.Props.C04_localIndex2_inj",
    "Cafes.Props.C04_localIndex3_range",
    "Cafes.Props.C04_localIndex3_inj"
   ],
   "note": ""
  },
  {
   "property": "C05",
   "status": "proved",
   "theorems": [
    "Cafes.Props.C05_sizes"
   ],
   "note": ""
  },
  {
   "property": "C06",
   "status": "proved",
   "theorems": [
    "Cafes.Props.C06_weights2",
    "Cafes.Props.C06_weights3"
   ],
   "note": ""
  },
  {
   "property": "C07",
   "status": "proved",
   "theorems": [
    "Cafes.Props.C07_grad2",
    "Cafes.Props.C07_grad3"
   ],
   "note": ""
  },
  {
   "property": "C08",
   "status": "proved",
   "theorems": [
    "Cafes.Props.C08_affine2",
    "Cafes.Props.C08_affine3"
   ],
   "note": ""
  },
  {
   "property": "C09",
   "status": "proved",
   "theorems": [
    "Cafes.Props.C09_element2",
    "Cafes.Props.C09_element3",
    "Cafes.Props.C09_4q1_2",
    "Cafes.Props.C09_4q1_3"
   ],
   "note": ""
  },
  {
   "property": "C10",
   "status": "proved",
   "theorems": [
    "Cafes.Props.C10_laplacian2",
    "Cafes.Props.C10_laplacian3"
   ],
   "note": ""
  },
  {
   "property": "C11",
   "status": "proved",
   "theorems": [
    "Cafes.Props.C11_mass2",
    "Cafes.Props.C11_mass3"
   ],
   "note": ""
  },
  {
   "property": "C12",
   "status": "proved",
   "theorems": [
    "Cafes.Props.C12_strain2",
    "Cafes.Props.C12_strain3"
   ],
   "note": ""
  },
  {
   "property": "C13",
   "status": "proved",
   "theorems": [
    "Cafes.Props.C13_pressure2",
    "Cafes.Props.C13_pressure3"
   ],
   "note": ""
  },
  {
   "property": "C14",
   "status": "proved",
   "theorems": [
    "Cafes.Props.C14_symmetric2",
    "Cafes.Props.C14_symmetric3",
    "Cafes.Props.C14_psd2",
    "Cafes.Props.C14_psd3",
    "Cafes.Props.C14_kernel2",
    "Cafes.Props.C14_kernel3",
    "Cafes.Props.C14_mass_posdef2",
    "Cafes.Props.C14_mass_posdef3"
   ],
   "note": ""
  },
  {
   "property": "C15",
   "status": "proved",
   "theorems": [
    "Cafes.Props.C15_symmetric2",
    "Cafes.Props.C15_symmetric3",
    "Cafes.Props.C15_psd2",
    "Cafes.Props.C15_psd3",
    "Cafes.Props.C15_mass_posdef2",
    "Cafes.Props.C15_mass_posdef3"
   ],
   "note": ""
  },
  {
   "property": "C16",
   "status": "proved",
   "theorems": [
    "Cafes.Props.C16_kernel2",
    "Cafes.Props.C16_kernel3"
   ],
   "note": ""
  },
  {
   "property": "C17",
   "status": "proved",
   "theorems": [
    "Cafes.Props.C17_measure2",
    "Cafes.Props.C17_measure3"
   ],
   "note": ""
  },
  {
   "property": "C18",
   "status": "proved",
   "theorems": [
    "Cafes.Props.C18_adjoint2",
    "Cafes.Props.C18_adjoint3",
    "Cafes.Props.C18_energy2",
    "Cafes.Props.C18_energy3"
   ],
   "note": ""
  },
  {
   "property": "C19",
   "status": "proved",
   "theorems": [
    "Cafes.Props.C19_nullspace2",
    "Cafes.Props.C19_nullspace3",
    "Cafes.Props.C19_constant_pressure2",
    "Cafes.Props.C19_constant_pressure3"
   ],
   "note": ""
  },
  {
   "property": "C20",
   "status": "proved",
   "theorems": [
    "Cafes.Props.C20_constant_velocity2",
    "Cafes.Props.C20_constant_velocity3",
    "Cafes.Props.C20_conservative2",
    "Cafes.Props.C20_conservative3"
   ],
   "note": ""
  },
  {
   "property": "C21",
   "status": "proved",
   "theorems": [
    "Cafes.Props.C21_single2",
    "Cafes.Props.C21_single3",
    "Cafes.Props.C21_one_process",
    "Cafes.Props.C21_stokes2",
    "Cafes.Props.C21_stokes3"
   ],
   "note": ""
  },
  {
   "property": "C22",
   "status": "proved",
   "theorems": [
    "Cafes.Props.C22_laplacian",
    "Cafes.Props.C22_mass",
    "Cafes.Props.C22_coupling",
    "Cafes.Props.C22_stokes"
   ],
   "note": ""
  },
  {
   "property": "C23",
   "status": "proved",
   "theorems": [
    "Cafes.Props.C23_exact",
    "Cafes.Props.C23_interior",
    "Cafes.Props.C23_refuted"
   ],
   "note": "exact statement proved for every input; the intended claim fails, counterexamples: C23_refuted"
  },
  {
   "property": "C24",
   "status": "proved",
   "theorems": [
    "Cafes.Props.C24_diagonal2",
    "Cafes.Props.C24_diagonal3"
   ],
   "note": ""
  },
  {
   "property": "C25",
   "status": "proved",
   "theorems": [
    "Cafes.Props.C25_vec",
    "Cafes.Props.C25_matrix"
   ],
   "note": ""
  },
  {
   "property": "C26",
   "status": "proved",
   "theorems": [
    "Cafes.Props.C26_rhs",
    "Cafes.Props.C26_idempotent_decomposition"
   ],
   "note": ""
  },
  {
   "property": "C27",
   "status": "proved",
   "theorems": [
    "Cafes.Props.C27_null"
   ],
   "note": ""
  },
  {
   "property": "C28",
   "status": "proved",
   "theorems": [
    "Cafes.Props.C28_walls",
    "Cafes.Props.C28_rows",
    "Cafes.Props.C28_stride_refuted",
    "Cafes.Props.C28_null_condition_refuted",
    "Cafes.Props.C28_stokes_laplacian",
    "Cafes.Props.C28_stokes_strain"
   ],
   "note": "exact statement proved for every input; the intended claim fails, counterexamples: C28_stride_refuted, C28_null_condition_refuted"
  },
  {
   "property": "C29",
   "status": "proved",
   "theorems": [
    "Cafes.Props.C29_rhs",
    "Cafes.Props.C29_no_source"
   ],
   "note": ""
  },
  {
   "property": "C30",
   "status": "proved",
   "theorems": [
    "Cafes.Props.C30_intersect_iff",
    "Cafes.Props.C30_never_skips",
    "Cafes.Props.C30_symm"
   ],
   "note": ""
  },
  {
   "property": "C31",
   "status": "proved",
   "theorems": [
    "Cafes.Props.C31_overlap_exact",
    "Cafes.Props.C31_box_inside_eq",
    "Cafes.Props.C31_union_least",
    "Cafes.Props.C31_laws"
   ],
   "note": ""
  },
  {
   "property": "C32",
   "status": "proved",
   "theorems": [
    "Cafes.Props.C32_point_inside_iff_visited"
   ],
   "note": ""
  },
  {
   "property": "C33",
   "status": "proved",
   "theorems": [
    "Cafes.Props.C33_refuted_true",
    "Cafes.Props.C33_refuted_false",
    "Cafes.Props.C33_exact",
    "Cafes.Props.C33_meeting",
    "Cafes.Props.C33_corner"
   ],
   "note": "exact statement proved for every input; the intended claim fails, counterexamples: C33_refuted_true, C33_refuted_false"
  },
  {
   "property": "C34",
   "status": "proved",
   "theorems": [
    "Cafes.Geometry.C34_arithmetic",
    "Cafes.Geometry.C34_mixed",
    "Cafes.Geometry.C34_refuted"
   ],
   "note": "exact statement proved for every input; the intended claim fails, counterexamples: C34_refuted"
  },
  {
   "property": "C35",
   "status": "proved",
   "theorems": [
    "Cafes.Geometry.C35_cross3",
    "Cafes.Geometry.C35_cross2"
   ],
   "note": ""
  },
  {
   "property": "C36",
   "status": "proved",
   "theorems": [
    "Cafes.Geometry.C36_rodrigues",
    "Cafes.Geometry.C36_rigid",
    "Cafes.Geometry.C36_rotation",
    "Cafes.Geometry.C36_plane"
   ],
   "note": ""
  },
  {
   "property": "C37",
   "status": "proved",
   "theorems": [
    "Cafes.Geometry.C37_normalize",
    "Cafes.Geometry.C37_refuted"
   ],
   "note": "exact statement proved for every input; the intended claim fails, counterexamples: C37_refuted"
  },
  {
   "property": "C38",
   "status": "proved",
   "theorems": [
    "Cafes.Geometry.C38_plane",
    "Cafes.Geometry.C38_space_unrotated",
    "Cafes.Geometry.C38_sphere",
    "Cafes.Geometry.C38_space",
    "Cafes.Geometry.C38_counterexample",
    "Cafes.Geometry.C38_refuted"
   ],
   "note": "exact statement proved for every input; the intended claim fails, counterexamples: C38_counterexample, C38_refuted"
  },
  {
   "property": "C39",
   "status": "proved",
   "theorems": [
    "Cafes.Geometry.C39_plane",
    "Cafes.Geometry.C39_space",
    "Cafes.Geometry.C39_refuted"
   ],
   "note": "exact statement proved for every input; the intended claim fails, counterexamples: C39_refuted"
  },
  {
   "property": "C40",
   "status": "proved",
   "theorems": [
    "Cafes.Geometry.C40_loop",
    "Cafes.Geometry.C40_surface",
    "Cafes.Geometry.C40_symmetric",
    "Cafes.Geometry.C40_circle",
    "Cafes.Geometry.C40_parametric",
    "Cafes.Geometry.C40_refuted"
   ],
   "note": "exact statement proved for every input; the intended claim fails, counterexamples: C40_refuted"
  },
  {
   "property": "C41",
   "status": "proved",
   "theorems": [
    "Cafes.Geometry.C41_linspace"
   ],
   "note": ""
  },
  {
   "property": "C42",
   "status": "proved",
   "theorems": [
    "Cafes.Particle.C42_plane",
    "Cafes.Particle.C42_space",
    "Cafes.Particle.C42_negative_corner"
   ],
   "note": ""
  },
  {
   "property": "C43",
   "status": "proved",
   "theorems": [
    "Cafes.Particle.C43_localised",
    "Cafes.Particle.C43_complete",
    "Cafes.Particle.C43_negative_point"
   ],
   "note": ""
  },
  {
   "property": "C44",
   "status": "proved",
   "theorems": [
    "Cafes.Particle.C44_aligned",
    "Cafes.Particle.C44_length"
   ],
   "note": ""
  },
  {
   "property": "C45",
   "status": "proved",
   "theorems": [
    "Cafes.Particle.C45_nodes_plane",
    "Cafes.Particle.C45_nodes_space",
    "Cafes.Particle.C45_surface_once",
    "Cafes.Particle.C45_counts",
    "Cafes.Particle.C45_total_size",
    "Cafes.Particle.C45_independent"
   ],
   "note": ""
  },
  {
   "property": "C46",
   "status": "proved",
   "theorems": [
    "Cafes.Particle.C46_count",
    "Cafes.Particle.C46_plane",
    "Cafes.Particle.C46_mono"
   ],
   "note": ""
  },
  {
   "property": "C47",
   "status": "proved",
   "theorems": [
    "Cafes.Particle.C47_compute_y",
    "Cafes.Particle.C47_compute_y_mean",
    "Cafes.Particle.C47_set_rhs",
    "Cafes.Particle.C47_reads_in_bounds",
    "Cafes.Particle.C47_round_trip"
   ],
   "note": ""
  },
  {
   "property": "C48",
   "status": "proved",
   "theorems": [
    "Cafes.Particle.C48_force_density",
    "Cafes.Particle.C48_reached"
   ],
   "note": ""
  },
  {
   "property": "C49",
   "status": "proved",
   "theorems": [
    "Cafes.Particle.C49_equilibrated",
    "Cafes.Particle.C49_rigid",
    "Cafes.Particle.C49_idempotent",
    "Cafes.Particle.C49_circle"
   ],
   "note": ""
  },
  {
   "property": "C50",
   "status": "proved",
   "theorems": [
    "Cafes.Particle.C50_value",
    "Cafes.Particle.C50_refuted"
   ],
   "note": "exact statement proved for every input; the intended claim fails, counterexamples: C50_refuted"
  },
  {
   "property": "C51",
   "status": "proved",
   "theorems": [
    "Cafes.Particle.C51_adjoint",
    "Cafes.Particle.C51_adjoint_bc",
    "Cafes.Particle.C51_points"
   ],
   "note": ""
  },
  {
   "property": "C52",
   "status": "proved",
   "theorems": [
    "Cafes.Particle.C52_forces_torques",
    "Cafes.Particle.C52_shift"
   ],
   "note": ""
  },
  {
   "property": "C53",
   "status": "proved",
   "theorems": [
    "Cafes.Particle.C53_refuted",
    "Cafes.Particle.C53_exact"
   ],
   "note": "exact statement proved for every input; the intended claim fails, counterexamples: C53_refuted"
  },
  {
   "property": "C54",
   "status": "proved",
   "theorems": [
    "Cafes.Props.C54_layout",
    "Cafes.Props.C54_particles",
    "Cafes.Props.C54_entries3",
    "Cafes.Props.C54_torques2",
    "Cafes.Props.C54_torques2_refuted"
   ],
   "note": "exact description of the layout, including the wrong 2D torque index (C54_torques2_refuted is the counterexample to the intended layout)"
  },
  {
   "property": "C55",
   "status": "proved",
   "theorems": [
    "Cafes.Props.C55_linear",
    "Cafes.Props.C55_solve",
    "Cafes.Props.C55_history",
    "Cafes.Props.C55_use_sing",
    "Cafes.Props.C55_second_call",
    "Cafes.Props.C55_own_flags",
    "Cafes.Props.C55_use_sing_refuted",
    "Cafes.Props.C55_second_call_refuted",
    "Cafes.Props.C55_settled"
   ],
   "note": "exact statement proved for every input; the intended claim fails, counterexamples: C55_use_sing_refuted, C55_second_call_refuted"
  },
  {
   "property": "C56",
   "status": "proved",
   "theorems": [
    "Cafes.Props.C56_shape",
    "Cafes.Props.C56_derivatives",
    "Cafes.Props.C56_d4_refuted"
   ],
   "note": "exact statement proved for every input; the intended claim fails, counterexamples: C56_d4_refuted"
  },
  {
   "property": "C57",
   "status": "proved",
   "theorems": [
    "Cafes.Props.C57_values",
    "Cafes.Props.C57_derivatives",
    "Cafes.Props.C57_refuted",
    "Cafes.Props.C57_exact",
    "Cafes.Props.C57_d4",
    "Cafes.Props.C57_d4_refuted"
   ],
   "note": "exact statements proved for every input; the intended claims fail, counterexamples: C57_refuted, C57_d4_refuted"
  },
  {
   "property": "C58",
   "status": "proved",
   "theorems": [
    "Cafes.Props.C58_frame2D",
    "Cafes.Props.C58_frame3D_exact",
    "Cafes.Props.C58_frame3D_good",
    "Cafes.Props.C58_frame3D_refuted"
   ],
   "note": "exact statement proved for every input; the intended claim fails, counterexamples: C58_frame3D_refuted"
  },
  {
   "property": "C59",
   "status": "proved",
   "theorems": [
    "Cafes.Props.C59_cutoff",
    "Cafes.Props.C59_support2D",
    "Cafes.Props.C59_support3D"
   ],
   "note": ""
  },
  {
   "property": "C60",
   "status": "proved",
   "theorems": [
    "Cafes.Props.C60_normal2D_uz",
    "Cafes.Props.C60_normal2D_ux_refuted",
    "Cafes.Props.C60_normal2D_ux",
    "Cafes.Props.C60_normal2D_exact",
    "Cafes.Props.C60_normal3D_off_axis",
    "Cafes.Props.C60_normal3D_axial",
    "Cafes.Props.C60_normal3D_axis_refuted",
    "Cafes.Props.C60_normal3D_axis"
   ],
   "note": "exact statement proved for every input; the intended claim fails, counterexamples: C60_normal2D_ux_refuted, C60_normal3D_axis_refuted"
  },
  {
   "property": "C61",
   "status": "proved",
   "theorems": [
    "Cafes.Props.C61_normal2D",
    "Cafes.Props.C61_normal2D_velocity_refuted",
    "Cafes.Props.C61_normal2D_velocity",
    "Cafes.Props.C61_normal3D_off_axis",
    "Cafes.Props.C61_normal3D_velocity",
    "Cafes.Props.C61_normal3D_axis_refuted"
   ],
   "note": "exact statement proved for every input; the intended claim fails, counterexamples: C61_normal2D_velocity_refuted, C61_normal3D_axis_refuted"
  },
  {
   "property": "C62",
   "status": "proved",
   "theorems": [
    "Cafes.Props.C62_normal2D_first",
    "Cafes.Props.C62_normal2D_second",
    "Cafes.Props.C62_normal2D_second_const",
    "Cafes.Props.C62_normal2D_second_refuted",
    "Cafes.Props.C62_normal3D_first",
    "Cafes.Props.C62_normal3D_second",
    "Cafes.Props.C62_normal3D_second_const",
    "Cafes.Props.C62_normal3D_second_refuted"
   ],
   "note": "exact statement proved for every input; the intended claim fails, counterexamples: C62_normal2D_second_refuted, C62_normal3D_second_refuted"
  },
  {
   "property": "C63",
   "status": "proved",
   "theorems": [
    "Cafes.Props.C63_change_of_frame",
    "Cafes.Props.C63_trace",
    "Cafes.Props.C63_normal3D",
    "Cafes.Props.C63_normal2D",
    "Cafes.Props.C63_normal2D_refuted",
    "Cafes.Props.C63_normal3D_axis_refuted"
   ],
   "note": "exact statement proved for every input; the intended claim fails, counterexamples: C63_normal2D_refuted, C63_normal3D_axis_refuted"
  },
  {
   "property": "C64",
   "status": "proved",
   "theorems": [
    "Cafes.Props.C64_smallest",
    "Cafes.Props.C64_least",
    "Cafes.Props.C64_coarsest"
   ],
   "note": ""
  },
  {
   "property": "C65",
   "status": "proved",
   "theorems": [
    "Cafes.Props.C65_square",
    "Cafes.Props.C65_step",
    "Cafes.Props.C65_rectangle_refuted",
    "Cafes.Props.C65_cube_never"
   ],
   "note": "exact: terminates with the right level on square plane hierarchies; C65_rectangle_refuted and C65_cube_never show where the loop does not end"
  },
  {
   "property": "C66",
   "status": "proved",
   "theorems": [
    "Cafes.Props.C66_sufficient"
   ],
   "note": ""
  },
  {
   "property": "C67",
   "status": "proved",
   "theorems": [
    "Cafes.Props.C67_mass_pair2",
    "Cafes.Props.C67_velocity_only2",
    "Cafes.Props.C67_mass_pair3",
    "Cafes.Props.C67_velocity_only3"
   ],
   "note": ""
  },
  {
   "property": "C68",
   "status": "proved",
   "theorems": [
    "Cafes.Props.C68_refuted",
    "Cafes.Props.C68_exact",
    "Cafes.Props.C68_zero"
   ],
   "note": "exact statement proved for every input; the intended claim fails, counterexamples: C68_refuted"
  },
  {
   "property": "C69",
   "status": "proved",
   "theorems": [
    "Cafes.Props.C69_velocity",
    "Cafes.Props.C69_cells_cover",
    "Cafes.Props.C69_bilinear",
    "Cafes.Props.C69_unequal_unwritten",
    "Cafes.Props.C69_unequal_overrun",
    "Cafes.Props.C69_pressure_overrun",
    "Cafes.Props.C69_writes_inside"
   ],
   "note": ""
  },
  {
   "property": "C70",
   "status": "proved",
   "theorems": [
    "Cafes.Props.C70_velocity",
    "Cafes.Props.C70_pressure"
   ],
   "note": ""
  },
  {
   "property": "C71",
   "status": "proved",
   "theorems": [
    "Cafes.Particle.C71_num_refuted",
    "Cafes.Particle.C71_lists",
    "Cafes.Particle.C71_exact",
    "Cafes.Particle.C71_repeat"
   ],
   "note": "exact statement proved for every input; the intended claim fails, counterexamples: C71_num_refuted"
  },
  {
   "property": "C72",
   "status": "proved",
   "theorems": [
    "Cafes.Particle.C72_constant",
    "Cafes.Particle.C72_refuted"
   ],
   "note": "exact statement proved for every input; the intended claim fails, counterexamples: C72_refuted"
  },
  {
   "property": "C73",
   "status": "proved",
   "theorems": [
    "Cafes.Particle.C73_total",
    "Cafes.Particle.C73_interp2",
    "Cafes.Particle.C73_interp3",
    "Cafes.Particle.C73_bounds2"
   ],
   "note": ""
  },
  {
   "property": "C83",
   "status": "proved",
   "theorems": [
    "Cafes.Props.C83_linear",
    "Cafes.Props.C83_control",
    "Cafes.Props.C83_stale",
    "Cafes.Props.C83_refuted"
   ],
   "note": "exact statement proved for every input; the intended claim fails, counterexamples: C83_refuted"
  },
  {
   "property": "C74",
   "status": "proved",
   "theorems": [
    "Cafes.Particle.C74_projection",
    "Cafes.Particle.C74_uniform",
    "Cafes.Particle.C74_affine2",
    "Cafes.Particle.C74_affine3"
   ],
   "note": ""
  },
  {
   "property": "C85",
   "status": "proved",
   "theorems": [
    "Cafes.Props.C85_count",
    "Cafes.Props.C85_capacity",
    "Cafes.Props.C85_length",
    "Cafes.Props.C85_corners2",
    "Cafes.Props.C85_corners3"
   ],
   "note": ""
  },
  {
   "property": "C77",
   "status": "proved",
   "theorems": [
    "Cafes.Props.C77_pairs",
    "Cafes.Props.C77_no_particle_refuted",
    "Cafes.Props.C77_forces"
   ],
   "note": "exact statement proved for every input; the intended claim fails, counterexamples: C77_no_particle_refuted"
  },
  {
   "property": "C78",
   "status": "proved",
   "theorems": [
    "Cafes.Props.C78_2D_refuted",
    "Cafes.Props.C78_3D_weights",
    "Cafes.Props.C78_3D_one",
    "Cafes.Props.C78_3D_refuted",
    "Cafes.Props.C78_stress2",
    "Cafes.Props.C78_stress3",
    "Cafes.Props.C78_stress3_iff",
    "Cafes.Props.C78_stress_sing"
   ],
   "note": "exact statement proved for every input; the intended claim fails, counterexamples: C78_2D_refuted, C78_3D_refuted"
  },
  {
   "property": "C80",
   "status": "proved",
   "theorems": [
    "Cafes.Props.C80_decomposition",
    "Cafes.Props.C80_weak_form2",
    "Cafes.Props.C80_weak_form3",
    "Cafes.Props.C80_no_net_force2",
    "Cafes.Props.C80_no_net_force3",
    "Cafes.Props.C80_zone2",
    "Cafes.Props.C80_zone3"
   ],
   "note": ""
  },
  {
   "property": "C81",
   "status": "proved",
   "theorems": [
    "Cafes.Props.C81_owner_only",
    "Cafes.Props.C81_interior",
    "Cafes.Props.C81_average",
    "Cafes.Props.C81_refuted"
   ],
   "note": "exact statement proved for every input; the intended claim fails, counterexamples: C81_refuted"
  },
  {
   "property": "C86",
   "status": "proved",
   "theorems": [
    "Cafes.Props.C86_mass2",
    "Cafes.Props.C86_mass3",
    "Cafes.Props.C86_laplacian2",
    "Cafes.Props.C86_laplacian3",
    "Cafes.Props.C86_strain2",
    "Cafes.Props.C86_strain3",
    "Cafes.Props.C86_divergence2",
    "Cafes.Props.C86_stokesStrain2",
    "Cafes.Props.C86_stokesLap2",
    "Cafes.Props.C86_divergence3",
    "Cafes.Props.C86_stokesStrain3",
    "Cafes.Props.C86_stokesLap3"
   ],
   "note": ""
  },
  {
   "property": "C76",
   "status": "proved",
   "theorems": [
    "Cafes.Props.C76_box2D",
    "Cafes.Props.C76_box3D"
   ],
   "note": ""
  },
  {
   "property": "C84",
   "status": "proved",
   "theorems": [
    "Cafes.Props.C84_accumulate",
    "Cafes.Props.C84_no_source"
   ],
   "note": ""
  },
  {
   "property": "C87",
   "status": "proved",
   "theorems": [
    "Cafes.Props.C87_dton",
    "Cafes.Props.C87_sem",
    "Cafes.Props.C87_example",
    "Cafes.Props.C87_spread",
    "Cafes.Props.C87_layer"
   ],
   "note": ""
  },
  {
   "property": "C88",
   "status": "proved",
   "theorems": [
    "Cafes.Props.C88_lubrication3D",
    "Cafes.Props.C88_lubrication2D"
   ],
   "note": ""
  },
  {
   "property": "C89",
   "status": "proved",
   "theorems": [
    "Cafes.Vtk.C89_file2",
    "Cafes.Vtk.C89_file3",
    "Cafes.Vtk.C89_collection2",
    "Cafes.Vtk.C89_collection3",
    "Cafes.Vtk.C89_periodic_refuted"
   ],
   "note": "proved for every file and for collections on non periodic meshes; on periodic meshes the intended claim fails, counterexample for every such mesh: C89_periodic_refuted"
  },
  {
   "property": "C90",
   "status": "proved",
   "theorems": [
    "Cafes.Vtk.C90_particles2",
    "Cafes.Vtk.C90_particles3",
    "Cafes.Vtk.C90_points",
    "Cafes.Vtk.C90_height_refuted"
   ],
   "note": "exact statement proved for every input; in 3D without forces the intended claim fails: C90_height_refuted"
  },
  {
   "property": "C91",
   "status": "proved",
   "theorems": [
    "Cafes.Props.C91_gradient2D",
    "Cafes.Props.C91_divergence2D",
    "Cafes.Props.C91_noslip2D",
    "Cafes.Props.C91_lubrication2D"
   ],
   "note": ""
  },
  {
   "property": "C92",
   "status": "proved",
   "theorems": [
    "Cafes.Props.C92_gradient3D",
    "Cafes.Props.C92_divergence3D",
    "Cafes.Props.C92_noslip3D",
    "Cafes.Props.C92_noslip3D_refuted",
    "Cafes.Props.C92_noslip3D_equal",
    "Cafes.Props.C92_lubrication3D",
    "Cafes.Props.C92_axis3D",
    "Cafes.Props.C92_axis3D_refuted"
   ],
   "note": "exact statement proved for every input; the intended no-slip claim fails for unequal curvatures (C92_noslip3D_refuted) and dxuz on the axis is wrong (C92_axis3D_refuted)"
  },
  {
   "property": "C93",
   "status": "proved",
   "theorems": [
    "Cafes.Props.C93_fine2",
    "Cafes.Props.C93_fine3",
    "Cafes.Props.C93_operator2",
    "Cafes.Props.C93_operator3",
    "Cafes.Props.C93_velocity2",
    "Cafes.Props.C93_velocity3",
    "Cafes.Props.C93_pressure2",
    "Cafes.Props.C93_pressure3"
   ],
   "note": ""
  },
  {
   "property": "C94",
   "status": "proved",
   "theorems": [
    "Cafes.Props.C94_flux2",
    "Cafes.Props.C94_closed2",
    "Cafes.Props.C94_open2",
    "Cafes.Props.C94_operator2",
    "Cafes.Props.C94_problem2",
    "Cafes.Props.C94_flux3",
    "Cafes.Props.C94_closed3",
    "Cafes.Props.C94_open3",
    "Cafes.Props.C94_operator3",
    "Cafes.Props.C94_problem3"
   ],
   "note": ""
  },
  {
   "property": "C95",
   "status": "proved",
   "theorems": [
    "Cafes.Geometry.C95_terminates",
    "Cafes.Geometry.C95_undefined",
    "Cafes.Geometry.C95_intended",
    "Cafes.Geometry.C95_exchanged",
    "Cafes.Geometry.C95_equal",
    "Cafes.Geometry.C95_off",
    "Cafes.Geometry.C95_balanced",
    "Cafes.Geometry.C95_repeated",
    "Cafes.Geometry.C95_sphere"
   ],
   "note": "The English claim states what the code does: undefined behaviour under the usual growth policies (C95_undefined), points off the surface when the exponents differ (C95_off), repeated points (C95_repeated); the intended list is characterised by the other theorems."
  },
  {
   "property": "C96",
   "status": "proved",
   "theorems": [
    "Cafes.Props.C96_exact2",
    "Cafes.Props.C96_exact3",
    "Cafes.Props.C96_unique2",
    "Cafes.Props.C96_unique3",
    "Cafes.Props.C96_square_needed"
   ],
   "note": ""
  },
  {
   "property": "C97",
   "status": "proved",
   "theorems": [
    "Cafes.Props.C97_value",
    "Cafes.Props.C97_keeps",
    "Cafes.Props.C97_aligned",
    "Cafes.Props.C97_even_split",
    "Cafes.Props.C97_even_overrun"
   ],
   "note": ""
  },
  {
   "property": "C98",
   "status": "proved",
   "theorems": [
    "Cafes.Props.C98_jacobi2",
    "Cafes.Props.C98_jacobi3",
    "Cafes.Props.C98_mass2",
    "Cafes.Props.C98_mass3",
    "Cafes.Props.C98_diagonal2",
    "Cafes.Props.C98_diagonal3",
    "Cafes.Props.C98_identity2",
    "Cafes.Props.C98_identity3",
    "Cafes.Props.C98_bounds2",
    "Cafes.Props.C98_bounds3",
    "Cafes.Props.C98_eigenvalues2",
    "Cafes.Props.C98_eigenvalues3"
   ],
   "note": ""
  },
  {
   "property": "C99",
   "status": "proved",
   "theorems": [
    "Cafes.Props.C99_free2",
    "Cafes.Props.C99_asymmetric2",
    "Cafes.Props.C99_jacobi2",
    "Cafes.Props.C99_free3",
    "Cafes.Props.C99_asymmetric3",
    "Cafes.Props.C99_jacobi3"
   ],
   "note": ""
  },
  {
   "property": "C100",
   "status": "proved",
   "theorems": [
    "Cafes.Geometry.C100_force",
    "Cafes.Geometry.C100_self",
    "Cafes.Geometry.C100_self_values",
    "Cafes.Geometry.C100_self_iff",
    "Cafes.Geometry.C100_copy",
    "Cafes.Geometry.C100_round"
   ],
   "note": ""
  },
  {
   "property": "C101",
   "status": "proved",
   "theorems": [
    "Cafes.Props.C101_linear",
    "Cafes.Props.C101_balance",
    "Cafes.Props.C101_rest",
    "Cafes.Props.C101_flow",
    "Cafes.Props.C101_moving_refuted",
    "Cafes.Props.C101_last_refuted"
   ],
   "note": "exact statement proved for every input; the intended claims fail, counterexamples: C101_moving_refuted, C101_last_refuted. The templates do not instantiate as written (types of forces): modelled as they act once the types agree, see Model/NtodDriver.lean"
  },
  {
   "property": "C102",
   "status": "proved",
   "theorems": [
    "Cafes.Geometry.C102_disk",
    "Cafes.Geometry.C102_ball",
    "Cafes.Geometry.C102_circle",
    "Cafes.Geometry.C102_sphere"
   ],
   "note": ""
  },
  {
   "property": "C75",
   "status": "proved",
   "theorems": [
    "Cafes.Props.C75_walls2D",
    "Cafes.Props.C75_jump2D",
    "Cafes.Props.C75_walls3D",
    "Cafes.Props.C75_jump3D",
    "Cafes.Props.C75_jump3D_refuted",
    "Cafes.Props.C75_galilean2D",
    "Cafes.Props.C75_galilean3D"
   ],
   "note": "exact statement proved for every input; in space the intended claim fails by its sign, counterexample: C75_jump3D_refuted"
  },
  {
   "property": "C103",
   "status": "proved",
   "theorems": [
    "Cafes.Props.C103_strain2",
    "Cafes.Props.C103_laplacian2",
    "Cafes.Props.C103_characterised2",
    "Cafes.Props.C103_reciprocal2",
    "Cafes.Props.C103_strain3",
    "Cafes.Props.C103_laplacian3",
    "Cafes.Props.C103_characterised3",
    "Cafes.Props.C103_reciprocal3"
   ],
   "note": ""
  },
  {
   "property": "C104",
   "status": "proved",
   "theorems": [
    "Cafes.Props.C104_options2",
    "Cafes.Props.C104_options3",
    "Cafes.Props.C104_box",
    "Cafes.Props.C104_assembling2",
    "Cafes.Props.C104_wellposed2",
    "Cafes.Props.C104_flow2",
    "Cafes.Props.C104_wellposed3",
    "Cafes.Props.C104_flow3",
    "Cafes.Props.C104_flow_assembling2"
   ],
   "note": ""
  },
  {
   "property": "C105",
   "status": "proved",
   "theorems": [
    "Cafes.Props.C105_hull3",
    "Cafes.Props.C105_delaunay2",
    "Cafes.Props.C105_delaunay2_refuted",
    "Cafes.Props.C105_overrun3"
   ],
   "note": "exact statement proved for every input; the intended 2D claim fails, counterexample: C105_delaunay2_refuted"
  },
  {
   "property": "C106",
   "status": "proved",
   "theorems": [
    "Cafes.Props.C106_velocities2",
    "Cafes.Props.C106_velocities3",
    "Cafes.Props.C106_affine2",
    "Cafes.Props.C106_affine3",
    "Cafes.Props.C106_decomposition",
    "Cafes.Props.C106_circle",
    "Cafes.Props.C106_forces"
   ],
   "note": ""
  },
  {
   "property": "C107",
   "status": "proved",
   "theorems": [
    "Cafes.Props.C107_fields2",
    "Cafes.Props.C107_source2",
    "Cafes.Props.C107_force2",
    "Cafes.Props.C107_at",
    "Cafes.Props.C107_lawful2",
    "Cafes.Props.C107_ntod2",
    "Cafes.Props.C107_homogeneous3",
    "Cafes.Props.C107_source3",
    "Cafes.Props.C107_additive3_refuted"
   ],
   "note": "linearity and instantiation proved in the plane; in space the intended claim fails for the singular velocity, counterexample: C107_additive3_refuted. The copy of velocities is modelled as on one process"
  },
  {
   "property": "C108",
   "status": "proved",
   "theorems": [
    "Cafes.Props.C108_solver",
    "Cafes.Props.C108_optimal",
    "Cafes.Props.C108_surface",
    "Cafes.Props.C108_dton",
    "Cafes.Props.C108_control",
    "Cafes.Props.C108_exists",
    "Cafes.Props.C108_least2",
    "Cafes.Props.C108_least3",
    "Cafes.Props.C108_control2",
    "Cafes.Props.C108_control3",
    "Cafes.Props.C108_example"
   ],
   "note": ""
  },
  {
   "property": "C109",
   "status": "proved",
   "theorems": [
    "Cafes.Props.C109_surf",
    "Cafes.Props.C109_particle",
    "Cafes.Props.C109_zone2",
    "Cafes.Props.C109_zone3",
    "Cafes.Props.C109_band3",
    "Cafes.Props.C109_added2",
    "Cafes.Props.C109_added3",
    "Cafes.Props.C109_arcs",
    "Cafes.Props.C109_circles"
   ],
   "note": ""
  },
  {
   "property": "C110",
   "status": "proved",
   "theorems": [
    "Cafes.Props.C110_seen",
    "Cafes.Props.C110_unseen",
    "Cafes.Props.C110_forces",
    "Cafes.Props.C110_size",
    "Cafes.Props.C110_size_iff",
    "Cafes.Props.C110_copies",
    "Cafes.Props.C110_kernel",
    "Cafes.Props.C110_same",
    "Cafes.Props.C110_crossing",
    "Cafes.Props.C110_stale",
    "Cafes.Props.C110_sing_refuted"
   ],
   "note": "exact statement proved; C110_sing_refuted shows that processes can disagree on a close pair"
  },
  {
   "property": "C111",
   "status": "proved",
   "theorems": [
    "Cafes.Props.C111_exists",
    "Cafes.Props.C111_exists2",
    "Cafes.Props.C111_exists3",
    "Cafes.Props.C111_optimal",
    "Cafes.Props.C111_sem",
    "Cafes.Props.C111_least2",
    "Cafes.Props.C111_least3",
    "Cafes.Props.C111_disk",
    "Cafes.Props.C111_rigid",
    "Cafes.Props.C111_example"
   ],
   "note": ""
  },
  {
   "property": "C112",
   "status": "proved",
   "theorems": [
    "Cafes.Spec.C112_poincare2",
    "Cafes.Spec.C112_laplacian2",
    "Cafes.Spec.C112_strain2",
    "Cafes.Spec.C112_poincare3",
    "Cafes.Spec.C112_laplacian3",
    "Cafes.Spec.C112_strain3",
    "Cafes.Spec.C112_example"
   ],
   "note": ""
  },
  {
   "property": "C113",
   "status": "proved",
   "theorems": [
    "Cafes.Props.C113_inexact3",
    "Cafes.Props.C113_lid3",
    "Cafes.Props.C113_stretch3",
    "Cafes.Props.C113_sliding2",
    "Cafes.Props.C113_sliding3",
    "Cafes.Props.C113_lid2",
    "Cafes.Props.C113_quadratic2",
    "Cafes.Props.C113_quadratic3",
    "Cafes.Props.C113_analytic",
    "Cafes.Props.C113_inexact2"
   ],
   "note": ""
  },
  {
   "property": "C114",
   "status": "proved",
   "theorems": [
    "Cafes.Props.C114_block",
    "Cafes.Props.C114_diagonal",
    "Cafes.Props.C114_stokes",
    "Cafes.Props.C114_mass",
    "Cafes.Props.C114_source",
    "Cafes.Props.C114_control",
    "Cafes.Props.C114_layer",
    "Cafes.Props.C114_singular",
    "Cafes.Props.C114_lastSol",
    "Cafes.Props.C114_interp",
    "Cafes.Props.C114_history",
    "Cafes.Props.C114_library2",
    "Cafes.Props.C114_library3"
   ],
   "note": ""
  },
  {
   "property": "C115",
   "status": "proved",
   "theorems": [
    "Cafes.Props.C115_null",
    "Cafes.Props.C115_unique",
    "Cafes.Props.C115_periodic",
    "Cafes.Props.C115_constant2",
    "Cafes.Props.C115_constant3",
    "Cafes.Props.C115_stride"
   ],
   "note": ""
  },
  {
   "property": "C116",
   "status": "proved",
   "theorems": [
    "Cafes.Spmd.C116_schedule",
    "Cafes.Spmd.C116_materials",
    "Cafes.Spmd.C116_history",
    "Cafes.Spmd.C116_forces",
    "Cafes.Spmd.C116_example",
    "Cafes.Spmd.C116_branch_deadlock",
    "Cafes.Spmd.C116_count_deadlock"
   ],
   "note": ""
  },
  {
   "property": "C117",
   "status": "proved",
   "theorems": [
    "Cafes.Spmd.C117_run",
    "Cafes.Spmd.C117_processes2",
    "Cafes.Spmd.C117_processes3",
    "Cafes.Spmd.C117_residual",
    "Cafes.Spmd.C117_example"
   ],
   "note": ""
  },
  {
   "property": "C118",
   "status": "proved",
   "theorems": [
    "Cafes.Spmd.C118_run",
    "Cafes.Spmd.C118_dton",
    "Cafes.Spmd.C118_sem",
    "Cafes.Spmd.C118_dton_flow",
    "Cafes.Spmd.C118_sem_flow",
    "Cafes.Spmd.C118_example"
   ],
   "note": ""
  },
  {
   "property": "C119",
   "status": "proved",
   "theorems": [
    "Cafes.Props.C119_end2",
    "Cafes.Props.C119_end3",
    "Cafes.Props.C119_crash3",
    "Cafes.Props.C119_crash2",
    "Cafes.Props.C119_hole2",
    "Cafes.Props.C119_over3",
    "Cafes.Props.C119_allowed"
   ],
   "note": ""
  },
  {
   "property": "C120",
   "status": "proved",
   "theorems": [
    "Cafes.Spmd.C120_session",
    "Cafes.Spmd.C120_sem",
    "Cafes.Spmd.C120_velocities_unread",
    "Cafes.Spmd.C120_velocities2",
    "Cafes.Spmd.C120_velocities3",
    "Cafes.Spmd.C120_example"
   ],
   "note": ""
  },
  {
   "property": "C121",
   "status": "proved",
   "theorems": [
    "Cafes.Props.C121_rows",
    "Cafes.Props.C121_missing",
    "Cafes.Props.C121_determined",
    "Cafes.Props.C121_imposed",
    "Cafes.Props.C121_stokes3",
    "Cafes.Props.C121_example"
   ],
   "note": ""
  },
  {
   "property": "C122",
   "status": "proved",
   "theorems": [
    "Cafes.Props.C122_field2",
    "Cafes.Props.C122_field3",
    "Cafes.Props.C122_stokes2",
    "Cafes.Props.C122_decomposition2",
    "Cafes.Props.C122_stokes3",
    "Cafes.Props.C122_decomposition3",
    "Cafes.Props.C122_binary",
    "Cafes.Props.C122_order",
    "Cafes.Props.C122_exact2",
    "Cafes.Props.C122_exact3",
    "Cafes.Props.C122_double",
    "Cafes.Props.C122_diagonal2",
    "Cafes.Props.C122_diagonal3",
    "Cafes.Props.C122_jacobi2"
   ],
   "note": ""
  },
  {
   "property": "C123",
   "status": "proved",
   "theorems": [
    "Cafes.Props.C123_end",
    "Cafes.Props.C123_others",
    "Cafes.Props.C123_crash",
    "Cafes.Props.C123_hole",
    "Cafes.Props.C123_decomposition",
    "Cafes.Props.C123_example"
   ],
   "note": ""
  },
  {
   "property": "C124",
   "status": "proved",
   "theorems": [
    "Cafes.Props.C124_residual2",
    "Cafes.Props.C124_inexact2",
    "Cafes.Props.C124_spectrum2",
    "Cafes.Props.C124_spectrum_any2",
    "Cafes.Props.C124_symmetric2",
    "Cafes.Props.C124_zero2",
    "Cafes.Props.C124_residual3",
    "Cafes.Props.C124_inexact3",
    "Cafes.Props.C124_spectrum3",
    "Cafes.Props.C124_spectrum_any3",
    "Cafes.Props.C124_symmetric3",
    "Cafes.Props.C124_zero3",
    "Cafes.Props.C124_constant2",
    "Cafes.Props.C124_constant3"
   ],
   "note": ""
  },
  {
   "property": "C125",
   "status": "proved",
   "theorems": [
    "Cafes.RoundGeom.C125_box",
    "Cafes.RoundGeom.C125_scan2",
    "Cafes.RoundGeom.C125_scan3",
    "Cafes.RoundGeom.C125_decided2",
    "Cafes.RoundGeom.C125_decided3",
    "Cafes.RoundGeom.C125_surface",
    "Cafes.RoundGeom.C125_binary",
    "Cafes.RoundGeom.C125_exact",
    "Cafes.RoundGeom.C125_drift"
   ],
   "note": ""
  }
 ]
}