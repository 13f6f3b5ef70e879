{
 "C54": {
  "status": "proved",
  "note": "exact description of the layout, including the wrong 2D torque index (C54_torques2_refuted is the counterexample to the intended layout)"
 },
 "C65": {
  "status": "proved",
  "note": "exact: terminates with the right level on square plane hierarchies; C65_rectangle_refuted and C65_cube_never show where the loop does not end"
 },
 "C23": {
  "status": "proved",
  "note": "exact statement proved for every input; the intended claim fails, counterexamples: C23_refuted"
 },
 "C28": {
  "status": "proved",
  "note": "exact statement proved for every input; the intended claim fails, counterexamples: C28_stride_refuted, C28_null_condition_refuted"
 },
 "C33": {
  "status": "proved",
  "note": "exact statement proved for every input; the intended claim fails, counterexamples: C33_refuted_true, C33_refuted_false"
 },
 "C34": {
  "status": "proved",
  "note": "exact statement proved for every input; the intended claim fails, counterexamples: C34_refuted"
 },
 "C37": {
  "status": "proved",
  "note": "exact statement proved for every input; the intended claim fails, counterexamples: C37_refuted"
 },
 "C38": {
  "status": "proved",
  "note": "exact statement proved for every input; the intended claim fails, counterexamples: C38_counterexample, C38_refuted"
 },
 "C39": {
  "status": "proved",
  "note": "exact statement proved for every input; the intended claim fails, counterexamples: C39_refuted"
 },
 "C40": {
  "status": "proved",
  "note": "exact statement proved for every input; the intended claim fails, counterexamples: C40_refuted"
 },
 "C50": {
  "status": "proved",
  "note": "exact statement proved for every input; the intended claim fails, counterexamples: C50_refuted"
 },
 "C53": {
  "status": "proved",
  "note": "exact statement proved for every input; the intended claim fails, counterexamples: C53_refuted"
 },
 "C55": {
  "status": "proved",
  "note": "exact statement proved for every input; the intended claim fails, counterexamples: C55_use_sing_refuted, C55_second_call_refuted"
 },
 "C56": {
  "status": "proved",
  "note": "exact statement proved for every input; the intended claim fails, counterexamples: C56_d4_refuted"
 },
 "C57": {
  "status": "proved",
  "note": "exact statements proved for every input; the intended claims fail, counterexamples: C57_refuted, C57_d4_refuted"
 },
 "C58": {
  "status": "proved",
  "note": "exact statement proved for every input; the intended claim fails, counterexamples: C58_frame3D_refuted"
 },
 "C60": {
  "status": "proved",
  "note": "exact statement proved for every input; the intended claim fails, counterexamples: C60_normal2D_ux_refuted, C60_normal3D_axis_refuted"
 },
 "C61": {
  "status": "proved",
  "note": "exact statement proved for every input; the intended claim fails, counterexamples: C61_normal2D_velocity_refuted, C61_normal3D_axis_refuted"
 },
 "C62": {
  "status": "proved",
  "note": "exact statement proved for every input; the intended claim fails, counterexamples: C62_normal2D_second_refuted, C62_normal3D_second_refuted"
 },
 "C63": {
  "status": "proved",
  "note": "exact statement proved for every input; the intended claim fails, counterexamples: C63_normal2D_refuted, C63_normal3D_axis_refuted"
 },
 "C68": {
  "status": "proved",
  "note": "exact statement proved for every input; the intended claim fails, counterexamples: C68_refuted"
 },
 "C71": {
  "status": "proved",
  "note": "exact statement proved for every input; the intended claim fails, counterexamples: C71_num_refuted"
 },
 "C72": {
  "status": "proved",
  "note": "exact statement proved for every input; the intended claim fails, counterexamples: C72_refuted"
 },
 "C77": {
  "status": "proved",
  "note": "exact statement proved for every input; the intended claim fails, counterexamples: C77_no_particle_refuted"
 },
 "C78": {
  "status": "proved",
  "note": "exact statement proved for every input; the intended claim fails, counterexamples: C78_2D_refuted, C78_3D_refuted"
 },
 "C81": {
  "status": "proved",
  "note": "exact statement proved for every input; the intended claim fails, counterexamples: C81_refuted"
 },
 "C83": {
  "status": "proved",
  "note": "exact statement proved for every input; the intended claim fails, counterexamples: C83_refuted"
 },
 "C89": {
  "status": "proved",
  "note": "proved for every file and for collections on non periodic meshes; on periodic meshes the intended claim fails, counterexample for every such mesh: C89_periodic_refuted"
 },
 "C90": {
  "status": "proved",
  "note": "exact statement proved for every input; in 3D without forces the intended claim fails: C90_height_refuted"
 },
 "C92": {
  "status": "proved",
  "note": "exact statement proved for every input; the intended no-slip claim fails for unequal curvatures (C92_noslip3D_refuted) and dxuz on the axis is wrong (C92_axis3D_refuted)"
 },
 "C95": {
  "status": "proved",
  "note": "The English claim states what the code does: undefined behaviour under the usual growth policies (C95_undefined), points off the surface when the exponents differ (C95_off), repeated points (C95_repeated); the intended list is characterised by the other theorems."
 },
 "C101": {
  "status": "proved",
  "note": "exact statement proved for every input; the intended claims fail, counterexamples: C101_moving_refuted, C101_last_refuted. The templates do not instantiate as written (types of forces): modelled as they act once the types agree, see Model/NtodDriver.lean"
 },
 "C75": {
  "status": "proved",
  "note": "exact statement proved for every input; in space the intended claim fails by its sign, counterexample: C75_jump3D_refuted"
 },
 "C105": {
  "status": "proved",
  "note": "exact statement proved for every input; the intended 2D claim fails, counterexample: C105_delaunay2_refuted"
 },
 "C107": {
  "status": "proved",
  "note": "linearity and instantiation proved in the plane; in space the intended claim fails for the singular velocity, counterexample: C107_additive3_refuted. The copy of velocities is modelled as on one process"
 },
 "C110": {
  "status": "proved",
  "note": "exact statement proved; C110_sing_refuted shows that processes can disagree on a close pair"
 }
}