{
 "claims": [
  {
   "property": "C01",
   "status": "proved",
   "theorems": [
    "C01_rot_isRot",
    "C01_rot_mem_SO3",
    "C01_rot_axis",
    "C01_rot_turns",
    "C01_rot_add",
    "C01_rot_neg",
    "C01_rot_periodic",
    "C01_rot_unique"
   ],
   "note": "over the reals, for every unit axis and angle"
  },
  {
   "property": "C02",
   "status": "proved",
   "theorems": [
    "C02_hat_cross",
    "C02_hat_skew",
    "C02_invhat_hat",
    "C02_hat_invhat"
   ],
   "note": "over the reals"
  },
  {
   "property": "C03",
   "status": "proved",
   "theorems": [
    "C03_R2rot_regular",
    "C03_R2rot_rot"
   ],
   "note": "over the reals embedded in the extended reals, for every rotation outside the two singular bands; periodicity and axis-angle recovery included"
  },
  {
   "property": "C04",
   "status": "partial",
   "theorems": [
    "C04_R2rot_near_identity",
    "C04_R2rot_pi_partial",
    "C04_R2rot_yz_plane",
    "C04_R2rot_false",
    "C04_R2rot_identity_not_array"
   ],
   "note": "the claim is false as stated: line 119 of R2rot tests B[0,2] where B[1,2] is needed, so half turns with two vanishing axis components of a certain pattern get a wrong sign. C04_R2rot_false is the witness; the _partial theorems cover the rotations for which the branch is right"
  },
  {
   "property": "C05",
   "status": "proved",
   "theorems": [
    "C05_q2R_isRot",
    "C05_q2R_neg",
    "C05_q2R_mul",
    "C05_q2R_quatproduct",
    "C05_q2R_complement",
    "C05_q2R_conj"
   ],
   "note": "over the reals; spec is Mathlib's quaternion product and conjugation"
  },
  {
   "property": "C06",
   "status": "proved",
   "theorems": [
    "C06_R2q_q2R",
    "C06_q2R_R2q",
    "C06_q2R_surjective",
    "C06_R2q_total"
   ],
   "note": "both directions and surjectivity, exact arithmetic"
  },
  {
   "property": "C07",
   "status": "partial",
   "theorems": [
    "C07_rot2q",
    "C07_q2rot_rot2q",
    "C07_q2rot_sound_partial",
    "C07_q2rot_minus_one"
   ],
   "note": "rot2q proved in full; q2rot is right except at q0 = -1, where it divides 0 by 0 (C07_q2rot_minus_one)"
  },
  {
   "property": "C08",
   "status": "proved",
   "theorems": [
    "C08_quatproduct_hamilton",
    "C08_quatproduct_assoc",
    "C08_quatproduct_one",
    "C08_quatproduct_complement",
    "C08_quatproduct_norm"
   ],
   "note": "over the reals; spec is Mathlib's quaternion product"
  },
  {
   "property": "C09",
   "status": "proved",
   "theorems": [
    "C09_quatjacobian_deriv",
    "C09_quatjacobian_orthogonal",
    "C09_norm_preserved"
   ],
   "note": "HasDerivAt of each entry, for arbitrary differentiable trajectories"
  },
  {
   "property": "C10",
   "status": "proved",
   "theorems": [
    "C10_rpy2R_isRot",
    "C10_rpy2R_entries",
    "C10_R2rpy_raises",
    "C10_rpy2R_R2rpy",
    "C10_R2rpy_rpy2R"
   ],
   "note": "round trip, gimbal-lock rejection and ranges"
  },
  {
   "property": "C11",
   "status": "partial",
   "theorems": [
    "C11_slerp_raises",
    "C11_slerp_geodesic",
    "C11_slerp_endpoints",
    "C11_slerp_band",
    "C11_slerp_scaling_partial",
    "C11_slerp_sign_false"
   ],
   "note": "geodesic, endpoints, band and errors proved; sign independence is false when q0.q1 = 0 (C11_slerp_sign_false)"
  },
  {
   "property": "C12",
   "status": "proved",
   "theorems": [
    "C12_screw_add",
    "C12_screw_zero",
    "C12_screw_wrench",
    "C12_screw_twist",
    "C12_screw_power"
   ],
   "note": "over the reals"
  },
  {
   "property": "C13",
   "status": "proved",
   "theorems": [
    "C13_mul_assoc",
    "C13_identity",
    "C13_inv",
    "C13_inv_mul",
    "C13_rigid",
    "C13_act"
   ],
   "note": "group laws up to frame names"
  },
  {
   "property": "C14",
   "status": "proved",
   "theorems": [
    "C14_identity",
    "C14_ids_irrelevant",
    "C14_chain",
    "C14_inv",
    "C14_inv_chain"
   ],
   "note": "frame ids of products and inverses"
  },
  {
   "property": "C15",
   "status": "partial",
   "theorems": [
    "C15_eq_refl",
    "C15_isclose_refl",
    "C15_nan_never_equal",
    "C15_eq_iff",
    "C15_isclose_iff",
    "C15_isclose_mono",
    "C15_eq_symm_partial",
    "C15_eq_symm_false"
   ],
   "note": "symmetry of == is false because np.isclose is asymmetric (C15_eq_symm_false); reflexivity and the componentwise characterisation are proved"
  },
  {
   "property": "C16",
   "status": "proved",
   "theorems": [
    "C16_ctor_iff",
    "C16_ctor_raises",
    "C16_ctor_half"
   ],
   "note": "constructor accepts exactly the documented inputs; one-sided limits are dropped (C16_ctor_half)"
  },
  {
   "property": "C17",
   "status": "proved",
   "theorems": [
    "C17_fwdkin_chain",
    "C17_act_determines",
    "C17_fwdkin_fixed"
   ],
   "note": "against a point-wise specification, chains of any length"
  },
  {
   "property": "C18",
   "status": "proved",
   "theorems": [
    "C18_limits",
    "C18_no_limits",
    "C18_cut_base_raises",
    "C18_wrong_length",
    "C18_wrong_length_limits"
   ],
   "note": "exactly when the limit check raises; a chain that ends within a mobile base is accepted by the constructor and makes robotjacobian raise IndexError (C18_cut_base_raises)"
  },
  {
   "property": "C19",
   "status": "proved",
   "theorems": [
    "C19_fwdkin_periodic",
    "C19_fwdkin_prismatic"
   ],
   "note": "2 pi periodicity in rotary joints, affine in prismatic joints"
  },
  {
   "property": "C20",
   "status": "proved",
   "theorems": [
    "C20_jacobian_velocity",
    "C20_jacobian_columns"
   ],
   "note": "along any differentiable joint trajectory, any chain length; needs R_tool and p_tool both set or both None"
  },
  {
   "property": "C21",
   "status": "proved",
   "theorems": [
    "C21_unapply_apply",
    "C21_apply_unapply"
   ],
   "note": "both directions"
  },
  {
   "property": "C22",
   "status": "proved",
   "theorems": [
    "C22_mobile_jacobian"
   ],
   "note": "3,3,2 mobile base with any rotary/prismatic arm, nonholonomic drive"
  },
  {
   "property": "C23",
   "status": "proved",
   "theorems": [
    "C23_subproblem1",
    "C23_subproblem1_unique",
    "C23_subproblem1_least_squares",
    "C23_subproblem1_axis_raises",
    "C23_subproblem1_axis_scale",
    "C23_subproblem0",
    "C23_subproblem0_check_one_sided"
   ],
   "note": "exact outside the 2^-26 coincidence tolerance, within it otherwise; vectors on the axis raise"
  },
  {
   "property": "C24",
   "status": "partial",
   "theorems": [
    "C24_subproblem2_none",
    "C24_subproblem2_partial",
    "C24_subproblem2_tangent_false",
    "C24_subproblem2_parallel"
   ],
   "note": "false in the tangent case, where the arguments of subproblem1 are permuted (C24_subproblem2_tangent_false); proved for |disc| >= eps, sound and complete up to the coincidence tolerance"
  },
  {
   "property": "C25",
   "status": "partial",
   "theorems": [
    "C25_subproblem3_partial",
    "C25_subproblem3_on_axis"
   ],
   "note": "false when p or q is on the axis and every angle is a solution: the call raises (C25_subproblem3_on_axis); proved for all other inputs"
  },
  {
   "property": "C26",
   "status": "partial",
   "theorems": [
    "C26_subproblem4_partial",
    "C26_subproblem4_above",
    "C26_subproblem4_below_nan",
    "C26_subproblem4_degenerate_nan"
   ],
   "note": "false below the range ([nan, nan], C26_subproblem4_below_nan) and in the degenerate case (C26_subproblem4_degenerate_nan); proved for all other inputs"
  },
  {
   "property": "C27",
   "status": "partial",
   "theorems": [
    "C27_normalize_partial",
    "C27_normalize_principal",
    "C27_normalize_far_false"
   ],
   "note": "false when the angle is more than one turn away from the limits (C27_normalize_far_false); all other clauses proved, and dropping is right for principal angles with limits within +-3 pi (C27_normalize_principal)"
  },
  {
   "property": "C28",
   "status": "partial",
   "theorems": [
    "C28_call_no_last",
    "C28_call_last_partial",
    "C28_call_prunes_false"
   ],
   "note": "false with last_joints when exactly one candidate is within a quarter turn: the others are dropped (C28_call_prunes_false); otherwise proved"
  },
  {
   "property": "C29",
   "status": "proved",
   "theorems": [
    "C29_robot6_sound"
   ],
   "note": "over the extended reals, with explicit tolerances; poses within the singularity tolerance of the wrist are excluded as in the claim"
  },
  {
   "property": "C30",
   "status": "partial",
   "theorems": [
    "C30_robot6_complete_partial",
    "C30_robot6_empty_partial",
    "C30_robot6_returns",
    "C30_robot6_singular_raises",
    "C30_robot6_home_raises",
    "C30_robot6_far_limits_false"
   ],
   "note": "false at wrist singularities, where the call raises (C30_robot6_singular_raises, C30_robot6_home_raises), and for limits more than a turn away (C30_robot6_far_limits_false); proved exactly for regular arms and configurations without last_joints"
  },
  {
   "property": "C31",
   "status": "proved",
   "theorems": [
    "C31_robot6_limits",
    "C31_robot6_accepted"
   ],
   "note": "all robots and poses, also with NaN; hence fwdkin accepts every solution"
  },
  {
   "property": "C32",
   "status": "partial",
   "theorems": [
    "C32_robot6_last_never_empty",
    "C32_ur_last_never_empty",
    "C32_equiv_last_never_empty",
    "C32_equiv_empty",
    "C32_robot6_unreachable_partial",
    "C32_robot6_near_axis_raises",
    "C32_robot6_last_raises",
    "C32_ur_unreachable_partial",
    "C32_ur_near_axis_raises",
    "C32_ur_last_raises"
   ],
   "note": "false with last_joints: the empty list is never returned, the call raises instead (C32_*_last_never_empty, C32_*_last_raises, C32_equiv_empty); false without limits when the wrist centre is too close to the first axis (C32_*_near_axis_raises); proved otherwise for unreachable poses without last_joints"
  },
  {
   "property": "C33",
   "status": "proved",
   "theorems": [
    "C33_robot_unchanged",
    "C33_second_call",
    "C33_history"
   ],
   "note": "although columns of P may be changed in place; any history of calls"
  },
  {
   "property": "C34",
   "status": "proved",
   "theorems": [
    "C34_robot6_sorted",
    "C34_ur_sorted",
    "C34_equiv_sorted",
    "C34_first_closest"
   ],
   "note": "for all three functions, lists of any length"
  },
  {
   "property": "C35",
   "status": "proved",
   "theorems": [
    "C35_ur_sound"
   ],
   "note": "over the reals extended with NaN and infinities"
  },
  {
   "property": "C36",
   "status": "partial",
   "theorems": [
    "C36_ur_limits_partial",
    "C36_ur_limits_false"
   ],
   "note": "false: joint 5 is never checked against its limits (C36_ur_limits_false); proved for the other five joints"
  },
  {
   "property": "C37",
   "status": "proved",
   "theorems": [
    "C37_equivalent_sound"
   ],
   "note": "sound for every robot and list of solutions"
  },
  {
   "property": "C38",
   "status": "partial",
   "theorems": [
    "C38_equivalent_partial",
    "C38_heading_false",
    "C38_half_infinite_false"
   ],
   "note": "complete and duplicate free for joint types 0 and 1; type 2 (heading) joints are not expanded, C38_heading_false; an infinite limit loses turns or raises ValueError, C38_half_infinite_false"
  },
  {
   "property": "C39",
   "status": "partial",
   "theorems": [
    "C39_additional_partial",
    "C39_additional_false"
   ],
   "note": "the inputs themselves are returned too (C39_additional_false); what is proved says which"
  },
  {
   "property": "C40",
   "status": "partial",
   "theorems": [
    "C40_converged_partial",
    "C40_prismatic_false",
    "C40_half_turn_false"
   ],
   "note": "rotary joints and final orientation error away from half a turn; false otherwise (C40_prismatic_false, C40_half_turn_false)"
  },
  {
   "property": "C41",
   "status": "partial",
   "theorems": [
    "C41_iterative_result_partial",
    "C41_one_joint_false",
    "C41_wrong_length",
    "C41_one_joint_type",
    "C41_iterative_total",
    "C41_seed_solves"
   ],
   "note": "robots with exactly one joint raise TypeError (C41_one_joint_false); proved otherwise; a seed of the wrong length raises ValueError (C41_wrong_length)"
  },
  {
   "property": "C42",
   "status": "proved",
   "theorems": [
    "C42_quaternion",
    "C42_vector",
    "C42_twist",
    "C42_wrench",
    "C42_sizes"
   ],
   "note": "for every message and every vector, with sizes checked"
  },
  {
   "property": "C43",
   "status": "proved",
   "theorems": [
    "C43_roundtrip",
    "C43_message_roundtrip",
    "C43_other_rejected"
   ],
   "note": "for every rigid transform and every message with a unit quaternion; a missing frame id comes back as the empty string, as the theorem says"
  },
  {
   "property": "C44",
   "status": "proved",
   "theorems": [
    "C44_lookup",
    "C44_lookup_full",
    "C44_compose",
    "C44_available"
   ],
   "note": "for every listener, which is abstract; lookups compose when the listener is consistent; questions, waits and clear keep the listener's contract"
  },
  {
   "property": "C45",
   "status": "partial",
   "theorems": [
    "C45_joint_data_partial",
    "C45_joint_numbers_false"
   ],
   "note": "false: joint i gets joint_info[i] whatever joint_numbers says (C45_joint_numbers_false); the partial theorem covers chains with joint_numbers[i] = i"
  },
  {
   "property": "C46",
   "status": "partial",
   "theorems": [
    "C46_accepts_partial",
    "C46_first_number_false",
    "C46_negative_chain_false",
    "C46_null_limit_false"
   ],
   "note": "false in three ways: the first joint number is never range-checked, negative chain numbers are accepted, null limits become NaN; C46_accepts_partial states everything the loader does guarantee"
  },
  {
   "property": "C47",
   "status": "proved",
   "theorems": [
    "C47_tool_replaces",
    "C47_tcp_pose",
    "C47_tool_fwdkin"
   ],
   "note": "loader equation in both directions over the extended reals; forward kinematics over the reals"
  },
  {
   "property": "C48",
   "status": "proved",
   "theorems": [
    "C48_urdf_fwdkin"
   ],
   "note": "over the reals, unit axes; every chain with distinct joint names, every fuel"
  },
  {
   "property": "C49",
   "status": "proved",
   "theorems": [
    "C49_names_limits"
   ],
   "note": "for every scalar type"
  },
  {
   "property": "C50",
   "status": "proved",
   "theorems": [
    "C50_tip_unique",
    "C50_given_tip"
   ],
   "note": "for every scalar type; the file has distinct joint names and each link at most one parent. urdf_parser_py's graph functions are modelled from its published source"
  },
  {
   "property": "C51",
   "status": "proved",
   "theorems": [
    "C51_left_out",
    "C51_symmetric",
    "C51_kinetic_energy",
    "C51_psd",
    "C51_masses",
    "C51_total_mass",
    "C51_energies",
    "C51_loaded_symmetric"
   ],
   "note": "over the reals"
  },
  {
   "property": "C52",
   "status": "proved",
   "theorems": [
    "C52_pose",
    "C52_pose_base",
    "C52_fwdkin",
    "C52_joints"
   ],
   "note": "over the reals; the scene graph semantics (a joint's pose is its origin followed by its motion) is a small specification of the external library"
  },
  {
   "property": "C53",
   "status": "partial",
   "theorems": [
    "C53_scene_graph",
    "C53_prefix_injective",
    "C53_env",
    "C53_succeeds_iff",
    "C53_needs",
    "C53_default_succeeds",
    "C53_without_world",
    "C53_without_world_error",
    "C53_two_robots",
    "C53_two_robots_false",
    "C53_group"
   ],
   "note": "false for two robots in general: a robot named so that its prefixed names coincide with another robot's can clash (C53_two_robots_false), and include_world=False never succeeds (C53_without_world, C53_without_world_error); proved: a scene graph that is returned has distinct names and is connected, prefixing is injective, and the exact condition for success"
  },
  {
   "property": "C54",
   "status": "partial",
   "theorems": [
    "C54_links_exist",
    "C54_ur_tool_false",
    "C54_kdl",
    "C54_default_configured",
    "C54_opw_params",
    "C54_ur_params",
    "C54_unknown",
    "C54_override",
    "C54_string_override_false",
    "C54_string_raises",
    "C54_information"
   ],
   "note": "false for the documented string override, which is never accepted (C54_string_override_false), and for the UR solver with a tool: the tip link is the tool frame but the parameters end at the flange (C54_ur_tool_false); proved for all other arguments"
  },
  {
   "property": "C55",
   "status": "partial",
   "theorems": [
    "C55_accepted_partial",
    "C55_sign_zero_false",
    "C55_sliding_false",
    "C55_upper_arm",
    "C55_signs",
    "C55_opw_partial",
    "C55_vertical_false"
   ],
   "note": "False for robots whose forearm is vertical at zero, which are accepted with an orientation off by a quarter turn (C55_vertical_false); for some robots with axes within tolerance that are accepted with sign correction 0 for a joint (C55_sign_zero_false); and for robots with sliding joints, since joint types are only counted (C55_sliding_false). Proved for all other accepted robots: within rounding for exact axes (C55_opw_partial), within 1/1000 for axes within the tolerances (C55_accepted_partial)."
  },
  {
   "property": "C56",
   "status": "partial",
   "theorems": [
    "C56_ur_partial",
    "C56_last_link_false",
    "C56_urdf_false",
    "C56_plus_false",
    "C56_accepted_partial",
    "C56_sliding_false"
   ],
   "note": "False: d6 leaves out the last link (C56_last_link_false); the +x convention of ur_invkin is rejected (C56_urdf_false), the +x robots that are accepted get wrong parameters (C56_plus_false), and sliding joints are accepted (C56_sliding_false). Proved for the factory convention: exact for exact arms without a last link (C56_ur_partial), and within 1/400 and up to the last link for all accepted robots (C56_accepted_partial)."
  },
  {
   "property": "C57",
   "status": "proved",
   "theorems": [
    "C57_rows",
    "C57_jacobian"
   ],
   "note": ""
  },
  {
   "property": "C58",
   "status": "proved",
   "theorems": [
    "C58_roundtrip",
    "C58_roundtrip_iso",
    "C58_homomorphism"
   ],
   "note": "over the reals"
  },
  {
   "property": "C59",
   "status": "partial",
   "theorems": [
    "C59_inertia_present_partial",
    "C59_massless_tip_false",
    "C59_massless_root_false"
   ],
   "note": "false: a massless root link or a massless tool frame makes the loader drop all inertia matrices, because the child link is tested but the parent link is converted (C59_massless_tip_false, C59_massless_root_false)"
  },
  {
   "property": "C60",
   "status": "partial",
   "theorems": [
    "C60_ur_complete_partial",
    "C60_ur_empty_partial",
    "C60_ur_returns",
    "C60_ur_singular_raises",
    "C60_ur_home_raises",
    "C60_ur_limits_false"
   ],
   "note": "false at wrist singularities, where the call raises (C60_ur_singular_raises, C60_ur_home_raises), and with limits far from zero (C60_ur_limits_false); proved for regular joint vectors within limits of the usual kinds, without last_joints"
  },
  {
   "property": "C61",
   "status": "proved",
   "theorems": [
    "C61_pose_exists",
    "C61_fwdkin",
    "C61_invkin",
    "C61_jacobian_links",
    "C61_jacobian"
   ],
   "note": "over the reals; the library's calcFwdKin, calcInvKin and calcJacobian are parameters"
  },
  {
   "property": "C62",
   "status": "proved",
   "theorems": [
    "C62_fwdkin_rounding",
    "C62_orthogonality"
   ],
   "note": "in any floating-point system with the standard error bounds (binary64 is an instance); sums from left to right; limits not checked (ignore_limits)"
  },
  {
   "property": "C63",
   "status": "proved",
   "theorems": [
    "C63_R2q_rounding",
    "C63_q2R_rounding",
    "C63_roundtrip"
   ],
   "note": "in any floating-point system with the standard error bounds"
  },
  {
   "property": "C64",
   "status": "partial",
   "theorems": [
    "C64_R2rot_rounding_partial",
    "C64_R2rot_roundtrip_partial",
    "C64_q2rot_rounding_partial",
    "C64_slerp_rounding_partial",
    "C64_slerp_false",
    "C64_q2rot_false",
    "C64_quatproduct_exceeds_one",
    "C64_R2rot_false",
    "C64_q2rot_partial"
   ],
   "note": "false: slerp(q, q, t) is NaN in binary64 for q = (3,3,0,0), q2rot is NaN for a scalar part above 1, R2rot has a NaN axis near half turns; proved in floating-point arithmetic away from these singularities: R2rot (errors eps/s, and the round trip for all rotations up to 120 degrees), q2rot and slerp (errors eps/s^2), s being the sine of the (half) angle; arccos and arctan2 are assumed accurate to a rounding unit (Spec.InvAcc)"
  },
  {
   "property": "C65",
   "status": "proved",
   "theorems": [
    "C65_frames"
   ],
   "note": "over extended reals; `float` of strings is a parameter"
  },
  {
   "property": "C66",
   "status": "partial",
   "theorems": [
    "C66_zero_nan",
    "C66_rotation_partial",
    "C66_range",
    "C66_all_rotations_false",
    "C66_transform_partial"
   ],
   "note": "false: the zero draw gives NaN (C66_zero_nan), and only rotations about axes with nonnegative coordinates are drawn (C66_all_rotations_false; C66_range is the exact set); proved that every other draw gives a rotation"
  },
  {
   "property": "C67",
   "status": "partial",
   "theorems": [
    "C67_robot6_tracks_partial",
    "C67_robot6_returns",
    "C67_ur_tracks_partial",
    "C67_ur_returns",
    "C67_ur_wrist_turn_lost",
    "C67_ur_fourth_lost",
    "C67_ur_wrist_false",
    "C67_ur_fourth_false"
   ],
   "note": "false for UR arms with the usual limits of one turn: joint 5 beyond half a turn is never returned (C67_ur_wrist_false, C67_ur_wrist_turn_lost) and joint 4 is lost when q24 - q2 - q3 is two turns or more (C67_ur_fourth_false, C67_ur_fourth_lost); proved for regular joint vectors otherwise, including that the call returns"
  },
  {
   "property": "C68",
   "status": "proved",
   "theorems": [
    "C68_jacobian_rounding"
   ],
   "note": "Any rounding system with relative error u (binary64 is an instance), any chain length with 32768(n+3)u <= 1, mobile bases included."
  },
  {
   "property": "C69",
   "status": "partial",
   "theorems": [
    "C69_eq_of_near",
    "C69_mul_assoc_partial",
    "C69_mul_inv_partial",
    "C69_inv_partial",
    "C69_unapply_apply_partial",
    "C69_far_false",
    "C69_stored"
   ],
   "note": "false far from the origin: at 2^30 the absolute tolerance 1e-8 of == is below the rounding error (C69_far_false); proved when the positions involved add up to at most L with 1e11 u L <= 1 (about 11000 for binary64, whose u is taken as 2^-50), for every rounding system"
  },
  {
   "property": "C70",
   "status": "proved",
   "theorems": [
    "C70_converges",
    "C70_singular_false"
   ],
   "note": "np.linalg.pinv is a parameter that satisfies the Penrose conditions on well conditioned matrices; exact arithmetic"
  },
  {
   "property": "C71",
   "status": "partial",
   "theorems": [
    "C71_robot6_near_partial",
    "C71_robot6_returns",
    "C71_ur_near_partial",
    "C71_ur_returns",
    "C71_robot6_path_partial",
    "C71_robot6_path_returns",
    "C71_robot6_continuous_partial",
    "C71_ur_path_partial",
    "C71_ur_path_returns",
    "C71_ur_continuous_partial"
   ],
   "note": "proved for regular joint vectors inside limits of the usual kind (the conditions of C67), including that the calls return, for paths of any length and samplings of continuous paths; missing: joint vectors within the coincidence tolerance of the subproblems, other limits, and UR arms with joint 5 beyond half a turn (false by C67_ur_wrist_false)"
  },
  {
   "property": "C72",
   "status": "partial",
   "theorems": [
    "C72_rpy2R_rounding",
    "C72_R2rpy_rounding_partial",
    "C72_roundtrip_partial",
    "C72_gimbal_false"
   ],
   "note": "rpy2R proved in full; R2rpy proved for pitch with cosine at least 64 eps (angles) and 40000 eps (matrix recovered within 1200 eps/c); the reading \"accurate whenever it does not raise\" is false next to gimbal lock (C72_gimbal_false); arccos and arctan2 are assumed accurate to a rounding unit (Spec.InvAcc)"
  },
  {
   "property": "C73",
   "status": "partial",
   "theorems": [
    "C73_subproblem1_coord_partial",
    "C73_subproblem1_false",
    "C73_subproblem1_rounding_partial",
    "C73_subproblem1_axes_partial",
    "C73_subproblem1_split_partial"
   ],
   "note": "false: in binary64 subproblem1([1,1,1],[1,1,-1],[1,1,0]) raises an AssertionError (C73_subproblem1_false); proved: it raises or returns the angle within (2 sqrt(eps_machine) + 350000 eps)/s, and for the coordinate axes and their negatives and representable points it never raises; with data errors e, f apart from the unit roundoff: within (beta + 3.15 (e + f) + 700000 u)/s; arctan2 is assumed accurate (Spec.InvAcc)"
  },
  {
   "property": "C74",
   "status": "partial",
   "theorems": [
    "C74_subproblem4_rounding_partial",
    "C74_subproblem4_false",
    "C74_subproblem4_split_partial"
   ],
   "note": "false at the extreme displacements: in binary64 subproblem4(ex, ex, ez, d) with d one unit in the last place beyond 1 (reached at angle 0) is [] and beyond -1 is [nan, nan] (C74_subproblem4_false); proved: both solutions within 12000 eps/m when 110000 eps <= m^2; with data errors apart from the unit roundoff: within 17 (e + f + 800 u)/m; arctan2 and arcsin are assumed accurate (Spec.InvAcc)"
  },
  {
   "property": "C75",
   "status": "proved",
   "theorems": [
    "C75_fwdkin_lipschitz",
    "C75_fwdkin_reach",
    "C75_lipschitz_sharp"
   ],
   "note": ""
  },
  {
   "property": "C76",
   "status": "partial",
   "theorems": [
    "C76_converged_partial",
    "C76_returned",
    "C76_stops_at_solution"
   ],
   "note": "false for prismatic joints and near half a turn, as C40 (C40_prismatic_false, C40_half_turn_false); proved for rotary joints, orientation errors at least 1e-5 from half a turn and tolerances up to 0.1; arccos is assumed accurate (Spec.InvAcc), rounding an integer gives an integer (Spec.IntRounding, proved for binary64); the bound of C76_returned involves the size of the last iterate, and needs the returned values to be finite"
  },
  {
   "property": "C77",
   "status": "proved",
   "theorems": [
    "C77_quatproduct_chain",
    "C77_chain_rotation",
    "C77_rot2q_rounding",
    "C77_complement_jacobian"
   ],
   "note": "the elementwise constants are not sharp; the order of summation in a dot product is the model's"
  },
  {
   "property": "C78",
   "status": "proved",
   "theorems": [
    "C78_jacobian_taylor",
    "C78_newton_position",
    "C78_jacobian_lipschitz"
   ],
   "note": "the bounds are for rotary and prismatic joints (types 0 and 1); exact arithmetic"
  },
  {
   "property": "C79",
   "status": "proved",
   "theorems": [
    "C79_fwdkin_geometry"
   ],
   "note": "exact arithmetic"
  },
  {
   "property": "C80",
   "status": "proved",
   "theorems": [
    "C80_conditioning",
    "C80_converges",
    "C80_solution_exists"
   ],
   "note": "exact arithmetic; scalar gains; pinv is assumed to return the pseudo-inverse of matrices none of whose singular values it cuts off (as in C70)"
  },
  {
   "property": "C81",
   "status": "partial",
   "theorems": [
    "C81_subproblem3_axes_partial",
    "C81_subproblem3_unreachable_partial",
    "C81_subproblem3_rounding_partial",
    "C81_subproblem3_false"
   ],
   "note": "false: the inner check of subproblem1 may fail (C73), and at the extreme distances the list may be empty also for data that are exact floating-point numbers: in binary64 subproblem3([1+3/2^27,0,0], ex, ez, 2+3/2^27) is [] although angle 0 solves it (C81_subproblem3_false); proved: away from the extremes it raises or returns the angle; about coordinate axes it never raises and both angles are near solutions; out of reach by a margin the list is empty; arctan2, arcsin and arccos are assumed accurate (Spec.InvAcc)"
  },
  {
   "property": "C82",
   "status": "partial",
   "theorems": [
    "C82_subproblem2_axes_partial",
    "C82_subproblem2_rounding_partial",
    "C82_subproblem2_false"
   ],
   "note": "false: the inner checks of subproblem1 may fail (C73), and in the tangent case it raises, e.g. subproblem2(ex, ex, ex, ey) (C82_subproblem2_false); proved for perpendicular axes: away from the tangent case it raises or returns the pair; about coordinate axes it never raises and both pairs are near solutions; arctan2 is assumed accurate (Spec.InvAcc)"
  },
  {
   "property": "C83",
   "status": "partial",
   "theorems": [
    "C83_robot6_rounding_partial",
    "C83_robot6_false",
    "C83_robot6_coord_partial"
   ],
   "note": "false: the check that offset 4 is along the axis of joint 4 compares with exactly zero, so an arm with a tilted forearm axis raises AssertionError for every pose once stored in binary64 (C83_robot6_false); the subproblems may raise as well (C73, C81, C82). Proved for arms without joint limits with offsets of total length at most 1.9 up to the wrist and 1 beyond: if the call returns, the list contains the joint values; and for arms whose axes 2 to 6 are coordinate axes, stored exactly, the call returns, every row is within delta of a joint vector that reaches the pose and every such joint vector is within delta of a row, if all solutions have the margins and no shoulder angle leaves the wrist centre at the border of the reach of the elbow (C83_robot6_coord_partial); arctan2, arcsin and arccos are assumed accurate (Spec.InvAcc)"
  },
  {
   "property": "C84",
   "status": "proved",
   "theorems": [
    "C84_ur_rounding"
   ],
   "note": "arctan2, arcsin and arccos are assumed accurate (Spec.InvAcc), which holds for a correctly rounded library"
  },
  {
   "property": "C85",
   "status": "proved",
   "theorems": [
    "C85_wrist_det",
    "C85_ur_det",
    "C85_wrist_margin",
    "C85_ur_margin",
    "C85_wrist_singular_iff",
    "C85_ur_singular_iff",
    "C85_robot6_rounding",
    "C85_ur_rounding"
   ],
   "note": ""
  },
  {
   "property": "C86",
   "status": "partial",
   "theorems": [
    "C86_robot6_limits_partial",
    "C86_robot6_tracks_partial",
    "C86_robot6_in_limits"
   ],
   "note": "As for C83: arms whose joints 4 to 6 are along coordinate axes, offsets of at most 1.9 up to the wrist, poses with margin m from the singularities; the limits of each joint are within 4.5 of zero or beyond half a turn on either side, joint vectors are inside them by twice the error; last_joints within 1/2. That rows are strictly inside the limits is proved for all robots, poses, limits and last joint values."
  },
  {
   "property": "C87",
   "status": "partial",
   "theorems": [
    "C87_ur_limits_partial",
    "C87_ur_tracks_partial",
    "C87_ur_in_limits"
   ],
   "note": "As for C84: offsets of at most 1.9 up to the wrist, poses with margin m from the singularities. Limits are such that one turn brings every angle of the computed size inside; for the fourth joint this size is that of the second and third joint values together plus 3.2 (without this the claim is false, C67_ur_fourth_false). Joint vectors are inside the limits by twice the error; last_joints within 1/2, and the fifth joint between -3 and 3 (it is not moved towards last_joints, C67_ur_wrist_false). That rows are strictly inside the limits, but for the fifth entry, is proved for all robots, poses, limits and last joint values."
  },
  {
   "property": "C88",
   "status": "proved",
   "theorems": [
    "C88_accepts",
    "C88_chains",
    "C88_numbers",
    "C88_counts",
    "C88_vectors",
    "C88_joints"
   ],
   "note": "The joint data are those of the first entries of joint_info, whatever the joint numbers are (C45). Conversions by NumPy as in the model: one faulty component of a vector, the others numbers."
  },
  {
   "property": "C89",
   "status": "partial",
   "theorems": [
    "C89_robot6_at_most_eight",
    "C89_ur_at_most_eight",
    "C89_robot6_distinct_partial",
    "C89_ur_distinct_partial",
    "C89_robot6_reach_twice",
    "C89_ur_reach_twice",
    "C89_robot6_twice_false",
    "C89_ur_twice_false"
   ],
   "note": "The bound of eight is proved for all robots and number types. None twice is false at the end of the lateral reach (C89_*_twice_false, and C89_*_reach_twice for every such pose); proved for the joint vectors that are not there and do not have the forearm folded back."
  },
  {
   "property": "C90",
   "status": "partial",
   "theorems": [
    "C90_init_fits",
    "C90_wrong_names",
    "C90_no_joints",
    "C90_missing_limits",
    "C90_converts",
    "C90_otherwise",
    "C90_propagates",
    "C90_urdf_false",
    "C90_robot_raconteur",
    "C90_unnamed_false"
   ],
   "note": "The exceptions are classified for every robot that fits the constructor's checks, with success characterised exactly. The first half is false: C90_urdf_false (every URDF robot) and C90_unnamed_false (documents with two unnamed joints); C90_robot_raconteur says exactly which documents convert."
  },
  {
   "property": "C91",
   "status": "partial",
   "theorems": [
    "C91_exhaustive",
    "C91_outcome",
    "C91_loads_iff",
    "C91_default_axis_false",
    "C91_continuous_false",
    "C91_cycle_diverges"
   ],
   "note": "For files whose joints form a forest the outcome (robot or which exception) is characterised completely and shown to be reached in finitely many steps. The first and last sentences are false: C91_default_axis_false, C91_continuous_false, C91_cycle_diverges."
  },
  {
   "property": "C92",
   "status": "proved",
   "theorems": [
    "C92_geometry",
    "C92_wrist",
    "C92_ur"
   ],
   "note": "over the reals extended with NaN and infinities, with explicit tolerances; hypotheses on the geometry are about the file (Spec.UrdfWrist, Spec.UrdfUr)"
  },
  {
   "property": "C93",
   "status": "partial",
   "theorems": [
    "C93_once",
    "C93_once_eq",
    "C93_drift_partial",
    "C93_drift_obtuse_partial",
    "C93_fixed_partial",
    "C93_unstable_false"
   ],
   "note": "One message: proved (C93_once, C93_once_eq). Many messages: false between 90 and 120 degrees (C93_unstable_false); linear drift proved in floating-point arithmetic for angles below 90 and above 120 degrees. Missing: angles of exactly 90 and 120 degrees."
  },
  {
   "property": "C94",
   "status": "proved",
   "theorems": [
    "C94_tool",
    "C94_torques",
    "C94_base"
   ],
   "note": ""
  },
  {
   "property": "C95",
   "status": "proved",
   "theorems": [
    "C95_robot6",
    "C95_ur",
    "C95_iterative"
   ],
   "note": "C95_iterative: well-formed robots, target rotation a rotation, and pinv (a parameter of the model) returning finite entries for finite matrices."
  },
  {
   "property": "C96",
   "status": "partial",
   "theorems": [
    "C96_robot6_partial",
    "C96_ur_partial",
    "C96_ur_recovers"
   ],
   "note": "Proved for regular joint vectors (the conditions of C30 and C60: the solvers raise or go wrong at singularities, and with limits far from zero) and calls without last_joints; for UR arms the limits of joint 5 contain half a turn on either side, since they are not checked (C36_ur_limits_false). C96_ur_recovers: the joint vector ur_invkin loses by C67_ur_wrist_false is found."
  },
  {
   "property": "C97",
   "status": "partial",
   "theorems": [
    "C97_fwdkin",
    "C97_jacobian",
    "C97_columns",
    "C97_subproblem3",
    "C97_subproblem4",
    "C97_subproblem1_partial",
    "C97_subproblem1_false",
    "C97_robot6_partial",
    "C97_ur_partial",
    "C97_robot6_false"
   ],
   "note": "Proved for fwdkin (all joint types), robotjacobian (all joint types; the third joint of a mobile base is not a sliding joint), subproblem3 and subproblem4. False for subproblem1 and the solver built on it, whose coincidence tolerance 2^-26 is a length (C97_subproblem1_false, C97_robot6_false). The solvers are proved to give equal results, for all limits and last joint values, if no joint vector with the second joint at zero puts the wrist centre within that tolerance of its place, in either unit."
  },
  {
   "property": "C98",
   "status": "partial",
   "theorems": [
    "C98_opw",
    "C98_opw_first_link",
    "C98_ur",
    "C98_ur_joints_false",
    "C98_string_override"
   ],
   "note": "Proved for OPW, exactly, and for UR robots of six joints or one. False for UR robots with another number of joints: the function does not check it and ValueError is raised by the comparison of shapes (C98_ur_joints_false)."
  },
  {
   "property": "C99",
   "status": "proved",
   "theorems": [
    "C99_pose"
   ],
   "note": ""
  },
  {
   "property": "C100",
   "status": "partial",
   "theorems": [
    "C100_path_partial",
    "C100_absolute_false",
    "C100_agree",
    "C100_from_document"
   ],
   "note": "File system, package index, xacro, XML parser and parameter server are parameters. False for absolute file names given with a package: the package is looked up but ignored (C100_absolute_false). Proved for relative names."
  },
  {
   "property": "C101",
   "status": "proved",
   "theorems": [
    "C101_arguments",
    "C101_rewrap",
    "C101_unknown_name",
    "C101_redundant"
   ],
   "note": "What the kinematic group and getRedundantSolutions (external) return is assumed as stated in Spec.GroupOf, Spec.GroupJoints and Spec.RedundantSpec."
  },
  {
   "property": "C102",
   "status": "partial",
   "theorems": [
    "C102_robots_partial",
    "C102_answers_partial",
    "C102_shared_false",
    "C102_transform_false"
   ],
   "note": "Proved for robots that share P only if they have the same fourth and sixth axis, such as one arm with several tools. False for others: the call moves a column of the shared matrix (C102_shared_false). False for transforms: p is a view of the array passed in (C102_transform_false)."
  },
  {
   "property": "C103",
   "status": "partial",
   "theorems": [
    "C103_floats",
    "C103_equivalent_false",
    "C103_opw_partial",
    "C103_opw_false"
   ],
   "note": "Proved for robot_to_opw_inv_kin_parameters except for the length of the upper arm, whose fraction is lost (C103_opw_false bounds the error). False for equivalent_configurations: no returned vector is equivalent to the given one (C103_equivalent_false)."
  },
  {
   "property": "C104",
   "status": "proved",
   "theorems": [
    "C104_urdf_rounding"
   ],
   "note": "Limits, inertias and efforts are not compared. Axes must be exact unit vectors in the exact file. The bound is quadratic in the length of the chain."
  },
  {
   "property": "C105",
   "status": "partial",
   "theorems": [
    "C105_text_injective",
    "C105_text_ne_empty",
    "C105_subproblem1_returns",
    "C105_subproblem1_warned",
    "C105_subproblem1_lengths_partial",
    "C105_subproblem1_silent_false",
    "C105_subproblem2_none",
    "C105_subproblem2_warned_partial",
    "C105_subproblem2_spurious_false",
    "C105_subproblem3",
    "C105_subproblem3_none",
    "C105_subproblem4_silent_false",
    "C105_same_outcome",
    "C105_robot6_warned_partial",
    "C105_robot6_warns_partial",
    "C105_robot6_silent_false",
    "C105_robot6_unreachable_partial",
    "C105_ur_warned_partial",
    "C105_ur_warns_partial",
    "C105_robot6_spurious_false"
   ],
   "note": "Proved: subproblem3 warns exactly if no rotation gives the distance; a warning of subproblem1 means there is no solution, and one of subproblem2 too for axes that are not nearly parallel and points not nearly in the plane of the axes (or of unit length); the messages of subproblem2 and subproblem3 about missing solutions are issued exactly if the empty list is returned (all number types); the solvers issue only the message about the distance, and only if for some turn of the first joint the elbow cannot reach the wrist centre, and always then without limits and last joint values if the call returns (for UR: if the goal is further away than the links are long); for unreachable poses the spherical wrist solver returns the empty list and warns exactly within the lateral reach of the shoulder. False in the code: subproblem1 returns a wrong angle in silence for points of equal length at different heights, subproblem2 warns about lengths that are equal in the tangent case, subproblem4 returns the empty list in silence, and so does the spherical wrist solver outside the lateral reach of the shoulder; a reached pose whose joint vectors are returned still gives the message that there is no solution. Missing: arms whose forearm almost continues the upper arm at zero elbow angle, the converse with limits or last joint values."
  },
  {
   "property": "C106",
   "status": "partial",
   "theorems": [
    "C106_str_partial",
    "C106_repr_partial",
    "C106_print_false",
    "C106_ne",
    "C106_eq_not_print"
   ],
   "note": "False in the code for frame ids with line breaks (C106_print_false: an id can imitate the line of the other id, for any arrays and both forms). Proved for ids without line breaks, quotes included, for every way of printing the rotation and every printing of the position on one line. Two transforms that compare equal may print differently because == ignores the ids (C106_eq_not_print). The method __neq__ is not called by Python 3; != is the negation of == all the same (C106_ne)."
  },
  {
   "property": "C107",
   "status": "proved",
   "theorems": [
    "C107_rr_rounding",
    "C107_tool_rounding"
   ],
   "note": ""
  },
  {
   "property": "C108",
   "status": "partial",
   "theorems": [
    "C108_equiv_rounding_partial",
    "C108_equiv_last",
    "C108_limits_false"
   ],
   "note": "False in binary64 as far as the limits go (C108_limits_false): the difference of the upper limit 15 and the joint value rounds up to three turns, the row is the next number after 15, and fwdkin, which accepts the input, raises AssertionError on the row. Proved with the limits widened by (23 S + 100) u, S the largest limit or joint value; the rest of the statement as it stands."
  },
  {
   "property": "C109",
   "status": "partial",
   "theorems": [
    "C109_random_R_rounding",
    "C109_random_transform_partial",
    "C109_zero_false"
   ],
   "note": "False for the draw of four zeros, where all entries are NaN in every floating-point system (C109_zero_false; exactly as in C66_zero_nan). Proved for all other draws."
  },
  {
   "property": "C110",
   "status": "proved",
   "theorems": [
    "C110_inertia_rounding",
    "C110_kinetic_energy",
    "C110_left_out"
   ],
   "note": "Masses between half a milligram and two milligrams, around the threshold of the code, are not covered."
  },
  {
   "property": "C111",
   "status": "partial",
   "theorems": [
    "C111_bodies",
    "C111_inertias_partial",
    "C111_displaced_false",
    "C111_turned_false"
   ],
   "note": "False for links whose frame is turned against the root frame: the argument R of _convert_inertial is not used (C111_turned_false); and for links fixed with a displacement, which are added without moving them to the frame of the body (C111_displaced_false). C111_bodies says what the matrices are in general; C111_inertias_partial proves the claim for files without orientations and without displacements of fixed joints. Every child link has an inertial element (see C59)."
  },
  {
   "property": "C112",
   "status": "proved",
   "theorems": [
    "C112_first",
    "C112_name_taken",
    "C112_succeeds_iff",
    "C112_joints_apart",
    "C112_own_names_clash",
    "C112_pose",
    "C112_independent",
    "C112_fwdkin"
   ],
   "note": "The scene graph operations and the kinematic group are external: insertion as in Model/Tesseract.lean, the group as in Spec.GroupOf. Poses and independence hold for robots with joint names of their own too; whether these fit together is not settled by the robots' names (C112_own_names_clash)."
  },
  {
   "property": "C113",
   "status": "proved",
   "theorems": [
    "C113_steady",
    "C113_reverse",
    "C113_subdivide",
    "C113_frames"
   ],
   "note": "Over the reals with exceptions and NaN (XReal), like C11; quaternions closer than the band of slerp (arc below 1e-6) are in C113_frames only. With rounding see C64."
  },
  {
   "property": "C114",
   "status": "proved",
   "theorems": [
    "C114_fwdkin",
    "C114_jacobian",
    "C114_wf",
    "C114_solutions",
    "C114_iterative"
   ],
   "note": "Over the reals. The Jacobian of a mobile group (joint type 3) depends on the joint value itself, so it is left out of C114_jacobian. C114_iterative on the XReal instance, with pinv a parameter."
  },
  {
   "property": "C115",
   "status": "proved",
   "theorems": [
    "C115_fwdkin",
    "C115_jacobian"
   ],
   "note": "Over the reals. With the limits checked, both robots must have limits for all joints: the toolbox has one limit array for the whole robot. Mobile joints (type 3) are left out of C115_jacobian."
  },
  {
   "property": "C116",
   "status": "proved",
   "theorems": [
    "C116_without",
    "C116_fwdkin",
    "C116_jacobian"
   ],
   "note": "Over the reals, limits ignored (ignore_limits=True). Mobile joints (type 3) are left out of the Jacobian."
  },
  {
   "property": "C117",
   "status": "proved",
   "theorems": [
    "C117_fixed_joints",
    "C117_tip_left_out_false"
   ],
   "note": "Over the reals, limits ignored; with the tip given. C117_tip_left_out_false is the counterexample when no tip is given."
  },
  {
   "property": "C118",
   "status": "proved",
   "theorems": [
    "C118_fwdkin",
    "C118_jacobian"
   ],
   "note": "Over the reals. With limits checked the limits must be given, one for each joint. Mobile joints (type 3) are left out of the Jacobian."
  },
  {
   "property": "C119",
   "status": "proved",
   "theorems": [
    "C119_jacobian",
    "C119_self_motions"
   ],
   "note": "Over the reals, limits ignored. Mobile joints (type 3) are left out."
  },
  {
   "property": "C120",
   "status": "proved",
   "theorems": [
    "C120_fwdkin",
    "C120_jacobian",
    "C120_solutions"
   ],
   "note": "Over the reals. With limits checked the limits must be given, one for each joint. Mobile joints (type 3) are left out of the Jacobian."
  },
  {
   "property": "C121",
   "status": "partial",
   "theorems": [
    "C121_fwdkin",
    "C121_jacobian",
    "C121_iterative",
    "C121_robot6_partial",
    "C121_robot6_first_partial",
    "C121_robot6_fifth_false"
   ],
   "note": "Pose, Jacobian and iterative solver proved in full (the solver on the extended reals, with a pseudoinverse of finite entries). False for the spherical wrist solver if the fifth joint is moved: every call raises AssertionError (C121_robot6_fifth_false). Proved for it if the first, the fourth or the sixth joint is moved. Missing: the second and third joint for that solver."
  },
  {
   "property": "C122",
   "status": "proved",
   "theorems": [
    "C122_fwdkin",
    "C122_jacobian",
    "C122_iterative"
   ],
   "note": "Pose and Jacobian over the reals, with no condition on the robot, not even that the lists have fitting lengths. The solver on the extended reals, for well-formed robots and a pseudoinverse of finite entries."
  },
  {
   "property": "C123",
   "status": "proved",
   "theorems": [
    "C123_fwdkin",
    "C123_jacobian"
   ],
   "note": "Over the reals, limits ignored (they apply to the values one by one). Mobile joints (type 3) are left out of the Jacobian."
  }
 ]
}
