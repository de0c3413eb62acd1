C01_rot_isRot: propext, Classical.choice, Quot.sound
C01_rot_mem_SO3: propext, Classical.choice, Quot.sound
C01_rot_axis: propext, Classical.choice, Quot.sound
C01_rot_turns: propext, Classical.choice, Quot.sound
C01_rot_add: propext, Classical.choice, Quot.sound
C01_rot_neg: propext, Classical.choice, Quot.sound
C01_rot_periodic: propext, Classical.choice, Quot.sound
C01_rot_unique: propext, Classical.choice, Quot.sound
C02_hat_cross: propext, Classical.choice, Quot.sound
C02_hat_skew: propext, Classical.choice, Quot.sound
C02_invhat_hat: propext, Classical.choice, Quot.sound
C02_hat_invhat: propext, Classical.choice, Quot.sound
C03_R2rot_regular: propext, Classical.choice, Quot.sound
C03_R2rot_rot: propext, Classical.choice, Quot.sound
C04_R2rot_near_identity: propext, Classical.choice, Quot.sound
C04_R2rot_pi_partial: propext, Classical.choice, Quot.sound
C04_R2rot_yz_plane: propext, Classical.choice, Quot.sound
C04_R2rot_false: propext, Classical.choice, Quot.sound
C04_R2rot_identity_not_array: propext, Classical.choice, Quot.sound
C05_q2R_isRot: propext, Classical.choice, Quot.sound
C05_q2R_neg: propext, Classical.choice, Quot.sound
C05_q2R_mul: propext, Classical.choice, Quot.sound
C05_q2R_quatproduct: propext, Classical.choice, Quot.sound
C05_q2R_complement: propext, Classical.choice, Quot.sound
C05_q2R_conj: propext, Classical.choice, Quot.sound
C06_R2q_q2R: propext, Classical.choice, Quot.sound
C06_q2R_R2q: propext, Classical.choice, Quot.sound
C06_q2R_surjective: propext, Classical.choice, Quot.sound
C06_R2q_total: propext, Classical.choice, Quot.sound
C07_rot2q: propext, Classical.choice, Quot.sound
C07_q2rot_rot2q: propext, Classical.choice, Quot.sound
C07_q2rot_sound_partial: propext, Classical.choice, Quot.sound
C07_q2rot_minus_one: propext, Classical.choice, Quot.sound
C08_quatproduct_hamilton: propext, Classical.choice, Quot.sound
C08_quatproduct_assoc: propext, Classical.choice, Quot.sound
C08_quatproduct_one: propext, Classical.choice, Quot.sound
C08_quatproduct_complement: propext, Classical.choice, Quot.sound
C08_quatproduct_norm: propext, Classical.choice, Quot.sound
C09_quatjacobian_deriv: propext, Classical.choice, Quot.sound
C09_quatjacobian_orthogonal: propext, Classical.choice, Quot.sound
C09_norm_preserved: propext, Classical.choice, Quot.sound
C10_rpy2R_isRot: propext, Classical.choice, Quot.sound
C10_rpy2R_entries: propext, Classical.choice, Quot.sound
C10_R2rpy_raises: propext, Classical.choice, Quot.sound
C10_rpy2R_R2rpy: propext, Classical.choice, Quot.sound
C10_R2rpy_rpy2R: propext, Classical.choice, Quot.sound
C11_slerp_raises: propext, Classical.choice, Quot.sound
C11_slerp_geodesic: propext, Classical.choice, Quot.sound
C11_slerp_endpoints: propext, Classical.choice, Quot.sound
C11_slerp_band: propext, Classical.choice, Quot.sound
C11_slerp_scaling_partial: propext, Classical.choice, Quot.sound
C11_slerp_sign_false: propext, Classical.choice, Quot.sound
C12_screw_add: propext, Classical.choice, Quot.sound
C12_screw_zero: propext, Classical.choice, Quot.sound
C12_screw_wrench: propext, Classical.choice, Quot.sound
C12_screw_twist: propext, Classical.choice, Quot.sound
C12_screw_power: propext, Classical.choice, Quot.sound
C13_mul_assoc: propext, Classical.choice, Quot.sound
C13_identity: propext, Classical.choice, Quot.sound
C13_inv: propext, Classical.choice, Quot.sound
C13_inv_mul: propext, Classical.choice, Quot.sound
C13_rigid: propext, Classical.choice, Quot.sound
C13_act: propext, Classical.choice, Quot.sound
C14_identity: propext, Classical.choice, Quot.sound
C14_ids_irrelevant: propext, Classical.choice, Quot.sound
C14_chain: propext, Classical.choice, Quot.sound
C14_inv: propext, Classical.choice, Quot.sound
C14_inv_chain: propext, Classical.choice, Quot.sound
C15_eq_refl: propext, Classical.choice, Quot.sound
C15_isclose_refl: propext, Classical.choice, Quot.sound
C15_nan_never_equal: propext, Classical.choice, Quot.sound
C15_eq_iff: propext, Classical.choice, Quot.sound
C15_isclose_iff: propext, Classical.choice, Quot.sound
C15_isclose_mono: propext, Classical.choice, Quot.sound
C15_eq_symm_partial: propext, Classical.choice, Quot.sound
C15_eq_symm_false: propext, Classical.choice, Quot.sound
C16_ctor_iff: propext, Classical.choice, Quot.sound
C16_ctor_raises: propext, Classical.choice, Quot.sound
C16_ctor_half: propext, Classical.choice, Quot.sound
C17_fwdkin_chain: propext, Classical.choice, Quot.sound
C17_act_determines: propext, Classical.choice, Quot.sound
C17_fwdkin_fixed: propext, Classical.choice, Quot.sound
C18_limits: propext, Classical.choice, Quot.sound
C18_no_limits: propext, Classical.choice, Quot.sound
C18_cut_base_raises: propext, Classical.choice, Quot.sound
C18_wrong_length: propext, Classical.choice, Quot.sound
C18_wrong_length_limits: propext, Classical.choice, Quot.sound
C19_fwdkin_periodic: propext, Classical.choice, Quot.sound
C19_fwdkin_prismatic: propext, Classical.choice, Quot.sound
C20_jacobian_velocity: propext, Classical.choice, Quot.sound
C20_jacobian_columns: propext, Classical.choice, Quot.sound
C21_unapply_apply: propext, Classical.choice, Quot.sound
C21_apply_unapply: propext, Classical.choice, Quot.sound
C22_mobile_jacobian: propext, Classical.choice, Quot.sound
C23_subproblem1: propext, Classical.choice, Quot.sound
C23_subproblem1_unique: propext, Classical.choice, Quot.sound
C23_subproblem1_least_squares: propext, Classical.choice, Quot.sound
C23_subproblem1_axis_raises: propext, Classical.choice, Quot.sound
C23_subproblem1_axis_scale: propext, Classical.choice, Quot.sound
C23_subproblem0: propext, Classical.choice, Quot.sound
C23_subproblem0_check_one_sided: propext, Classical.choice, Quot.sound
C24_subproblem2_none: propext, Classical.choice, Quot.sound
C24_subproblem2_partial: propext, Classical.choice, Quot.sound
C24_subproblem2_tangent_false: propext, Classical.choice, Quot.sound
C24_subproblem2_parallel: propext, Classical.choice, Quot.sound
C25_subproblem3_partial: propext, Classical.choice, Quot.sound
C25_subproblem3_on_axis: propext, Classical.choice, Quot.sound
C26_subproblem4_partial: propext, Classical.choice, Quot.sound
C26_subproblem4_above: propext, Classical.choice, Quot.sound
C26_subproblem4_below_nan: propext, Classical.choice, Quot.sound
C26_subproblem4_degenerate_nan: propext, Classical.choice, Quot.sound
C27_normalize_partial: propext, Classical.choice, Quot.sound
C27_normalize_principal: propext, Classical.choice, Quot.sound
C27_normalize_far_false: propext, Classical.choice, Quot.sound
C28_call_no_last: propext, Classical.choice, Quot.sound
C28_call_last_partial: propext, Classical.choice, Quot.sound
C28_call_prunes_false: propext, Classical.choice, Quot.sound
C29_robot6_sound: propext, Classical.choice, Quot.sound
C30_robot6_complete_partial: propext, Classical.choice, Quot.sound
C30_robot6_empty_partial: propext, Classical.choice, Quot.sound
C30_robot6_returns: propext, Classical.choice, Quot.sound
C30_robot6_singular_raises: propext, Classical.choice, Quot.sound
C30_robot6_home_raises: propext, Classical.choice, Quot.sound
C30_robot6_far_limits_false: propext, Classical.choice, Quot.sound
C31_robot6_limits: propext, Classical.choice, Quot.sound
C31_robot6_accepted: propext, Classical.choice, Quot.sound
C32_robot6_last_never_empty: propext, Classical.choice, Quot.sound
C32_ur_last_never_empty: propext, Classical.choice, Quot.sound
C32_equiv_last_never_empty: propext, Classical.choice, Quot.sound
C32_equiv_empty: propext, Classical.choice, Quot.sound
C32_robot6_unreachable_partial: propext, Classical.choice, Quot.sound
C32_robot6_near_axis_raises: propext, Classical.choice, Quot.sound
C32_robot6_last_raises: propext, Classical.choice, Quot.sound
C32_ur_unreachable_partial: propext, Classical.choice, Quot.sound
C32_ur_near_axis_raises: propext, Classical.choice, Quot.sound
C32_ur_last_raises: propext, Classical.choice, Quot.sound
C33_robot_unchanged: propext, Classical.choice, Quot.sound
C33_second_call: propext, Classical.choice, Quot.sound
C33_history: propext, Classical.choice, Quot.sound
C34_robot6_sorted: propext, Classical.choice, Quot.sound
C34_ur_sorted: propext, Classical.choice, Quot.sound
C34_equiv_sorted: propext, Classical.choice, Quot.sound
C34_first_closest: propext, Classical.choice, Quot.sound
C35_ur_sound: propext, Classical.choice, Quot.sound
C36_ur_limits_partial: propext, Classical.choice, Quot.sound
C36_ur_limits_false: propext, Classical.choice, Quot.sound
C37_equivalent_sound: propext, Classical.choice, Quot.sound
C38_equivalent_partial: propext, Classical.choice, Quot.sound
C38_heading_false: propext, Classical.choice, Quot.sound
C38_half_infinite_false: propext, Classical.choice, Quot.sound
C39_additional_partial: propext, Classical.choice, Quot.sound
C39_additional_false: propext, Classical.choice, Quot.sound
C40_converged_partial: propext, Classical.choice, Quot.sound
C40_prismatic_false: propext, Classical.choice, Quot.sound
C40_half_turn_false: propext, Classical.choice, Quot.sound
C41_iterative_result_partial: propext, Classical.choice, Quot.sound
C41_one_joint_false: propext, Classical.choice, Quot.sound
C41_wrong_length: propext, Classical.choice, Quot.sound
C41_one_joint_type: propext, Classical.choice, Quot.sound
C41_iterative_total: propext, Classical.choice, Quot.sound
C41_seed_solves: propext, Classical.choice, Quot.sound
C42_quaternion: propext
C42_vector: propext
C42_twist: propext
C42_wrench: propext
C42_sizes: propext, Quot.sound
C43_roundtrip: propext, Classical.choice, Quot.sound
C43_message_roundtrip: propext, Classical.choice, Quot.sound
C43_other_rejected: propext, Quot.sound
C44_lookup: propext, Classical.choice, Quot.sound
C44_lookup_full: propext, Classical.choice, Quot.sound
C44_compose: propext, Classical.choice, Quot.sound
C44_available: propext, Classical.choice, Quot.sound
C45_joint_data_partial: propext, Classical.choice, Quot.sound
C45_joint_numbers_false: propext, Classical.choice, Quot.sound
C46_accepts_partial: propext, Classical.choice, Quot.sound
C46_first_number_false: propext, Classical.choice, Quot.sound
C46_negative_chain_false: propext, Classical.choice, Quot.sound
C46_null_limit_false: propext, Classical.choice, Quot.sound
C47_tool_replaces: propext, Classical.choice, Quot.sound
C47_tcp_pose: propext, Classical.choice, Quot.sound
C47_tool_fwdkin: propext, Classical.choice, Quot.sound
C48_urdf_fwdkin: propext, Classical.choice, Quot.sound
C49_names_limits: propext, Classical.choice, Quot.sound
C50_tip_unique: propext, Classical.choice, Quot.sound
C50_given_tip: propext, Classical.choice, Quot.sound
C51_left_out: propext, Classical.choice, Quot.sound
C51_symmetric: propext, Classical.choice, Quot.sound
C51_kinetic_energy: propext, Classical.choice, Quot.sound
C51_psd: propext, Classical.choice, Quot.sound
C51_masses: propext, Classical.choice, Quot.sound
C51_total_mass: propext, Classical.choice, Quot.sound
C51_energies: propext, Classical.choice, Quot.sound
C51_loaded_symmetric: propext, Classical.choice, Quot.sound
C52_pose: propext, Classical.choice, Quot.sound
C52_pose_base: propext, Classical.choice, Quot.sound
C52_fwdkin: propext, Classical.choice, Quot.sound
C52_joints: propext, Classical.choice, Quot.sound
C53_scene_graph: propext, Classical.choice, Quot.sound
C53_prefix_injective: propext, Classical.choice, Quot.sound
C53_env: propext, Classical.choice, Quot.sound
C53_succeeds_iff: propext, Classical.choice, Quot.sound
C53_needs: propext, Classical.choice, Quot.sound
C53_default_succeeds: propext, Classical.choice, Quot.sound
C53_without_world: propext, Classical.choice, Quot.sound
C53_without_world_error: propext, Classical.choice, Quot.sound
C53_two_robots: propext, Classical.choice, Quot.sound
C53_two_robots_false: propext, Classical.choice, Quot.sound
C53_group: propext, Classical.choice, Quot.sound
C54_links_exist: propext, Classical.choice, Quot.sound
C54_ur_tool_false: propext, Classical.choice, Quot.sound
C54_kdl: propext, Classical.choice, Quot.sound
C54_default_configured: propext, Classical.choice, Quot.sound
C54_opw_params: propext, Classical.choice, Quot.sound
C54_ur_params: propext, Classical.choice, Quot.sound
C54_unknown: propext, Classical.choice, Quot.sound
C54_override: propext, Classical.choice, Quot.sound
C54_string_override_false: propext, Classical.choice, Quot.sound
C54_string_raises: propext, Classical.choice, Quot.sound
C54_information: propext, Classical.choice, Quot.sound
C55_accepted_partial: propext, Classical.choice, Quot.sound
C55_sign_zero_false: propext, Classical.choice, Quot.sound
C55_sliding_false: propext, Classical.choice, Quot.sound
C55_upper_arm: propext, Classical.choice, Quot.sound
C55_signs: propext, Classical.choice, Quot.sound
C55_opw_partial: propext, Classical.choice, Quot.sound
C55_vertical_false: propext, Classical.choice, Quot.sound
C56_ur_partial: propext, Classical.choice, Quot.sound
C56_last_link_false: propext, Classical.choice, Quot.sound
C56_urdf_false: propext, Classical.choice, Quot.sound
C56_plus_false: propext, Classical.choice, Quot.sound
C56_accepted_partial: propext, Classical.choice, Quot.sound
C56_sliding_false: propext, Classical.choice, Quot.sound
C57_rows: propext, Quot.sound
C57_jacobian: propext, Classical.choice, Quot.sound
C58_roundtrip: propext, Classical.choice, Quot.sound
C58_roundtrip_iso: propext, Classical.choice, Quot.sound
C58_homomorphism: propext, Classical.choice, Quot.sound
C59_inertia_present_partial: propext, Classical.choice, Quot.sound
C59_massless_tip_false: propext, Classical.choice, Quot.sound
C59_massless_root_false: propext, Classical.choice, Quot.sound
C60_ur_complete_partial: propext, Classical.choice, Quot.sound
C60_ur_empty_partial: propext, Classical.choice, Quot.sound
C60_ur_returns: propext, Classical.choice, Quot.sound
C60_ur_singular_raises: propext, Classical.choice, Quot.sound
C60_ur_home_raises: propext, Classical.choice, Quot.sound
C60_ur_limits_false: propext, Classical.choice, Quot.sound
C61_pose_exists: propext, Classical.choice, Quot.sound
C61_fwdkin: propext, Classical.choice, Quot.sound
C61_invkin: propext, Classical.choice, Quot.sound
C61_jacobian_links: propext, Classical.choice, Quot.sound
C61_jacobian: propext, Classical.choice, Quot.sound
C62_fwdkin_rounding: propext, Classical.choice, Quot.sound
C62_orthogonality: propext, Classical.choice, Quot.sound
C63_R2q_rounding: propext, Classical.choice, Quot.sound
C63_q2R_rounding: propext, Classical.choice, Quot.sound
C63_roundtrip: propext, Classical.choice, Quot.sound
C64_R2rot_rounding_partial: propext, Classical.choice, Quot.sound
C64_R2rot_roundtrip_partial: propext, Classical.choice, Quot.sound
C64_q2rot_rounding_partial: propext, Classical.choice, Quot.sound
C64_slerp_rounding_partial: propext, Classical.choice, Quot.sound
C64_slerp_false: propext, Classical.choice, Quot.sound
C64_q2rot_false: propext, Classical.choice, Quot.sound
C64_quatproduct_exceeds_one: propext, Classical.choice, Quot.sound
C64_R2rot_false: propext, Classical.choice, Quot.sound
C64_q2rot_partial: propext, Classical.choice, Quot.sound
C65_frames: propext, Classical.choice, Quot.sound
C66_zero_nan: propext, Classical.choice, Quot.sound
C66_rotation_partial: propext, Classical.choice, Quot.sound
C66_range: propext, Classical.choice, Quot.sound
C66_all_rotations_false: propext, Classical.choice, Quot.sound
C66_transform_partial: propext, Classical.choice, Quot.sound
C67_robot6_tracks_partial: propext, Classical.choice, Quot.sound
C67_robot6_returns: propext, Classical.choice, Quot.sound
C67_ur_tracks_partial: propext, Classical.choice, Quot.sound
C67_ur_returns: propext, Classical.choice, Quot.sound
C67_ur_wrist_turn_lost: propext, Classical.choice, Quot.sound
C67_ur_fourth_lost: propext, Classical.choice, Quot.sound
C67_ur_wrist_false: propext, Classical.choice, Quot.sound
C67_ur_fourth_false: propext, Classical.choice, Quot.sound
C68_jacobian_rounding: propext, Classical.choice, Quot.sound
C69_eq_of_near: propext, Classical.choice, Quot.sound
C69_mul_assoc_partial: propext, Classical.choice, Quot.sound
C69_mul_inv_partial: propext, Classical.choice, Quot.sound
C69_inv_partial: propext, Classical.choice, Quot.sound
C69_unapply_apply_partial: propext, Classical.choice, Quot.sound
C69_far_false: propext, Classical.choice, Quot.sound
C69_stored: propext, Classical.choice, Quot.sound
C70_converges: propext, Classical.choice, Quot.sound
C70_singular_false: propext, Classical.choice, Quot.sound
C71_robot6_near_partial: propext, Classical.choice, Quot.sound
C71_robot6_returns: propext, Classical.choice, Quot.sound
C71_ur_near_partial: propext, Classical.choice, Quot.sound
C71_ur_returns: propext, Classical.choice, Quot.sound
C71_robot6_path_partial: propext, Classical.choice, Quot.sound
C71_robot6_path_returns: propext, Classical.choice, Quot.sound
C71_robot6_continuous_partial: propext, Classical.choice, Quot.sound
C71_ur_path_partial: propext, Classical.choice, Quot.sound
C71_ur_path_returns: propext, Classical.choice, Quot.sound
C71_ur_continuous_partial: propext, Classical.choice, Quot.sound
C72_rpy2R_rounding: propext, Classical.choice, Quot.sound
C72_R2rpy_rounding_partial: propext, Classical.choice, Quot.sound
C72_roundtrip_partial: propext, Classical.choice, Quot.sound
C72_gimbal_false: propext, Classical.choice, Quot.sound
C73_subproblem1_coord_partial: propext, Classical.choice, Quot.sound
C73_subproblem1_false: propext, Classical.choice, Quot.sound
C73_subproblem1_rounding_partial: propext, Classical.choice, Quot.sound
C73_subproblem1_axes_partial: propext, Classical.choice, Quot.sound
C73_subproblem1_split_partial: propext, Classical.choice, Quot.sound
C74_subproblem4_rounding_partial: propext, Classical.choice, Quot.sound
C74_subproblem4_false: propext, Classical.choice, Quot.sound
C74_subproblem4_split_partial: propext, Classical.choice, Quot.sound
C75_fwdkin_lipschitz: propext, Classical.choice, Quot.sound
C75_fwdkin_reach: propext, Classical.choice, Quot.sound
C75_lipschitz_sharp: propext, Classical.choice, Quot.sound
C76_converged_partial: propext, Classical.choice, Quot.sound
C76_returned: propext, Classical.choice, Quot.sound
C76_stops_at_solution: propext, Classical.choice, Quot.sound
C77_quatproduct_chain: propext, Classical.choice, Quot.sound
C77_chain_rotation: propext, Classical.choice, Quot.sound
C77_rot2q_rounding: propext, Classical.choice, Quot.sound
C77_complement_jacobian: propext, Classical.choice, Quot.sound
C78_jacobian_taylor: propext, Classical.choice, Quot.sound
C78_newton_position: propext, Classical.choice, Quot.sound
C78_jacobian_lipschitz: propext, Classical.choice, Quot.sound
C79_fwdkin_geometry: propext, Classical.choice, Quot.sound
C80_conditioning: propext, Classical.choice, Quot.sound
C80_converges: propext, Classical.choice, Quot.sound
C80_solution_exists: propext, Classical.choice, Quot.sound
C81_subproblem3_axes_partial: propext, Classical.choice, Quot.sound
C81_subproblem3_unreachable_partial: propext, Classical.choice, Quot.sound
C81_subproblem3_rounding_partial: propext, Classical.choice, Quot.sound
C81_subproblem3_false: propext, Classical.choice, Quot.sound
C82_subproblem2_axes_partial: propext, Classical.choice, Quot.sound
C82_subproblem2_rounding_partial: propext, Classical.choice, Quot.sound
C82_subproblem2_false: propext, Classical.choice, Quot.sound
C83_robot6_rounding_partial: propext, Classical.choice, Quot.sound
C83_robot6_false: propext, Classical.choice, Quot.sound
C83_robot6_coord_partial: propext, Classical.choice, Quot.sound
C84_ur_rounding: propext, Classical.choice, Quot.sound
C85_wrist_det: propext, Classical.choice, Quot.sound
C85_ur_det: propext, Classical.choice, Quot.sound
C85_wrist_margin: propext, Classical.choice, Quot.sound
C85_ur_margin: propext, Classical.choice, Quot.sound
C85_wrist_singular_iff: propext, Classical.choice, Quot.sound
C85_ur_singular_iff: propext, Classical.choice, Quot.sound
C85_robot6_rounding: propext, Classical.choice, Quot.sound
C85_ur_rounding: propext, Classical.choice, Quot.sound
C86_robot6_limits_partial: propext, Classical.choice, Quot.sound
C86_robot6_tracks_partial: propext, Classical.choice, Quot.sound
C86_robot6_in_limits: propext, Classical.choice, Quot.sound
C87_ur_limits_partial: propext, Classical.choice, Quot.sound
C87_ur_tracks_partial: propext, Classical.choice, Quot.sound
C87_ur_in_limits: propext, Classical.choice, Quot.sound
C88_accepts: propext, Classical.choice, Quot.sound
C88_chains: propext, Classical.choice, Quot.sound
C88_numbers: propext, Classical.choice, Quot.sound
C88_counts: propext, Classical.choice, Quot.sound
C88_vectors: propext, Classical.choice, Quot.sound
C88_joints: propext, Classical.choice, Quot.sound
C89_robot6_at_most_eight: propext, Classical.choice, Quot.sound
C89_ur_at_most_eight: propext, Classical.choice, Quot.sound
C89_robot6_distinct_partial: propext, Classical.choice, Quot.sound
C89_ur_distinct_partial: propext, Classical.choice, Quot.sound
C89_robot6_reach_twice: propext, Classical.choice, Quot.sound
C89_ur_reach_twice: propext, Classical.choice, Quot.sound
C89_robot6_twice_false: propext, Classical.choice, Quot.sound
C89_ur_twice_false: propext, Classical.choice, Quot.sound
C90_init_fits: propext, Classical.choice, Quot.sound
C90_wrong_names: propext, Classical.choice, Quot.sound
C90_no_joints: propext, Classical.choice, Quot.sound
C90_missing_limits: propext, Classical.choice, Quot.sound
C90_converts: propext, Classical.choice, Quot.sound
C90_otherwise: propext, Classical.choice, Quot.sound
C90_propagates: propext, Classical.choice, Quot.sound
C90_urdf_false: propext, Classical.choice, Quot.sound
C90_robot_raconteur: propext, Classical.choice, Quot.sound
C90_unnamed_false: propext, Classical.choice, Quot.sound
C91_exhaustive: propext, Classical.choice, Quot.sound
C91_outcome: propext, Classical.choice, Quot.sound
C91_loads_iff: propext, Classical.choice, Quot.sound
C91_default_axis_false: propext, Classical.choice, Quot.sound
C91_continuous_false: propext, Classical.choice, Quot.sound
C91_cycle_diverges: propext, Classical.choice, Quot.sound
C92_geometry: propext, Classical.choice, Quot.sound
C92_wrist: propext, Classical.choice, Quot.sound
C92_ur: propext, Classical.choice, Quot.sound
C93_once: propext, Classical.choice, Quot.sound
C93_once_eq: propext, Classical.choice, Quot.sound
C93_drift_partial: propext, Classical.choice, Quot.sound
C93_drift_obtuse_partial: propext, Classical.choice, Quot.sound
C93_fixed_partial: propext, Classical.choice, Quot.sound
C93_unstable_false: propext, Classical.choice, Quot.sound
C94_tool: propext, Classical.choice, Quot.sound
C94_torques: propext, Classical.choice, Quot.sound
C94_base: propext, Classical.choice, Quot.sound
C95_robot6: propext, Classical.choice, Quot.sound
C95_ur: propext, Classical.choice, Quot.sound
C95_iterative: propext, Classical.choice, Quot.sound
C96_robot6_partial: propext, Classical.choice, Quot.sound
C96_ur_partial: propext, Classical.choice, Quot.sound
C96_ur_recovers: propext, Classical.choice, Quot.sound
C97_fwdkin: propext, Classical.choice, Quot.sound
C97_jacobian: propext, Classical.choice, Quot.sound
C97_columns: propext
C97_subproblem3: propext, Classical.choice, Quot.sound
C97_subproblem4: propext, Classical.choice, Quot.sound
C97_subproblem1_partial: propext, Classical.choice, Quot.sound
C97_subproblem1_false: propext, Classical.choice, Quot.sound
C97_robot6_partial: propext, Classical.choice, Quot.sound
C97_ur_partial: propext, Classical.choice, Quot.sound
C97_robot6_false: propext, Classical.choice, Quot.sound
C98_opw: propext, Classical.choice, Quot.sound
C98_opw_first_link: propext, Classical.choice, Quot.sound
C98_ur: propext, Classical.choice, Quot.sound
C98_ur_joints_false: propext, Classical.choice, Quot.sound
C98_string_override: propext, Classical.choice, Quot.sound
C99_pose: propext, Classical.choice, Quot.sound
C100_path_partial: propext, Classical.choice, Quot.sound
C100_absolute_false: propext, Classical.choice, Quot.sound
C100_agree: propext, Classical.choice, Quot.sound
C100_from_document: propext, Classical.choice, Quot.sound
C101_arguments: propext, Classical.choice, Quot.sound
C101_rewrap: propext, Classical.choice, Quot.sound
C101_unknown_name: propext, Classical.choice, Quot.sound
C101_redundant: propext, Classical.choice, Quot.sound
C102_robots_partial: propext, Classical.choice, Quot.sound
C102_answers_partial: propext, Classical.choice, Quot.sound
C102_shared_false: propext, Classical.choice, Quot.sound
C102_transform_false: propext
C103_floats: propext, Quot.sound
C103_equivalent_false: propext, Classical.choice, Quot.sound
C103_opw_partial: propext, Classical.choice, Quot.sound
C103_opw_false: propext, Classical.choice, Quot.sound
C104_urdf_rounding: propext, Classical.choice, Quot.sound
C105_text_injective: none
C105_text_ne_empty: none
C105_subproblem1_returns: propext, Classical.choice, Quot.sound
C105_subproblem1_warned: propext, Classical.choice, Quot.sound
C105_subproblem1_lengths_partial: propext, Classical.choice, Quot.sound
C105_subproblem1_silent_false: propext, Classical.choice, Quot.sound
C105_subproblem2_none: propext, Classical.choice, Quot.sound
C105_subproblem2_warned_partial: propext, Classical.choice, Quot.sound
C105_subproblem2_spurious_false: propext, Classical.choice, Quot.sound
C105_subproblem3: propext, Classical.choice, Quot.sound
C105_subproblem3_none: propext, Classical.choice, Quot.sound
C105_subproblem4_silent_false: propext, Classical.choice, Quot.sound
C105_same_outcome: propext, Classical.choice, Quot.sound
C105_robot6_warned_partial: propext, Classical.choice, Quot.sound
C105_robot6_warns_partial: propext, Classical.choice, Quot.sound
C105_robot6_silent_false: propext, Classical.choice, Quot.sound
C105_robot6_unreachable_partial: propext, Classical.choice, Quot.sound
C105_ur_warned_partial: propext, Classical.choice, Quot.sound
C105_ur_warns_partial: propext, Classical.choice, Quot.sound
C105_robot6_spurious_false: propext, Classical.choice, Quot.sound
C106_str_partial: propext, Classical.choice, Quot.sound
C106_repr_partial: propext, Classical.choice, Quot.sound
C106_print_false: propext, Classical.choice, Quot.sound
C106_ne: propext, Classical.choice, Quot.sound
C106_eq_not_print: propext, Classical.choice, Quot.sound
C107_rr_rounding: propext, Classical.choice, Quot.sound
C107_tool_rounding: propext, Classical.choice, Quot.sound
C108_equiv_rounding_partial: propext, Classical.choice, Quot.sound
C108_equiv_last: propext, Classical.choice, Quot.sound
C108_limits_false: propext, Classical.choice, Quot.sound
C109_random_R_rounding: propext, Classical.choice, Quot.sound
C109_random_transform_partial: propext, Classical.choice, Quot.sound
C109_zero_false: propext, Classical.choice, Quot.sound
C110_inertia_rounding: propext, Classical.choice, Quot.sound
C110_kinetic_energy: propext, Classical.choice, Quot.sound
C110_left_out: propext, Classical.choice, Quot.sound
C111_bodies: propext, Classical.choice, Quot.sound
C111_inertias_partial: propext, Classical.choice, Quot.sound
C111_displaced_false: propext, Classical.choice, Quot.sound
C111_turned_false: propext, Classical.choice, Quot.sound
C112_first: propext, Classical.choice, Quot.sound
C112_name_taken: propext, Classical.choice, Quot.sound
C112_succeeds_iff: propext, Classical.choice, Quot.sound
C112_joints_apart: propext, Classical.choice, Quot.sound
C112_own_names_clash: propext, Classical.choice, Quot.sound
C112_pose: propext, Classical.choice, Quot.sound
C112_independent: propext, Classical.choice, Quot.sound
C112_fwdkin: propext, Classical.choice, Quot.sound
C113_steady: propext, Classical.choice, Quot.sound
C113_reverse: propext, Classical.choice, Quot.sound
C113_subdivide: propext, Classical.choice, Quot.sound
C113_frames: propext, Classical.choice, Quot.sound
C114_fwdkin: propext, Classical.choice, Quot.sound
C114_jacobian: propext, Classical.choice, Quot.sound
C114_wf: propext, Classical.choice, Quot.sound
C114_solutions: propext, Classical.choice, Quot.sound
C114_iterative: propext, Classical.choice, Quot.sound
C115_fwdkin: propext, Classical.choice, Quot.sound
C115_jacobian: propext, Classical.choice, Quot.sound
C116_without: propext, Classical.choice, Quot.sound
C116_fwdkin: propext, Classical.choice, Quot.sound
C116_jacobian: propext, Classical.choice, Quot.sound
C117_fixed_joints: propext, Classical.choice, Quot.sound
C117_tip_left_out_false: propext, Classical.choice, Quot.sound
C118_fwdkin: propext, Classical.choice, Quot.sound
C118_jacobian: propext, Classical.choice, Quot.sound
C119_jacobian: propext, Classical.choice, Quot.sound
C119_self_motions: propext, Classical.choice, Quot.sound
C120_fwdkin: propext, Classical.choice, Quot.sound
C120_jacobian: propext, Classical.choice, Quot.sound
C120_solutions: propext, Classical.choice, Quot.sound
C121_fwdkin: propext, Classical.choice, Quot.sound
C121_jacobian: propext, Classical.choice, Quot.sound
C121_iterative: propext, Classical.choice, Quot.sound
C121_robot6_partial: propext, Classical.choice, Quot.sound
C121_robot6_first_partial: propext, Classical.choice, Quot.sound
C121_robot6_fifth_false: propext, Classical.choice, Quot.sound
C122_fwdkin: propext, Classical.choice, Quot.sound
C122_jacobian: propext, Classical.choice, Quot.sound
C122_iterative: propext, Classical.choice, Quot.sound
C123_fwdkin: propext, Classical.choice, Quot.sound
C123_jacobian: propext, Classical.choice, Quot.sound
