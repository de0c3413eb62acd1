{
"C01": [
"proved",
"over the reals, for every unit axis and angle"
],
"C02": [
"proved",
"over the reals"
],
"C03": [
"proved",
"over the reals embedded in the extended reals, for every rotation outside the two singular bands; periodicity and axis-angle recovery included"
],
"C04": [
"partial",
"the claim is false as stated: line 119 of R2rot tests B[0,2] where B[1,2] is needed, so half turns with two vanishing axis components of a certain pattern get a wrong sign. C04_R2rot_false is the witness; the _partial theorems cover the rotations for which the branch is right"
],
"C05": [
"proved",
"over the reals; spec is Mathlib's quaternion product and conjugation"
],
"C06": [
"proved",
"both directions and surjectivity, exact arithmetic"
],
"C07": [
"partial",
"rot2q proved in full; q2rot is right except at q0 = -1, where it divides 0 by 0 (C07_q2rot_minus_one)"
],
"C08": [
"proved",
"over the reals; spec is Mathlib's quaternion product"
],
"C09": [
"proved",
"HasDerivAt of each entry, for arbitrary differentiable trajectories"
],
"C10": [
"proved",
"round trip, gimbal-lock rejection and ranges"
],
"C11": [
"partial",
"geodesic, endpoints, band and errors proved; sign independence is false when q0.q1 = 0 (C11_slerp_sign_false)"
],
"C12": [
"proved",
"over the reals"
],
"C13": [
"proved",
"group laws up to frame names"
],
"C14": [
"proved",
"frame ids of products and inverses"
],
"C15": [
"partial",
"symmetry of == is false because np.isclose is asymmetric (C15_eq_symm_false); reflexivity and the componentwise characterisation are proved"
],
"C16": [
"proved",
"constructor accepts exactly the documented inputs; one-sided limits are dropped (C16_ctor_half)"
],
"C17": [
"proved",
"against a point-wise specification, chains of any length"
],
"C18": [
"proved",
"exactly when the limit check raises; a chain that ends within a mobile base is accepted by the constructor and makes robotjacobian raise IndexError (C18_cut_base_raises)"
],
"C19": [
"proved",
"2 pi periodicity in rotary joints, affine in prismatic joints"
],
"C20": [
"proved",
"along any differentiable joint trajectory, any chain length; needs R_tool and p_tool both set or both None"
],
"C21": [
"proved",
"both directions"
],
"C22": [
"proved",
"3,3,2 mobile base with any rotary/prismatic arm, nonholonomic drive"
],
"C23": [
"proved",
"exact outside the 2^-26 coincidence tolerance, within it otherwise; vectors on the axis raise"
],
"C24": [
"partial",
"false in the tangent case, where the arguments of subproblem1 are permuted (C24_subproblem2_tangent_false); proved for |disc| >= eps, sound and complete up to the coincidence tolerance"
],
"C25": [
"partial",
"false when p or q is on the axis and every angle is a solution: the call raises (C25_subproblem3_on_axis); proved for all other inputs"
],
"C26": [
"partial",
"false below the range ([nan, nan], C26_subproblem4_below_nan) and in the degenerate case (C26_subproblem4_degenerate_nan); proved for all other inputs"
],
"C27": [
"partial",
"false when the angle is more than one turn away from the limits (C27_normalize_far_false); all other clauses proved, and dropping is right for principal angles with limits within +-3 pi (C27_normalize_principal)"
],
"C28": [
"partial",
"false with last_joints when exactly one candidate is within a quarter turn: the others are dropped (C28_call_prunes_false); otherwise proved"
],
"C29": [
"proved",
"over the extended reals, with explicit tolerances; poses within the singularity tolerance of the wrist are excluded as in the claim"
],
"C30": [
"partial",
"false at wrist singularities, where the call raises (C30_robot6_singular_raises, C30_robot6_home_raises), and for limits more than a turn away (C30_robot6_far_limits_false); proved exactly for regular arms and configurations without last_joints"
],
"C31": [
"proved",
"all robots and poses, also with NaN; hence fwdkin accepts every solution"
],
"C33": [
"proved",
"although columns of P may be changed in place; any history of calls"
],
"C34": [
"proved",
"for all three functions, lists of any length"
],
"C36": [
"partial",
"false: joint 5 is never checked against its limits (C36_ur_limits_false); proved for the other five joints"
],
"C37": [
"proved",
"sound for every robot and list of solutions"
],
"C38": [
"partial",
"complete and duplicate free for joint types 0 and 1; type 2 (heading) joints are not expanded, C38_heading_false; an infinite limit loses turns or raises ValueError, C38_half_infinite_false"
],
"C39": [
"partial",
"the inputs themselves are returned too (C39_additional_false); what is proved says which"
],
"C40": [
"partial",
"rotary joints and final orientation error away from half a turn; false otherwise (C40_prismatic_false, C40_half_turn_false)"
],
"C41": [
"partial",
"robots with exactly one joint raise TypeError (C41_one_joint_false); proved otherwise; a seed of the wrong length raises ValueError (C41_wrong_length)"
],
"C42": [
"proved",
"for every message and every vector, with sizes checked"
],
"C43": [
"proved",
"for every rigid transform and every message with a unit quaternion; a missing frame id comes back as the empty string, as the theorem says"
],
"C44": [
"proved",
"for every listener, which is abstract; lookups compose when the listener is consistent; questions, waits and clear keep the listener's contract"
],
"C45": [
"partial",
"false: joint i gets joint_info[i] whatever joint_numbers says (C45_joint_numbers_false); the partial theorem covers chains with joint_numbers[i] = i"
],
"C46": [
"partial",
"false in three ways: the first joint number is never range-checked, negative chain numbers are accepted, null limits become NaN; C46_accepts_partial states everything the loader does guarantee"
],
"C47": [
"proved",
"loader equation in both directions over the extended reals; forward kinematics over the reals"
],
"C48": [
"proved",
"over the reals, unit axes; every chain with distinct joint names, every fuel"
],
"C49": [
"proved",
"for every scalar type"
],
"C50": [
"proved",
"for every scalar type; the file has distinct joint names and each link at most one parent. urdf_parser_py's graph functions are modelled from its published source"
],
"C51": [
"proved",
"over the reals"
],
"C52": [
"proved",
"over the reals; the scene graph semantics (a joint's pose is its origin followed by its motion) is a small specification of the external library"
],
"C53": [
"partial",
"false for two robots in general: a robot named so that its prefixed names coincide with another robot's can clash (C53_two_robots_false), and include_world=False never succeeds (C53_without_world, C53_without_world_error); proved: a scene graph that is returned has distinct names and is connected, prefixing is injective, and the exact condition for success"
],
"C54": [
"partial",
"false for the documented string override, which is never accepted (C54_string_override_false), and for the UR solver with a tool: the tip link is the tool frame but the parameters end at the flange (C54_ur_tool_false); proved for all other arguments"
],
"C55": [
"partial",
"False for robots whose forearm is vertical at zero, which are accepted with an orientation off by a quarter turn (C55_vertical_false); for some robots with axes within tolerance that are accepted with sign correction 0 for a joint (C55_sign_zero_false); and for robots with sliding joints, since joint types are only counted (C55_sliding_false). Proved for all other accepted robots: within rounding for exact axes (C55_opw_partial), within 1/1000 for axes within the tolerances (C55_accepted_partial)."
],
"C56": [
"partial",
"False: d6 leaves out the last link (C56_last_link_false); the +x convention of ur_invkin is rejected (C56_urdf_false), the +x robots that are accepted get wrong parameters (C56_plus_false), and sliding joints are accepted (C56_sliding_false). Proved for the factory convention: exact for exact arms without a last link (C56_ur_partial), and within 1/400 and up to the last link for all accepted robots (C56_accepted_partial)."
],
"C57": [
"proved",
""
],
"C58": [
"proved",
"over the reals"
],
"C59": [
"partial",
"false: a massless root link or a massless tool frame makes the loader drop all inertia matrices, because the child link is tested but the parent link is converted (C59_massless_tip_false, C59_massless_root_false)"
],
"C35": [
"proved",
"over the reals extended with NaN and infinities"
],
"C60": [
"partial",
"false at wrist singularities, where the call raises (C60_ur_singular_raises, C60_ur_home_raises), and with limits far from zero (C60_ur_limits_false); proved for regular joint vectors within limits of the usual kinds, without last_joints"
],
"C32": [
"partial",
"false with last_joints: the empty list is never returned, the call raises instead (C32_*_last_never_empty, C32_*_last_raises, C32_equiv_empty); false without limits when the wrist centre is too close to the first axis (C32_*_near_axis_raises); proved otherwise for unreachable poses without last_joints"
],
"C61": [
"proved",
"over the reals; the library's calcFwdKin, calcInvKin and calcJacobian are parameters"
],
"C62": [
"proved",
"in any floating-point system with the standard error bounds (binary64 is an instance); sums from left to right; limits not checked (ignore_limits)"
],
"C63": [
"proved",
"in any floating-point system with the standard error bounds"
],
"C64": [
"partial",
"false: slerp(q, q, t) is NaN in binary64 for q = (3,3,0,0), q2rot is NaN for a scalar part above 1, R2rot has a NaN axis near half turns; proved in floating-point arithmetic away from these singularities: R2rot (errors eps/s, and the round trip for all rotations up to 120 degrees), q2rot and slerp (errors eps/s^2), s being the sine of the (half) angle; arccos and arctan2 are assumed accurate to a rounding unit (Spec.InvAcc)"
],
"C65": [
"proved",
"over extended reals; `float` of strings is a parameter"
],
"C66": [
"partial",
"false: the zero draw gives NaN (C66_zero_nan), and only rotations about axes with nonnegative coordinates are drawn (C66_all_rotations_false; C66_range is the exact set); proved that every other draw gives a rotation"
],
"C67": [
"partial",
"false for UR arms with the usual limits of one turn: joint 5 beyond half a turn is never returned (C67_ur_wrist_false, C67_ur_wrist_turn_lost) and joint 4 is lost when q24 - q2 - q3 is two turns or more (C67_ur_fourth_false, C67_ur_fourth_lost); proved for regular joint vectors otherwise, including that the call returns"
],
"C68": [
"proved",
"Any rounding system with relative error u (binary64 is an instance), any chain length with 32768(n+3)u <= 1, mobile bases included."
],
"C69": [
"partial",
"false far from the origin: at 2^30 the absolute tolerance 1e-8 of == is below the rounding error (C69_far_false); proved when the positions involved add up to at most L with 1e11 u L <= 1 (about 11000 for binary64, whose u is taken as 2^-50), for every rounding system"
],
"C70": [
"proved",
"np.linalg.pinv is a parameter that satisfies the Penrose conditions on well conditioned matrices; exact arithmetic"
],
"C71": [
"partial",
"proved for regular joint vectors inside limits of the usual kind (the conditions of C67), including that the calls return, for paths of any length and samplings of continuous paths; missing: joint vectors within the coincidence tolerance of the subproblems, other limits, and UR arms with joint 5 beyond half a turn (false by C67_ur_wrist_false)"
],
"C72": [
"partial",
"rpy2R proved in full; R2rpy proved for pitch with cosine at least 64 eps (angles) and 40000 eps (matrix recovered within 1200 eps/c); the reading \"accurate whenever it does not raise\" is false next to gimbal lock (C72_gimbal_false); arccos and arctan2 are assumed accurate to a rounding unit (Spec.InvAcc)"
],
"C73": [
"partial",
"false: in binary64 subproblem1([1,1,1],[1,1,-1],[1,1,0]) raises an AssertionError (C73_subproblem1_false); proved: it raises or returns the angle within (2 sqrt(eps_machine) + 350000 eps)/s, and for the coordinate axes and their negatives and representable points it never raises; with data errors e, f apart from the unit roundoff: within (beta + 3.15 (e + f) + 700000 u)/s; arctan2 is assumed accurate (Spec.InvAcc)"
],
"C74": [
"partial",
"false at the extreme displacements: in binary64 subproblem4(ex, ex, ez, d) with d one unit in the last place beyond 1 (reached at angle 0) is [] and beyond -1 is [nan, nan] (C74_subproblem4_false); proved: both solutions within 12000 eps/m when 110000 eps <= m^2; with data errors apart from the unit roundoff: within 17 (e + f + 800 u)/m; arctan2 and arcsin are assumed accurate (Spec.InvAcc)"
],
"C75": [
"proved",
""
],
"C76": [
"partial",
"false for prismatic joints and near half a turn, as C40 (C40_prismatic_false, C40_half_turn_false); proved for rotary joints, orientation errors at least 1e-5 from half a turn and tolerances up to 0.1; arccos is assumed accurate (Spec.InvAcc), rounding an integer gives an integer (Spec.IntRounding, proved for binary64); the bound of C76_returned involves the size of the last iterate, and needs the returned values to be finite"
],
"C77": [
"proved",
"the elementwise constants are not sharp; the order of summation in a dot product is the model's"
],
"C78": [
"proved",
"the bounds are for rotary and prismatic joints (types 0 and 1); exact arithmetic"
],
"C79": [
"proved",
"exact arithmetic"
],
"C80": [
"proved",
"exact arithmetic; scalar gains; pinv is assumed to return the pseudo-inverse of matrices none of whose singular values it cuts off (as in C70)"
],
"C81": [
"partial",
"false: the inner check of subproblem1 may fail (C73), and at the extreme distances the list may be empty also for data that are exact floating-point numbers: in binary64 subproblem3([1+3/2^27,0,0], ex, ez, 2+3/2^27) is [] although angle 0 solves it (C81_subproblem3_false); proved: away from the extremes it raises or returns the angle; about coordinate axes it never raises and both angles are near solutions; out of reach by a margin the list is empty; arctan2, arcsin and arccos are assumed accurate (Spec.InvAcc)"
],
"C82": [
"partial",
"false: the inner checks of subproblem1 may fail (C73), and in the tangent case it raises, e.g. subproblem2(ex, ex, ex, ey) (C82_subproblem2_false); proved for perpendicular axes: away from the tangent case it raises or returns the pair; about coordinate axes it never raises and both pairs are near solutions; arctan2 is assumed accurate (Spec.InvAcc)"
],
"C83": [
"partial",
"false: the check that offset 4 is along the axis of joint 4 compares with exactly zero, so an arm with a tilted forearm axis raises AssertionError for every pose once stored in binary64 (C83_robot6_false); the subproblems may raise as well (C73, C81, C82). Proved for arms without joint limits with offsets of total length at most 1.9 up to the wrist and 1 beyond: if the call returns, the list contains the joint values; and for arms whose axes 2 to 6 are coordinate axes, stored exactly, the call returns, every row is within delta of a joint vector that reaches the pose and every such joint vector is within delta of a row, if all solutions have the margins and no shoulder angle leaves the wrist centre at the border of the reach of the elbow (C83_robot6_coord_partial); arctan2, arcsin and arccos are assumed accurate (Spec.InvAcc)"
],
"C84": [
"proved",
"arctan2, arcsin and arccos are assumed accurate (Spec.InvAcc), which holds for a correctly rounded library"
],
"C85": [
"proved",
""
],
"C86": [
"partial",
"As for C83: arms whose joints 4 to 6 are along coordinate axes, offsets of at most 1.9 up to the wrist, poses with margin m from the singularities; the limits of each joint are within 4.5 of zero or beyond half a turn on either side, joint vectors are inside them by twice the error; last_joints within 1/2. That rows are strictly inside the limits is proved for all robots, poses, limits and last joint values."
],
"C87": [
"partial",
"As for C84: offsets of at most 1.9 up to the wrist, poses with margin m from the singularities. Limits are such that one turn brings every angle of the computed size inside; for the fourth joint this size is that of the second and third joint values together plus 3.2 (without this the claim is false, C67_ur_fourth_false). Joint vectors are inside the limits by twice the error; last_joints within 1/2, and the fifth joint between -3 and 3 (it is not moved towards last_joints, C67_ur_wrist_false). That rows are strictly inside the limits, but for the fifth entry, is proved for all robots, poses, limits and last joint values."
],
"C88": [
"proved",
"The joint data are those of the first entries of joint_info, whatever the joint numbers are (C45). Conversions by NumPy as in the model: one faulty component of a vector, the others numbers."
],
"C89": [
"partial",
"The bound of eight is proved for all robots and number types. None twice is false at the end of the lateral reach (C89_*_twice_false, and C89_*_reach_twice for every such pose); proved for the joint vectors that are not there and do not have the forearm folded back."
],
"C90": [
"partial",
"The exceptions are classified for every robot that fits the constructor's checks, with success characterised exactly. The first half is false: C90_urdf_false (every URDF robot) and C90_unnamed_false (documents with two unnamed joints); C90_robot_raconteur says exactly which documents convert."
],
"C91": [
"partial",
"For files whose joints form a forest the outcome (robot or which exception) is characterised completely and shown to be reached in finitely many steps. The first and last sentences are false: C91_default_axis_false, C91_continuous_false, C91_cycle_diverges."
],
"C92": [
"proved",
"over the reals extended with NaN and infinities, with explicit tolerances; hypotheses on the geometry are about the file (Spec.UrdfWrist, Spec.UrdfUr)"
],
"C93": [
"partial",
"One message: proved (C93_once, C93_once_eq). Many messages: false between 90 and 120 degrees (C93_unstable_false); linear drift proved in floating-point arithmetic for angles below 90 and above 120 degrees. Missing: angles of exactly 90 and 120 degrees."
],
"C96": [
"partial",
"Proved for regular joint vectors (the conditions of C30 and C60: the solvers raise or go wrong at singularities, and with limits far from zero) and calls without last_joints; for UR arms the limits of joint 5 contain half a turn on either side, since they are not checked (C36_ur_limits_false). C96_ur_recovers: the joint vector ur_invkin loses by C67_ur_wrist_false is found."
],
"C94": [
"proved",
""
],
"C95": [
"proved",
"C95_iterative: well-formed robots, target rotation a rotation, and pinv (a parameter of the model) returning finite entries for finite matrices."
],
"C97": [
"partial",
"Proved for fwdkin (all joint types), robotjacobian (all joint types; the third joint of a mobile base is not a sliding joint), subproblem3 and subproblem4. False for subproblem1 and the solver built on it, whose coincidence tolerance 2^-26 is a length (C97_subproblem1_false, C97_robot6_false). The solvers are proved to give equal results, for all limits and last joint values, if no joint vector with the second joint at zero puts the wrist centre within that tolerance of its place, in either unit."
],
"C98": [
"partial",
"Proved for OPW, exactly, and for UR robots of six joints or one. False for UR robots with another number of joints: the function does not check it and ValueError is raised by the comparison of shapes (C98_ur_joints_false)."
],
"C99": [
"proved",
""
],
"C100": [
"partial",
"File system, package index, xacro, XML parser and parameter server are parameters. False for absolute file names given with a package: the package is looked up but ignored (C100_absolute_false). Proved for relative names."
],
"C101": [
"proved",
"What the kinematic group and getRedundantSolutions (external) return is assumed as stated in Spec.GroupOf, Spec.GroupJoints and Spec.RedundantSpec."
],
"C102": [
"partial",
"Proved for robots that share P only if they have the same fourth and sixth axis, such as one arm with several tools. False for others: the call moves a column of the shared matrix (C102_shared_false). False for transforms: p is a view of the array passed in (C102_transform_false)."
],
"C103": [
"partial",
"Proved for robot_to_opw_inv_kin_parameters except for the length of the upper arm, whose fraction is lost (C103_opw_false bounds the error). False for equivalent_configurations: no returned vector is equivalent to the given one (C103_equivalent_false)."
],
"C104": [
"proved",
"Limits, inertias and efforts are not compared. Axes must be exact unit vectors in the exact file. The bound is quadratic in the length of the chain."
],
"C105": [
"partial",
"Proved: subproblem3 warns exactly if no rotation gives the distance; a warning of subproblem1 means there is no solution, and one of subproblem2 too for axes that are not nearly parallel and points not nearly in the plane of the axes (or of unit length); the messages of subproblem2 and subproblem3 about missing solutions are issued exactly if the empty list is returned (all number types); the solvers issue only the message about the distance, and only if for some turn of the first joint the elbow cannot reach the wrist centre, and always then without limits and last joint values if the call returns (for UR: if the goal is further away than the links are long); for unreachable poses the spherical wrist solver returns the empty list and warns exactly within the lateral reach of the shoulder. False in the code: subproblem1 returns a wrong angle in silence for points of equal length at different heights, subproblem2 warns about lengths that are equal in the tangent case, subproblem4 returns the empty list in silence, and so does the spherical wrist solver outside the lateral reach of the shoulder; a reached pose whose joint vectors are returned still gives the message that there is no solution. Missing: arms whose forearm almost continues the upper arm at zero elbow angle, the converse with limits or last joint values."
],
"C106": [
"partial",
"False in the code for frame ids with line breaks (C106_print_false: an id can imitate the line of the other id, for any arrays and both forms). Proved for ids without line breaks, quotes included, for every way of printing the rotation and every printing of the position on one line. Two transforms that compare equal may print differently because == ignores the ids (C106_eq_not_print). The method __neq__ is not called by Python 3; != is the negation of == all the same (C106_ne)."
],
"C107": [
"proved",
""
],
"C108": [
"partial",
"False in binary64 as far as the limits go (C108_limits_false): the difference of the upper limit 15 and the joint value rounds up to three turns, the row is the next number after 15, and fwdkin, which accepts the input, raises AssertionError on the row. Proved with the limits widened by (23 S + 100) u, S the largest limit or joint value; the rest of the statement as it stands."
],
"C109": [
"partial",
"False for the draw of four zeros, where all entries are NaN in every floating-point system (C109_zero_false; exactly as in C66_zero_nan). Proved for all other draws."
],
"C110": [
"proved",
"Masses between half a milligram and two milligrams, around the threshold of the code, are not covered."
],
"C111": [
"partial",
"False for links whose frame is turned against the root frame: the argument R of _convert_inertial is not used (C111_turned_false); and for links fixed with a displacement, which are added without moving them to the frame of the body (C111_displaced_false). C111_bodies says what the matrices are in general; C111_inertias_partial proves the claim for files without orientations and without displacements of fixed joints. Every child link has an inertial element (see C59)."
],
"C112": [
"proved",
"The scene graph operations and the kinematic group are external: insertion as in Model/Tesseract.lean, the group as in Spec.GroupOf. Poses and independence hold for robots with joint names of their own too; whether these fit together is not settled by the robots' names (C112_own_names_clash)."
],
"C113": [
"proved",
"Over the reals with exceptions and NaN (XReal), like C11; quaternions closer than the band of slerp (arc below 1e-6) are in C113_frames only. With rounding see C64."
],
"C114": [
"proved",
"Over the reals. The Jacobian of a mobile group (joint type 3) depends on the joint value itself, so it is left out of C114_jacobian. C114_iterative on the XReal instance, with pinv a parameter."
],
"C115": [
"proved",
"Over the reals. With the limits checked, both robots must have limits for all joints: the toolbox has one limit array for the whole robot. Mobile joints (type 3) are left out of C115_jacobian."
],
"C116": [
"proved",
"Over the reals, limits ignored (ignore_limits=True). Mobile joints (type 3) are left out of the Jacobian."
],
"C117": [
"proved",
"Over the reals, limits ignored; with the tip given. C117_tip_left_out_false is the counterexample when no tip is given."
],
"C118": [
"proved",
"Over the reals. With limits checked the limits must be given, one for each joint. Mobile joints (type 3) are left out of the Jacobian."
],
"C119": [
"proved",
"Over the reals, limits ignored. Mobile joints (type 3) are left out."
],
"C120": [
"proved",
"Over the reals. With limits checked the limits must be given, one for each joint. Mobile joints (type 3) are left out of the Jacobian."
],
"C121": [
"partial",
"Pose, Jacobian and iterative solver proved in full (the solver on the extended reals, with a pseudoinverse of finite entries). False for the spherical wrist solver if the fifth joint is moved: every call raises AssertionError (C121_robot6_fifth_false). Proved for it if the first, the fourth or the sixth joint is moved. Missing: the second and third joint for that solver."
],
"C122": [
"proved",
"Pose and Jacobian over the reals, with no condition on the robot, not even that the lists have fitting lengths. The solver on the extended reals, for well-formed robots and a pseudoinverse of finite entries."
],
"C123": [
"proved",
"Over the reals, limits ignored (they apply to the values one by one). Mobile joints (type 3) are left out of the Jacobian."
]
}