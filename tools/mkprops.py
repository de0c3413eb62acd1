import json
G="src/general_robotics_toolbox/general_robotics_toolbox.py"
I="src/general_robotics_toolbox/general_robotics_toolbox_invkin.py"
M="src/general_robotics_toolbox/ros_msg.py"
TF="src/general_robotics_toolbox/ros_tf.py"
Y="src/general_robotics_toolbox/robotraconteur.py"
U="src/general_robotics_toolbox/urdf.py"
T="src/general_robotics_toolbox/tesseract.py"
P=[]
def p(title, statement, quant, why, *anch):
    P.append(dict(id="C%02d"%(len(P)+1), title=title, statement=statement, quantifier=quant, why_tests_cant=why,
        anchors=[f"{f}: {s}" for f,s in anch]))
REALS="Ranges over uncountably many real inputs; a test samples a few literals."
p("rot returns the rotation about the given axis",
 "For a unit axis k and any angle, rot(k, theta) is a proper rotation matrix (orthogonal, determinant 1), leaves k fixed, turns a vector perpendicular to k by theta in the right-hand sense, satisfies rot(k,a) rot(k,b) = rot(k,a+b) and rot(k,-a) = rot(k,a)^T, and is 2*pi-periodic.",
 "all unit vectors k and all real angles", REALS,(G,"rot"),(G,"hat"))
p("hat/invhat implement the cross product and its inverse",
 "hat(k) v = k x v for every v, hat(k) is skew symmetric, invhat(hat(k)) = k, and hat(invhat(S)) = S for every skew S.",
 "all vectors and all skew matrices", REALS,(G,"hat"),(G,"invhat"))
p("R2rot inverts rot away from its singularities",
 "For every proper rotation R whose rotation angle has sine at least 1e-6, R2rot(R) returns a unit axis and an angle in (0, pi) with rot(k, theta) = R.",
 "all rotation matrices outside the singular band", REALS,(G,"R2rot"))
p("R2rot is a usable inverse at the singularities",
 "For every proper rotation R inside the singular band (angle near 0 or near pi), R2rot(R) returns an axis and angle whose rotation reproduces R up to the tolerance of the band.",
 "all rotation matrices inside the singular band", "The band is a set of measure zero that random tests essentially never hit; the tests probe five literals.",(G,"R2rot"))
p("q2R is a homomorphism from unit quaternions onto rotations",
 "For every unit quaternion q, q2R(q) is a proper rotation, q2R(-q) = q2R(q), q2R of the Hamilton product is the matrix product and q2R of the complement is the transpose.",
 "all unit quaternions and pairs of them", REALS,(G,"q2R"),(G,"quatproduct"),(G,"quatcomplement"))
p("R2q and q2R are mutually inverse",
 "For every proper rotation R, R2q(R) produces no NaN, is a unit quaternion and q2R(R2q(R)) = R; for every unit quaternion q, R2q(q2R(q)) is q or -q. On any other finite matrix R2q raises nothing, divides by nothing near zero and returns finite numbers, one of them at least 1/2.",
 "all rotation matrices, in every one of the four branches of R2q", REALS,(G,"R2q"),(G,"q2R"))
p("rot2q and q2rot agree with rot and q2R",
 "For every unit axis k and every angle, rot2q(k,theta) is a unit quaternion with q2R(rot2q(k,theta)) = rot(k,theta); q2rot recovers (k,theta) for theta in [1e-6, 2*pi), and for every unit quaternion q the pair returned by q2rot reproduces q2R(q) outside the small-angle band and is within the band tolerance inside it.",
 "all unit axes, angles and unit quaternions", REALS,(G,"rot2q"),(G,"q2rot"))
p("quatproduct is the Hamilton product",
 "quatproduct(p) q is the Hamilton product: associative, with [1,0,0,0] as identity, quatproduct(q) quatcomplement(q) = |q|^2, and the norm is multiplicative.",
 "all quaternions", REALS,(G,"quatproduct"),(G,"quatcomplement"))
p("quatjacobian maps angular velocity to quaternion rate",
 "If a unit-quaternion trajectory q(t) has derivative quatjacobian(q(t)) w, then q2R(q(t)) has derivative hat(w) q2R(q(t)), and quatjacobian(q) w is always orthogonal to q so the norm is preserved.",
 "all differentiable trajectories, quaternions and angular velocities", "A statement about derivatives of arbitrary trajectories; the unit test compares one matrix with literals (and says TODO).",(G,"quatjacobian"),(G,"q2R"))
p("rpy2R and R2rpy are mutually inverse away from the singularity",
 "rpy2R always returns a proper rotation; R2rpy(R) raises exactly when the first column of R has its first two entries (numerically) zero, and otherwise rpy2R(R2rpy(R)) = R with pitch in (-pi/2, pi/2); R2rpy(rpy2R(rpy)) = rpy for angles in the principal ranges.",
 "all rotation matrices and all angle triples in the principal range", REALS,(G,"rpy2R"),(G,"R2rpy"))
p("slerp interpolates along the geodesic",
 "For unit quaternions at positive distance, slerp(q0,q1,t) raises iff t is outside [0,1], returns a unit quaternion, starts at the rotation of q0, ends at the rotation of q1, never depends on the sign or positive scaling of its inputs as a rotation, and its angle from the start grows linearly in t along the shorter arc.",
 "all pairs of nonzero quaternions and all t", REALS,(G,"slerp"))
p("screw_matrix transports twists and wrenches consistently",
 "With G = screw_matrix(r): G(r1) G(r2) = G(r1+r2), G(0) = I, G maps a wrench at point 2 to the equivalent wrench at point 1, G^T maps a twist at point 1 to the twist at point 2, and power is invariant.",
 "all displacement vectors, twists and wrenches", REALS,(G,"screw_matrix"))
p("Transform composition and inverse form a group",
 "For transforms whose R is a rotation: composition is associative, identity_transform() is neutral, T * T.inv() = T.inv() * T = identity, (A*B).inv() = B.inv()*A.inv(), and composition acts on points as successive application.",
 "all rigid transforms", REALS,(G,"Transform.__mul__"),(G,"Transform.inv"),(G,"identity_transform"))
p("Frame ids chain correctly through composition and inverse",
 "A*B carries the parent frame id of A and the child frame id of B, inv swaps the two, for chains of any length. identity_transform() carries none. The ids do not influence the pose.",
 "all transforms and all composition chains of any length", "Holds for chains of unbounded length.",(G,"Transform.__mul__"),(G,"Transform.inv"))
p("Transform equality behaves as an equality",
 "T == T for every finite T, T == U implies U == T, isclose is reflexive and monotone in tol, and a NaN entry never compares equal.",
 "all transforms and tolerances", "Asymmetric tolerance only shows at exact boundary values that sampled tests never hit.",(G,"Transform.__eq__"),(G,"Transform.isclose"))
p("The Robot constructor accepts exactly well-formed chains",
 "Robot(...) succeeds iff all axes are unit within tolerance, joint types are 0..3, there is one more column in P than in H, array lengths match the joint count; a robot with only one of the two position limits (or one of R_tool/p_tool) has neither.",
 "all argument combinations and all joint counts", "Every combination of optional arguments and every size.",(G,"Robot.__init__"))
p("fwdkin is the product of the joint transforms",
 "For a robot with any number of joints of any type, fwdkin(robot, theta) equals T_base * Trans(P0) * J0(theta0) * Trans(P1) * ... * J_{n-1} * Trans(Pn) * T_flange * T_tool, where J is a rotation about (types 0,2) or translation along (types 1,3) the joint axis; the resulting R is a proper rotation.",
 "all robots of every joint count and every joint type mix, all joint vectors", "Unbounded joint count and real-valued inputs; tests evaluate three poses of one robot.",(G,"fwdkin"),(G,"apply_robot_aux_transforms"))
p("fwdkin and robotjacobian enforce the joint limits",
 "When the robot has both position limits and limits are not ignored, fwdkin and robotjacobian raise AssertionError iff some joint is below its lower or above its upper limit (bounds inclusive are accepted); without limits, or ignoring them, fwdkin never raises for a joint vector of the right length, and robotjacobian raises (IndexError) only when the chain ends within a mobile base (a type-3 joint with fewer than two joints after it), and otherwise has one column per joint and two per mobile base. A joint vector that is too short raises IndexError and extra entries are ignored; with limits, a vector of the wrong length raises ValueError unless NumPy broadcasts it (one joint value against all limits, or all values against the limits of a one-joint robot), and then the comparison decides.",
 "all robots, limits and joint vectors", "Boundary behaviour for every joint position and count.",(G,"fwdkin"),(G,"robotjacobian"))
p("fwdkin is periodic in rotary joints and affine in prismatic joints",
 "Adding any integer multiple of 2*pi to any rotary joint does not change fwdkin (limits ignored); moving a prismatic joint by d translates the tool by d along the joint's current axis and leaves the orientation unchanged.",
 "all robots, joint vectors, joint indices and integer turns", "Unbounded turn counts, joint counts and real inputs.",(G,"fwdkin"))
p("robotjacobian is the derivative of fwdkin",
 "For rotary/prismatic chains of any length, with any T_base, T_flange and tool, column i of robotjacobian(robot,theta) is (angular velocity, linear velocity) of the tool frame of fwdkin when only joint i moves: d p/d theta_i = J[3:6,i] and d R/d theta_i = hat(J[0:3,i]) R.",
 "all robots of types 0/1, all joint vectors, all joints", "A derivative identity over all configurations and all chain lengths; tests compare three matrices to four digits.",(G,"robotjacobian"),(G,"fwdkin"))
p("apply and unapply of the auxiliary transforms are inverse",
 "unapply_robot_aux_transforms(robot, apply_robot_aux_transforms(robot, T)) = T and conversely, for every presence combination of tool, flange and base.",
 "all robots with rigid aux transforms, all poses", REALS,(G,"apply_robot_aux_transforms"),(G,"unapply_robot_aux_transforms"))
p("robotjacobian of a mobile base gives body-frame columns",
 "For a chain starting with joint types 3,3,2 the Jacobian has one column fewer than joints; multiplying it by (v, w, other joint rates) gives the tool twist of fwdkin when the base drives forward with speed v along its heading and turns with rate w.",
 "all mobile chains and configurations", "All configurations, chain lengths; mobile joint types have no tests at all.",(G,"robotjacobian"),(G,"fwdkin"))
p("subproblem0/subproblem1 find the rotation angle",
 "If some rotation about the unit axis k takes p to q then rot(k, subproblem1(p,q,k)) p = q (up to the 1.5e-8 coincidence tolerance), the angle is in (-pi, pi] and unique there; in general it is the least-squares angle; inputs on the axis are rejected rather than answered.",
 "all vectors p, q and unit axes k", REALS,(G,"subproblem0"),(G,"subproblem1"))
p("subproblem2 returns exactly the solutions",
 "Every pair (t1,t2) returned by subproblem2(p,q,k1,k2) satisfies q = rot(k1,t1) rot(k2,t2) p; every solution is returned up to multiples of 2*pi; an empty result means there is no solution; a single result is returned in the tangent case and is a solution.",
 "all p, q with equal norm and all nonparallel unit axes", REALS,(G,"subproblem2"))
p("subproblem3 returns exactly the solutions",
 "Every angle returned by subproblem3(p,q,k,d) satisfies |q + rot(k,theta) p| = d, every solution is returned up to multiples of 2*pi, and an empty result means there is no solution.",
 "all p, q, unit k and d >= 0", REALS,(G,"subproblem3"))
p("subproblem4 returns exactly the solutions",
 "Every angle returned by subproblem4(p,q,k,d) satisfies p^T rot(k,theta) q = d, every solution is returned up to multiples of 2*pi, and the result is empty exactly when there is no solution.",
 "all p, q, k and d", REALS,(G,"subproblem4"))
p("Joint normalization keeps the angle and respects the limits",
 "The normalized value differs from the input by a multiple of 2*pi, lies strictly inside the limits when they are checked, is the in-limit representative closest to last_joints when these are given, and the value is dropped only if no representative is inside the limits.",
 "all angles, limits and last joint values", "All real angles and unbounded turn counts.",(I,"normalize_joints.normalize"))
p("last_joints only reorders candidate angles",
 "Calling the normalizer on a list of candidates keeps exactly the candidates that have an in-limit representative; giving last_joints sorts them by distance without losing any.",
 "all candidate lists of any length", "Lists of any length and real entries.",(I,"normalize_joints.__call__"))
p("Spherical-wrist inverse kinematics is sound",
 "Every joint vector returned by robot6_sphericalwrist_invkin(robot, T) reproduces T under fwdkin (up to the coincidence tolerance), for every robot of orthogonal-parallel-wrist geometry with any tool, flange and base, with or without limits and last_joints, away from the wrist singularity.",
 "all OPW robots, poses and returned solutions", "All geometries and all poses; tests sample random configurations of three robots.",(I,"robot6_sphericalwrist_invkin"))
p("Spherical-wrist inverse kinematics is complete",
 "If a joint vector inside the limits reproduces T and is not singular then robot6_sphericalwrist_invkin(robot, T) returns a joint vector equal to it up to multiples of 2*pi; an empty list means the pose is unreachable.",
 "all OPW robots and all reachable poses", "All geometries and all poses.",(I,"robot6_sphericalwrist_invkin"))
p("Spherical-wrist solutions respect the joint limits",
 "Every joint vector returned by robot6_sphericalwrist_invkin is strictly inside the robot's joint limits, hence accepted by fwdkin.",
 "all robots with limits, poses, last_joints", "All limits and poses.",(I,"robot6_sphericalwrist_invkin"))
p("An unreachable pose gives an empty list",
 "robot6_sphericalwrist_invkin, ur_invkin and equivalent_configurations return an empty list, without raising, when there is no solution, with or without last_joints.",
 "all robots and all poses without solution", "The failing inputs are exactly those where no candidate survives; tests only use reachable poses.",(I,"robot6_sphericalwrist_invkin"),(I,"ur_invkin"),(I,"equivalent_configurations"))
p("Inverse kinematics does not change the robot",
 "After robot6_sphericalwrist_invkin returns or raises, fwdkin and robotjacobian of the same Robot object give the same results as before for every joint vector, and a second call gives the same answer as the first.",
 "all robots, poses, call histories of any length and later joint vectors", "Quantifies over call histories and over every later query.",(I,"robot6_sphericalwrist_invkin"))
p("Solutions are ordered by distance to last_joints",
 "With last_joints, the lists returned by robot6_sphericalwrist_invkin, ur_invkin and equivalent_configurations are sorted by Euclidean distance to last_joints, so the first entry is the closest of those returned.",
 "all robots, poses, last_joints and lists of any length", "Lists of any length, all real inputs.",(I,"robot6_sphericalwrist_invkin"),(I,"ur_invkin"),(I,"equivalent_configurations"))
p("UR inverse kinematics is sound",
 "Every joint vector returned by ur_invkin(robot, T) reproduces T under fwdkin up to the coincidence tolerance, for every UR-format robot, away from singularities.",
 "all UR robots, poses and solutions", "All geometries and poses.",(I,"ur_invkin"))
p("UR solutions respect the joint limits",
 "Every joint vector returned by ur_invkin is inside the robot's joint limits, hence accepted by fwdkin.",
 "all UR robots with limits, poses", "All limits and poses; the tests use limits of +-2*pi which hide the defect.",(I,"ur_invkin"))
p("equivalent_configurations returns only equivalent in-limit configurations",
 "For inputs inside the limits, every configuration returned by equivalent_configurations is inside the limits, differs from one of the inputs only by multiples of 2*pi on rotary joints (at least one nonzero), and gives the same fwdkin.",
 "all robots, all joint counts, all lists of configurations", "Unbounded turn counts, joint counts and list lengths.",(I,"equivalent_configurations"))
p("equivalent_configurations returns all of them",
 "Every in-limit configuration that differs from an input by multiples of 2*pi on rotary joints, other than the input itself, is returned, exactly once per input.",
 "all robots, joint counts, limits", "Combinatorial product over all joints and turn counts.",(I,"equivalent_configurations"))
p("equivalent_configurations returns only additional configurations",
 "No configuration given in theta_v appears in the returned list.",
 "all robots and lists of inputs", "Needs two mutually equivalent inputs; no test has one.",(I,"equivalent_configurations"))
p("A converged iterative_invkin solution reaches the pose",
 "If iterative_invkin reports converged=True, the returned joint vector reproduces the desired pose within tol.",
 "all robots, poses, seeds, gains and tolerances", "Requires every possible iteration history and every rotation error.",(I,"iterative_invkin"),(G,"R2rot"))
p("iterative_invkin always terminates with a solution near the seed",
 "iterative_invkin performs at most max_steps iterations, always returns one joint vector, whose rotary joints are within pi of the seed, and equal to the iterate up to multiples of 2*pi.",
 "all robots, seeds, step counts", "Unbounded step counts.",(I,"iterative_invkin"),(I,"normalize_joints.normalize"))
p("ROS vector, quaternion, twist and wrench messages round-trip",
 "msg2q/q2msg, msg2p/p2msg, point_msg2p/p2point_msg, msg2twist/twist2msg and msg2wrench/wrench2msg are mutually inverse, with angular/torque first in the vector and linear/force first in the message.",
 "all vectors and messages", "All values; a swapped component only shows when the two differ.",(M,"msg2q"),(M,"q2msg"),(M,"twist2msg"),(M,"wrench2msg"))
p("ROS transform and pose messages round-trip",
 "msg2transform inverts transform2msg, transform2transform_stamped_msg, transform2pose_msg and transform2pose_stamped_msg on rotation and position for every rigid transform; frame ids survive where the message has a field for them.",
 "all rigid transforms with any frame ids", REALS,(M,"msg2transform"),(M,"transform2msg"),(M,"transform2transform_stamped_msg"),(M,"transform2pose_stamped_msg"))
p("TF lookups are converted faithfully",
 "lookupTransform returns the rotation and translation reported by the ROS listener with target frame as parent and source frame as child, and forwards arguments unchanged.",
 "all listener answers and frames", "All listener states.",(TF,"TransformListener.lookupTransform"),(TF,"TransformListener.lookupTransformFull"))
p("The Robot Raconteur loader takes each joint's data from the chain's joint numbers",
 "load_robot_info_yaml_to_robot(f, c) gives joint i of chain c the type, limits and name of joint_info[joint_numbers[i]].",
 "all robot info documents, all chains", "All documents; every sample file has one chain numbered from 0.",(Y,"load_robot_info_yaml_to_robot"))
p("The Robot Raconteur loader rejects malformed documents",
 "The loader returns a Robot only if the chain exists, H and P have matching sizes, joint numbers are increasing and in range, every joint is revolute or prismatic with limits; a returned Robot always satisfies the Robot invariants; it never returns a partial Robot.",
 "all documents, including ill-typed ones", "All documents of any size and shape.",(Y,"load_robot_info_yaml_to_robot"),(Y,"_check_list"))
p("Loading a tool replaces exactly the tool",
 "load_robot_and_tool_info_yaml_to_robot equals the robot loader followed by replacing R_tool, p_tool and tip_link_name; fwdkin of the result is fwdkin of the bare robot composed with the tool TCP.",
 "all document pairs and all joint vectors", "All documents and configurations.",(Y,"load_robot_and_tool_info_yaml_to_robot"))
p("A loaded URDF robot moves like the URDF says",
 "For every serial chain with any number and placement of fixed, revolute and prismatic joints, fwdkin of the loaded robot equals the composition of the URDF joint origins and joint motions along the chain.",
 "all URDF chains of any length, all joint vectors", "Unbounded chain length and real-valued origins; tests compare H and P of one arm.",(U,"_robot_from_urdf_robot"))
p("URDF limits and names attach to the right joints",
 "joint_names lists the non-fixed joints in chain order; position limits are present iff every non-fixed joint has them and then are the joint's own; likewise velocity and effort limits; unsupported joint types raise.",
 "all URDF chains", "All chain lengths and combinations of missing limits.",(U,"_robot_from_urdf_robot"))
p("URDF chain selection is unambiguous",
 "With no tip_link given the loader succeeds only if exactly one leaf link is reachable from the root through a chain with some moving joint and no floating joint, and then that leaf is the tip; the chain returned runs root to tip.",
 "all URDF link trees", "All trees.",(U,"_robot_from_urdf_robot"))
p("URDF spatial inertia matrices are physical",
 "Each converted inertia is symmetric, its quadratic form is the kinetic energy of the link about its frame origin, it is positive semidefinite when the given inertia tensor is, and masses and kinetic energies add along the chain.",
 "all inertia parameters", REALS,(U,"_convert_inertial"),(U,"_append_inertia"))
p("The Tesseract scene graph has the robot's kinematics",
 "For rotary/prismatic robots with limits, the pose of the tip link in the scene graph built by robot_to_scene_graph under the world joint equals fwdkin(robot, theta).",
 "all robots of any joint count and any aux transforms, all joint vectors", "All joint counts, geometries and configurations.",(T,"robot_to_scene_graph"),(T,"get_robot_world_to_base_joint"),(T,"get_link_and_joint"))
p("Tesseract names are unique and consistently prefixed",
 "All link names in the scene graph are distinct, prefixing with the robot name is injective, the tip link is the last link name, and joint/link name lists returned match the graph.",
 "all robots and robot names", "All joint counts and names.",(T,"robot_to_scene_graph"),(T,"_prefix_names"),(T,"robot_to_tesseract_env_commands"))
p("Kinematics plugin info names the requested solver",
 "kinematics_plugin_info_dict uses the KDL LMA solver by default, the requested solver if it is one of the four supported, the override if given, raises otherwise, and the default solver is always one of the configured plugins with the configured base and tip links. kinematics_plugin_info_string and tesseract_kinematics_information carry the same configuration as text.",
 "all solver names and link names", "All strings.",(T,"kinematics_plugin_info_dict"),(T,"kinematics_plugin_info_string"),(T,"tesseract_kinematics_information"),(T,"kinematics_plugin_invkin_kdl_plugin_info_dict"))
p("OPW parameters describe the same robot",
 "When robot_to_opw_inv_kin_parameters succeeds, OPW forward kinematics with the returned parameters, offsets and sign corrections equals the robot's own fwdkin up to rounding.",
 "all robots accepted by the function and all joint vectors", "All geometries and poses.",(T,"robot_to_opw_inv_kin_parameters"))
p("UR parameters describe the same robot",
 "When robot_to_ur_inv_kin_parameters succeeds, UR Denavit-Hartenberg forward kinematics with the returned parameters equals the robot's own fwdkin; it accepts both the factory (-x) and the URDF (+x) axis conventions accepted by ur_invkin.",
 "all robots accepted by the function and all joint vectors", "All geometries and poses.",(T,"robot_to_ur_inv_kin_parameters"),(I,"ur_invkin"))
p("The Tesseract Jacobian is reordered correctly",
 "TesseractRobot.jacobian puts the angular rows first, for any number of columns, losing nothing; applied to a KDL-ordered Jacobian of fwdkin it equals robotjacobian.",
 "all Jacobians of any width", "All matrices.",(T,"TesseractRobot.jacobian"))
p("Isometry conversion round-trips",
 "isometry3d_to_transform(transform_to_isometry3d(T)) = T for every rigid T.",
 "all rigid transforms", REALS,(T,"transform_to_isometry3d"),(T,"isometry3d_to_transform"))
p("URDF inertias survive loading",
 "When every link moved by a joint has mass, the robot loaded from the URDF has one inertia matrix per moving joint.",
 "all URDF documents, root and tip links", "All chains and all placements of massless frames.",(U,"_robot_from_urdf_robot"),(U,"_convert_inertial"))
p("UR inverse kinematics is complete",
 "If a joint vector inside the limits reproduces T and is not singular then ur_invkin(robot, T) returns a joint vector equal to it up to multiples of 2*pi; an empty list means the pose is unreachable.",
 "all UR robots and all reachable poses", "All geometries and all poses.",(I,"ur_invkin"))
p("TesseractRobot answers questions about the original robot",
 "For every link of the environment TesseractRobot.fwdkin returns its pose relative to any other link and raises KeyError for other names; the problem that TesseractRobot.invkin gives to the solver is solved exactly by the joint vectors at which fwdkin(robot, theta) is the requested pose; TesseractRobot.jacobian equals robotjacobian when the library's Jacobian is correct.",
 "all convertible robots, poses, joint vectors and link names", "All robots and all link pairs.",(T,"TesseractRobot.fwdkin"),(T,"TesseractRobot.invkin"),(T,"TesseractRobot.jacobian"))
p("Forward kinematics is accurate in floating-point arithmetic",
 "In IEEE double precision fwdkin(robot, theta) raises nothing, cannot overflow and returns a pose whose orientation is within a few hundred rounding units per joint of the exact orientation and whose position is within a few hundred rounding units per joint of the exact position, relative to the reach of the robot, also when the robot's data and the joint values are stored with rounding errors; the orientation is a rotation up to the same error.",
 "all chains of any length, joint types, poses and rounding modes", "Worst case over all rounding errors; a test sees one of them.",(G,"fwdkin"),(G,"rot"))
p("R2q and q2R are accurate in floating-point arithmetic",
 "For a matrix within eps of a rotation R (eps at least the rounding unit) R2q raises nothing and returns finite numbers within a fixed multiple of eps of a unit quaternion of R, in every branch; q2R of a quaternion within eps of a unit quaternion is within a fixed multiple of eps of its rotation.",
 "all matrices near rotations and all quaternions near unit ones, all rounding modes", "The branch conditions are evaluated with rounding errors; the worst inputs lie on the branch boundaries.",(G,"R2q"),(G,"q2R"))
p("Axis-angle conversions and slerp tolerate rounding errors",
 "For unit quaternions and rotation matrices known up to rounding errors q2rot, R2rot and slerp return finite values near the ones of the exact input.",
 "all inputs within rounding errors of valid ones", "NaN appears only when a rounding error happens to leave the domain of arccos or sqrt.",(G,"q2rot"),(G,"R2rot"),(G,"slerp"))
p("The Robot Raconteur loader takes frames and link names from the document",
 "In a loaded robot T_flange is the pose under flange_pose, T_base the pose under device_info.device_origin_pose, the tool transform the tcp of current_tool, the root link the first of link_identifiers and the tip link the device of the current tool, or the flange when there is no such tool; entries that are missing or null give no transform and no name.",
 "all documents, chains and optional entries present, null or missing", "All combinations of present, null and missing entries in all documents.",(Y,"load_robot_info_yaml_to_robot"),(Y,"_to_transform"))
p("random_R draws from all rotations",
 "For every outcome of the random generator random_R returns a rotation matrix and random_transform a rigid transform with position in the unit cube; every rotation, up to any tolerance, can be drawn.",
 "all outcomes of np.random.rand and all rotations", "A test draws a few samples; coverage of the rotation group and the exceptional draws are statements about all of them.",(G,"random_R"),(G,"random_p"),(G,"random_transform"))
p("Asked for the pose the arm is in, inverse kinematics answers with the joints it has",
 "For every joint vector theta strictly inside the limits, robot6_sphericalwrist_invkin(robot, fwdkin(robot, theta), theta) and ur_invkin(robot, fwdkin(robot, theta), theta) return theta as the first solution, without added turns.",
 "all arms of the two geometries, limits and joint vectors inside them", "All poses, turn counts and pruning decisions.",(I,"robot6_sphericalwrist_invkin"),(I,"ur_invkin"),(I,"normalize_joints.__call__"))
p("The Jacobian is accurate in floating-point arithmetic",
 "For every robot stored with rounding errors (a mobile group being closed by a turning joint) and every joint vector, robotjacobian computed in floating-point arithmetic has the same number of columns as the exact Jacobian, is finite, and each column differs from the exact one by at most a constant times the number of joints times the unit of rounding (times the reach of the robot for the translation part of columns of turning joints).",
 "all robots, joint vectors, chain lengths, rounding modes and libraries of sine and cosine", "The error bound is over all inputs, chain lengths and rounding behaviours; tests compare a few Jacobians with a tolerance.",(G,"robotjacobian"),(G,"rot"),(G,"hat"))
p("The laws of Transform hold up to == in floating-point arithmetic",
 "In double precision, for rigid transforms with rounded entries: (A*B)*C == A*(B*C); A*A.inv() and A.inv()*A == identity; A.inv().inv() == A; (A*B).inv() == B.inv()*A.inv(); unapply_robot_aux_transforms undoes apply_robot_aux_transforms up to ==; two transforms computed within 4.5e-9 of the same rigid transform compare equal.",
 "all rigid transforms, roundings and robots", "== uses a fixed absolute tolerance while rounding errors grow with the distance from the origin; only a bound over all inputs shows where the laws stop.",(G,"Transform.__eq__"),(G,"Transform.__mul__"),(G,"Transform.inv"),(G,"apply_robot_aux_transforms"),(G,"unapply_robot_aux_transforms"))
p("iterative_invkin converges from every seed near a regular solution",
 "Let the joint vector qs solve the pose and let the Jacobian at qs have full row rank, with no singular value cut off by np.linalg.pinv, and let the gains be kp*I and kR*I with 0 < kp < 2 and 0 < kR < 4.  There is a neighbourhood of qs, independent of the tolerance, such that for every tolerance there is a number of steps with which iterative_invkin converges from every seed in the neighbourhood, to joints that reach the pose and are as near to qs as desired.  Without the rank condition this fails: a stretched arm asked to move inwards returns its seed, however near the target.",
 "all robots with rotary and prismatic joints, regular solutions, gains in the range, tolerances and seeds near the solution", "Convergence from all seeds in a neighbourhood, for all tolerances and robots, is a statement about infinitely many runs of unbounded length.",(I,"iterative_invkin"),(G,"robotjacobian"),(G,"R2rot"))
p("Inverse kinematics called with nearby joints stays on its branch",
 "Called for the pose of a joint vector theta with last joints nearer to theta than the sines of the angles that vanish at the shoulder, elbow and wrist singularities, robot6_sphericalwrist_invkin and ur_invkin return theta first, without jumping to another branch or turn.  So a client that follows the poses of a path and hands each first solution to the next call gets the joint vectors of the path, and along every continuous path away from singularities there is a step width that is small enough for this.",
 "all arms of the two geometries, joint paths of any length, continuous paths and samplings of them", "The claim is about all paths, of any length, and about the distance between all pairs of solution branches.",(I,"robot6_sphericalwrist_invkin"),(I,"ur_invkin"),(I,"normalize_joints.__call__"))
p("Roll-pitch-yaw conversions are accurate in floating-point arithmetic",
 "rpy2R of angles known up to d (and whole turns) is within a fixed multiple of d plus the rounding unit of the exact matrix.  R2rpy of a matrix within eps of a rotation whose pitch has cosine c (eps at most a fixed fraction of c) does not raise, returns finite angles, the pitch with an error of the order of eps, roll and yaw with an error of the order of eps/c, and rpy2R of them is near the rotation.  The stronger reading, that the angles reproduce the matrix up to its own error whenever R2rpy does not raise, is part of the claim.",
 "all rotations, perturbed inputs, rounding modes and elementary functions with the assumed accuracy", "The worst inputs lie next to gimbal lock, at distances from it that depend on the rounding error.",(G,"rpy2R"),(G,"R2rpy"))
p("The rotation subproblem tolerates rounding errors",
 "For a unit axis k, a point p at distance s from it and the point q to which the rotation by theta about k takes p, all known up to eps, subproblem1(p, q, k) computed in floating-point arithmetic does not raise and returns theta, up to whole turns, with an error of the order of eps/s, or of the square root of the machine epsilon divided by s when it returns 0 early.",
 "all axes, points, angles, perturbed inputs, rounding modes and elementary functions with the assumed accuracy", "The check inside subproblem0 compares a rounded inner product with one unit in the last place; whether it passes depends on the last bits of the input.",(G,"subproblem0"),(G,"subproblem1"))
p("The displacement subproblem tolerates rounding errors",
 "For a unit axis k, points p and q near the origin, a displacement d = p . rot(k, theta) q, all known up to eps, and m the rate at which the displacement changes with the angle at theta, subproblem4(p, q, k, d) computed in floating-point arithmetic returns two angles: theta and the second solution, up to whole turns, with errors of the order of eps/m.",
 "all axes, points, angles, perturbed inputs, rounding modes and elementary functions with the assumed accuracy", "Near the largest and the smallest displacement the number of solutions depends on the last bits of the input.",(G,"subproblem4"))
p("Nearby joint values give nearby poses",
 "For all joint vectors theta and phi of the same robot, fwdkin(robot, phi) and fwdkin(robot, theta) move every vector v to places at most A |v| apart, where A is the total difference of the turning joints, and their positions differ by at most A times the length of the arm plus the total difference of the sliding joints; the factor cannot be improved. The position is never further from the origin than the sum of the lengths of links, displacements, flange, tool and base.",
 "all robots with unit axes and rigid tool, flange and base; all pairs of joint vectors", "A global bound over pairs of joint vectors and chains of any length.",(G,"fwdkin"))
p("A convergence reported by iterative_invkin is right in floating-point arithmetic",
 "Computed with rounding errors, on a robot and a pose stored with rounding errors, whenever iterative_invkin reports convergence it returns one joint vector, and the exact forward kinematics of it is within the tolerance of the exact pose up to a bound in units of rounding, whatever pinv, the gains and the seed are (also when an iterate overflows). Started at a joint vector that solves the pose within the tolerance it reports convergence at once.",
 "all robots, poses, seeds, gains, pseudo-inverses, tolerances, numbers of steps, rounding modes and elementary functions with the assumed accuracy", "NaN, overflow and the rounding errors of every operation before the test would all have to be met by luck.",(I,"iterative_invkin"))
p("Products of quaternions drift linearly in floating-point arithmetic",
 "The product of n unit quaternions, computed with quatproduct from stored factors with every operation rounded, is within 115 n u of the exact Hamilton product, and q2R of it within 26000 n u of the product of the rotations; rot2q, quatcomplement and quatjacobian are within a fixed multiple of the error of their arguments.",
 "all sequences of unit quaternions of any length, all rounding modes, all elementary functions with the assumed accuracy", "Accumulated error over arbitrarily long products.",(G,"quatproduct"),(G,"rot2q"),(G,"quatcomplement"),(G,"quatjacobian"),(G,"q2R"))
p("The Jacobian predicts finite motions up to second order",
 "For all joint vectors theta and phi, with A the total difference of the turning joints and B that of the sliding joints, the change of orientation from fwdkin(robot, theta) to fwdkin(robot, phi) is the one that robotjacobian(robot, theta) predicts for phi - theta up to A^2/2, and the change of position up to A^2/2 times the length of the arm plus A B; so a step that solves the linearised equation leaves a position error of second order. The Jacobian itself is Lipschitz: from theta to phi the angular part of a column changes by at most A and the linear part by at most A max(1, arm) + B.",
 "all robots with rotary and prismatic joints, unit axes and rigid tool, flange and base; all pairs of joint vectors", "A bound on the remainder for motions of any size and chains of any length; a derivative at sampled points says nothing about it.",(G,"fwdkin"),(G,"robotjacobian"))
p("Robots with nearly the same geometry have nearly the same poses",
 "Two robots with the same joint types at the same joint values have orientations that differ by at most the sum E of the differences of the unit axes of the turning joints, each times 2 |sin(x/2)| for the joint angle x, plus the differences of the orientations of flange, tool and base; the positions differ by at most E times the length of the arm, plus the total difference of the link vectors, of the sliding axes times the displacements, and of flange, tool and base.",
 "all pairs of robots with the same joint types, all joint vectors", "A bound for all calibration errors and chains of any length.",(G,"fwdkin"))
p("A condition on the seed alone under which iterative_invkin converges",
 "Let V be the sine of half the angle between the orientation at the seed and the desired one plus the distance of the positions, s0 a lower bound of the singular values of robotjacobian(robot, seed), and Kp, KR scalar gains. If V is small against s0, the gains, the number of joints and the length of the arm (an explicit inequality that involves the seed only), then iterative_invkin reports convergence within an explicit number of steps, the joint vector returned reaches the pose, and it differs from the seed by at most an explicit multiple of V in total. No solution is assumed: under the same kind of condition an exact solution exists near the seed. Between joint vectors that differ by D in total the singular values of the Jacobian decrease by at most sqrt(n) (1 + arm) D.",
 "all robots with rotary and prismatic joints, all poses, seeds and tolerances that meet the inequality", "A guarantee before the iteration is run, for a continuum of poses around each seed; runs that converge say nothing about the poses in between.",(I,"iterative_invkin"),(G,"fwdkin"),(G,"robotjacobian"))
p("The distance subproblem with rounding",
 "Let theta solve |q + rot(k,theta) p| = d, with p, q at most 2 from the origin and known up to a few units of rounding, and d known up to f. If half the squared distance changes with the angle at a rate of at least m and m^2 is large compared with the errors, subproblem3 computed with rounding returns two angles one of which is within beta + (7.7 f + 3200000 u)/m of theta up to whole turns, where beta is at most 2^-25 (the early return of subproblem1). In particular every reachable distance is solved.",
 "all axes, points, distances and angles with the stated bounds, every floating-point system with accurate inverse functions", "The error has to be bounded over a continuum of inputs, and the failures at the extreme distances depend on the last bit.",(G,"subproblem3"),(G,"subproblem1"))
p("The two-axis subproblem with rounding",
 "Let rot(k1,theta1) rot(k2,theta2) p = q for perpendicular unit axes and unit vectors, p and the axes known up to rounding and q known up to e. If the intermediate point rot(k2,theta2) p is at a height of at least gamma over the plane of the axes and gamma^2 is large compared with the errors, subproblem2 computed with rounding returns two pairs one of which is within (beta + (14 e + 710000 u)/gamma)/gamma of theta1, theta2 up to whole turns, beta being at most 2^-25. In particular every reachable point is solved.",
 "all pairs of perpendicular axes, all points and angles with the stated bounds, every floating-point system with accurate inverse functions", "The error has to be bounded over a continuum of inputs and configurations; near the tangent case the outcome depends on the last bit.",(G,"subproblem2"),(G,"subproblem1"))
p("The spherical wrist solver with rounding",
 "Let an arm with spherical wrist (six rotary joints, joints 2 and 3 along the y axis, consecutive wrist axes perpendicular, offsets 4 and 5 along the axes of joints 4 and 6) be stored with rounding, and let joint values q1 ... q6 reach a pose that is passed with an error of at most eps. If everything the solver divides by is at least m for these joint values (how far joint 1 moves the wrist centre along y, how far joint 3 changes its distance from the shoulder, its distance from the axis of joint 2, the sine of joint 5), robot6_sphericalwrist_invkin computed with rounding returns a list containing six angles that are within delta = 960 beta/m^3 + (1.1e6 eps + 3.5e9 u) L/m^5 of q1 ... q6 up to whole turns, beta being at most 2^-25 and L a bound of the lengths involved.",
 "all arms of this geometry with any base, flange and tool, all joint values with the stated margins, every floating-point system with accurate inverse functions", "The error has to be bounded over a continuum of arms and configurations, through seven subproblems each of which gets the errors of the ones before.",(I,"robot6_sphericalwrist_invkin"),(G,"subproblem1"),(G,"subproblem2"),(G,"subproblem3"),(G,"subproblem4"))
p("The UR solver with rounding",
 "Let an arm have the axes ur_invkin asks for (z, +-y three times, -z, +-y with one sign), stored exactly, offsets stored with rounding, of total length at most 1.9 up to the wrist and 1 beyond, offset 5 along the last axis, and no joint limits. Let a pose that the arm reaches be passed with an error of at most eps. If every solution has a bent elbow and a wrist away from the axis of joint 2 by m, and for every angle of the first joint and of the three parallel joints that fits the pose the shoulder offset, the sine of joint 5 and the distance to the border of the reach of the elbow are at least m, then ur_invkin computed with rounding returns a list, every row of which is within delta = 160 * 2^-25/m^3 + (2e5 eps + 6.1e8 u) L/m^5 of joint values that reach the pose exactly, up to whole turns, and every joint values that reach the pose are within delta of a row.",
 "all arms of this geometry with any base, flange and tool, all poses with the stated margins, every floating-point system with accurate inverse functions and a rounding that keeps representable numbers and signs", "The error has to be bounded over a continuum of arms and poses, and that rows and solutions correspond both ways, through six subproblems each of which gets the errors of the ones before.",(I,"ur_invkin"),(G,"subproblem1"),(G,"subproblem2"),(G,"subproblem3"),(G,"subproblem4"))
p("The determinant of the Jacobian of arms with an analytic solver",
 "For an arm with a spherical wrist, with any base, flange and tool, the absolute value of the determinant of robotjacobian is the product of three numbers: how far joint 1 moves the wrist centre along y, how far joint 3 changes its distance from the shoulder, and the sine of the angle between the fourth and the sixth axis; so it vanishes exactly when one of them does. For an arm with the axes ur_invkin asks for it is the product of how far joint 1 moves the meeting point of the last two axes along y, how far joint 3 changes the distance between joints 2 and 4, and the sine of joint 5. If the offsets add up to at most 1.9 up to the wrist, a determinant of at least 4m keeps the arm at least m away from every degenerate configuration of the solver; so if the determinant is at least 4m at all joint vectors that reach a pose, the solvers with rounding return all of them and nothing else, up to the errors of C83 and C84 and with the other hypotheses made there.",
 "all arms of these geometries, all joint vectors", "An identity between polynomials in sines and cosines for a continuum of arms; sampled configurations cannot show that there are no further singularities.",(G,"robotjacobian"),(I,"robot6_sphericalwrist_invkin"),(I,"ur_invkin"))
p("The spherical wrist solver with joint limits and last joint values, with rounding",
 "robot6_sphericalwrist_invkin computed in floating point, for a robot with or without joint limits: the call returns; every row has six entries strictly inside the limits and is near a joint vector that reaches the pose; and every joint vector that reaches the pose and is inside the limits is near a row, up to whole turns. If last_joints is near a joint vector that reaches the pose and is inside the limits, a row is near it without added turns, and the first row is within the error of a joint vector that reaches the pose and is close to it.",
 "all arms of this geometry, poses, joint limits and last joint values, and all floating-point arithmetics with correct rounding of integers and symmetric, idempotent rounding", "Whether a candidate survives the limits, the choice of the number of turns, and the pruning by distance depends on comparisons between rounded numbers; a test sees a few of them.",(I,"normalize_joints"),(I,"robot6_sphericalwrist_invkin"))
p("The UR solver with joint limits and last joint values, with rounding",
 "ur_invkin computed in floating point, for a robot with or without joint limits: the call returns; every row has six entries, strictly inside the limits but for the fifth, and is near a joint vector that reaches the pose; and every joint vector that reaches the pose and is inside the limits is near a row, up to whole turns. If last_joints is near a joint vector that reaches the pose and is inside the limits, a row is near it without added turns, and the first row is within the error of a joint vector that reaches the pose and is close to it.",
 "all arms of this geometry, poses, joint limits and last joint values, and all floating-point arithmetics with correct rounding of integers and symmetric, idempotent rounding", "Whether a candidate survives the limits, the choice of the number of turns, and the pruning by distance depends on comparisons between rounded numbers; the fourth joint is a difference of angles that were already moved by turns.",(I,"normalize_joints"),(I,"ur_invkin"))
p("Well-formed Robot Raconteur documents load; others raise a definite exception",
 "load_robot_info_yaml_to_robot accepts every well-formed document (chain number in range, joint numbers increasing and in range, axes of unit length and one more link vector than axes, known joint types with limits, names and poses where the format has them) and returns the robot the document describes, entry by entry. For a document that is not a mapping, lacks chains, or whose first fault is in the chains, the joint numbers, the counts, the vectors or the joints, the exception is TypeError, KeyError, ValueError or IndexError as stated per fault.",
 "all documents, chain numbers and parsers of number strings", "The set of documents is infinite and the loader reads it in an order that decides which of several faults is reported; tests load a handful of good files.",(Y,"load_robot_info_yaml_to_robot"))
p("The analytic solvers list at most eight joint vectors, none twice",
 "robot6_sphericalwrist_invkin and ur_invkin list at most eight joint vectors, each with six entries, and no two of them differ by whole turns only. (The second half is false at the end of the lateral reach of the shoulder, where every joint vector is listed twice.)",
 "all robots, poses, limits and last joint values; the bound also in floating point", "Whether a list can hold the same solution twice depends on the measure-zero boundary of the reach; tests count the solutions of a few regular poses.",(I,"robot6_sphericalwrist_invkin"),(I,"ur_invkin"),(G,"subproblem4"))
p("Robots of the toolbox's own loaders can be converted to Tesseract",
 "A robot returned by the URDF or the Robot Raconteur loader is converted to a Tesseract scene graph, and for any robot that cannot be converted the exception is determined: IndexError without joints, TypeError without one of the limits, AssertionError otherwise. (The first half is false: no robot from a URDF file can be converted, because it has no acceleration limits, and no robot from a document with two unnamed joints.)",
 "all URDF files, documents and robots that the constructor accepts", "That a conversion fails for every file of a format is a statement about all files; a test of the converter builds its robot by hand, with all limits.",(T,"robot_to_scene_graph"),(U,"_robot_from_urdf_robot"),(Y,"load_robot_info_yaml_to_robot"))
p("Which URDF files load, and what is raised for the others",
 "Every valid URDF file whose links form a tree with one valid tip loads, and for the others the exception is determined by the file: AssertionError for a missing or ambiguous root or tip, a joint of another type or an axis that is not of unit length, KeyError for a given tip that cannot be reached, ValueError for a moving joint without axis. The loader always returns. (False in three ways: a moving joint may leave out its axis by the format but ValueError is raised; continuous joints are refused; on a file with a cycle away from the root the loader never returns. For files whose joints form a forest the classification is proved to be complete and exact.)",
 "all URDF files, roots and tips", "The set of accepted files is infinite, and a test of the loader checks a few files; that some run never ends cannot be observed at all.",(U,"_robot_from_urdf_robot"))
p("Joint values computed for a URDF file put its tip link where asked",
 "If a robot is loaded from a URDF file and one of the analytic solvers returns joint values for a pose, then the joints of the file, moved by these values, carry the tip link to that pose (away from the wrist singularity, within the coincidence tolerance), and the values are inside the limits written in the file; all of it for every chain of the file whose axes and joint places at zero have the geometry of the solver, whatever fixed joints and frame rotations it contains. (For the UR solver the fifth joint is excepted from the limits, see C36.)",
 "all URDF files, poses, last_joints and returned solutions", "It ties two modules together over all files; the tests of the URDF loader never call inverse kinematics and the tests of inverse kinematics build their robots by hand.",(U,"_robot_from_urdf_robot"),(I,"robot6_sphericalwrist_invkin"),(I,"ur_invkin"))
p("Transforms sent on through messages",
 "A transform sent as a message of any of the four kinds and read back, in floating-point arithmetic, compares equal to what was sent, with the very same position; and sent on any number of times it drifts away at most linearly in the number of messages. (The second half is false for rotations by more than 90 and less than 120 degrees: rounding errors are multiplied by a factor of up to three at each message, until the rotation has turned into another one. Proved for one message, and for any number of messages and angles below 90 or above 120 degrees.)",
 "all rotations with rounding errors, positions, message kinds, sequences of messages", "A round trip is tested once; that the error of the next one multiplies shows after dozens of round trips, and only for some angles.",(M,"transform2msg"),(M,"msg2transform"),(G,"R2q"),(G,"q2R"))
p("Tools and bases change the Jacobian as a rigid body does",
 "Two robots that differ in flange and tool only have Jacobians whose columns differ by screw_matrix of the displacement between the two tool positions fwdkin returns, transposed; the same wrench needs the same joint torques, whichever of the two tools it is referred to; and the Jacobian in the coordinates of the tool does not depend on the base. If one of the calls raises, the other raises the same exception.",
 "all robots of all joint types, flanges, tools, bases and joint values", "Tests compare a Jacobian with finite differences or a stored matrix for one tool; that two Jacobians are consistent for every tool and joint vector is a relation between runs.",(G,"robotjacobian"),(G,"screw_matrix"),(G,"fwdkin"))
p("Inverse kinematics does not depend on base, flange and tool",
 "For the pose of the tool of a robot with base, flange and tool, the analytic solvers return the list, or raise the exception, they do for the bare robot and the pose of its end; and iterative_invkin passes through the same joint vectors and returns the same for a robot on a base and the pose moved along with the base.",
 "all robots, bases, flanges, tools, poses, last joint values, gains, tolerances, numbers of steps", "A relation between two runs, over all robots and poses; for the iterative solver an invariant of the loop.",(I,"robot6_sphericalwrist_invkin"),(I,"ur_invkin"),(I,"iterative_invkin"),(G,"unapply_robot_aux_transforms"))
p("The analytic solvers and equivalent_configurations together list all joint vectors",
 "The list an analytic solver returns for a pose, and what equivalent_configurations returns for this list, together contain every joint vector inside the joint limits that reaches the pose, and no joint vector outside the limits or reaching another pose.",
 "all arms of the two geometries, limits, poses, joint vectors", "Completeness over all joint vectors; the solvers alone return one vector per class of whole turns.",(I,"robot6_sphericalwrist_invkin"),(I,"ur_invkin"),(I,"equivalent_configurations"))
p("The unit of length does not matter",
 "If all lengths of a robot, a pose and the values of sliding joints are multiplied by the same positive number, fwdkin returns the pose multiplied by it, robotjacobian the Jacobian with the velocities per angle multiplied by it, and the subproblems and the analytic solvers return the same angles; each call raises if and only if it did before.",
 "all robots, units, poses, joint values, limits, last joint values", "A relation between two runs over all robots and units; tests fix one unit.",(G,"fwdkin"),(G,"robotjacobian"),(G,"subproblem1"),(G,"subproblem3"),(G,"subproblem4"),(I,"robot6_sphericalwrist_invkin"),(I,"ur_invkin"))
p("Which robots the analytic tesseract solvers accept",
 "robot_to_opw_inv_kin_parameters returns parameters exactly for six-joint robots with the documented flange frame, axes along the documented coordinate axes, a vertical first link and a straight forearm and wrist, each within numpy's tolerances; robot_to_ur_inv_kin_parameters likewise for the documented frames, axes and link directions. All other robots are rejected with AssertionError. A plugin override given as a string is never accepted.",
 "all robots, names, override strings", "Acceptance and rejection of every robot; tests check single robots.",(T,"robot_to_opw_inv_kin_parameters"),(T,"robot_to_ur_inv_kin_parameters"),(T,"kinematics_plugin_info_dict"))
p("Small errors of the geometry give small errors of the pose",
 "If the axes, rotations, links and translations of a robot are changed by small amounts (the new axes need not be of unit length), the pose returned by fwdkin for the same joint values changes by a bounded amount, with an explicit bound in terms of the number of joints, the size of the robot and the errors; the call succeeds for the new robot if it does for the old.",
 "all robots with well-formed geometry, all changes, joint types, joint values", "A relation between two runs over all robots and all perturbations.",(G,"fwdkin"))
p("Where a robot description is read from does not matter",
 "robot_from_xml_file, robot_from_xacro_file and robot_from_parameter_server give the robot, or the exception, that robot_from_xml_string gives for the text (or document) found there. With a package the file is looked up in that package: its path goes through the directory of the package and then through the file name. A robot is returned only if the file was found, read and parsed.",
 "all file systems, package indexes, xacro and parser behaviours, file names, packages, links", "Quantifies over the contents of the file system and over what external parsers do.",(U,"robot_from_xml_file"),(U,"robot_from_xacro_file"),(U,"robot_from_parameter_server"),(U,"_resolve_file"))
p("Wrapping an existing environment, and redundant solutions",
 "A TesseractRobot must be given a robot or an environment and not both (AssertionError). One built on the environment of another with the same robot name has the same base and tip link. Every redundant solution it returns for a joint vector has the same end pose and is within the joint limits if the given vector is.",
 "all robots, names, solvers, environments with such a group, joint vectors", "Needs the tesseract libraries, and a relation between joint vectors over all robots.",(T,"TesseractRobot"),(T,"redundant_solutions"))
p("Objects that share arrays do not disturb each other",
 "After any sequence of calls of robot6_sphericalwrist_invkin on robots that may have been built from the same matrix P, fwdkin and robotjacobian of each robot give what they gave before, and every call answers what a robot with its own matrix would. A Transform keeps its value when the arrays it was built from are changed.",
 "all sets of robots, sharing of arrays, call histories of any length, poses and joint vectors", "A statement about aliasing over all call histories; a test sees one.",(G,"Robot"),(G,"Transform"),(I,"robot6_sphericalwrist_invkin"))
p("Arrays of integers give the same results as arrays of floats",
 "equivalent_configurations and robot_to_opw_inv_kin_parameters give for joint vectors, or matrices H and P, stored in arrays of integers the same result as for the same numbers stored as floats; in particular every returned configuration is a whole number of turns away from the given one.",
 "all robots with limits, all integer joint vectors; all six-joint robots with integer axes and links", "The type of an array is an input no test varies; that no returned vector is right, for all inputs, rests on the irrationality of pi.",(I,"equivalent_configurations"),(T,"robot_to_opw_inv_kin_parameters"))
p("A URDF robot loaded and moved with rounding moves as the file says",
  "If the numbers of a URDF file are read with errors (lengths relative, angles and axis vectors absolute) and the robot is assembled and moved in floating-point arithmetic, the file still loads whenever the exact file loads, with the same joint types, joint names, root and tip, and forward kinematics of the loaded robot gives the pose that the origins, axes and joint values of the exact file describe, up to a bound proportional to the reading error, the number of joints of the chain and the number of moving joints. In particular the unit-axis check of the constructor does not refuse a file because of rounding, and the tool frame is kept.",
  "all floating-point systems, files with distinct joint names and unit axes, chains of any length with any fixed joints in between, joint values",
  "errors accumulate along the chain in the rotation that turns every later axis and link; tests compare a few files with stored results and a tolerance",
  (U,"_robot_from_urdf_robot"),(U,"_rpy_to_rot"),(G,"fwdkin"))
p("The toolbox warns exactly when there is no solution",
  "subproblem1, subproblem2, subproblem3 and subproblem4 call warnings.warn exactly if no angle solves the equation they were given, and robot6_sphericalwrist_invkin and ur_invkin warn exactly if no joint vector reaches the pose: no warning is issued while a solution is returned, and no empty list or wrong angle is returned in silence. Warnings change neither results nor exceptions.",
  "all vectors, unit axes and distances; all arms with spherical wrist and UR arms with any base, flange, tool, limits and last joint values, all poses",
  "No test looks at the warnings; whether each of four messages means what it says concerns all inputs and, in the solvers, every subproblem called on the way.",
  (G,"subproblem1"),(G,"subproblem2"),(G,"subproblem3"),(G,"subproblem4"),(I,"robot6_sphericalwrist_invkin"),(I,"ur_invkin"))
p("The printed form of a transform tells which transform it is",
  "str(T) and repr(T) of two transforms agree exactly if numpy prints their rotations alike, prints their positions alike, and the parent and child frame ids are the same, a missing id being different from an empty one. A != B is the negation of A == B.",
  "all transforms, frame ids and texts of the arrays", "Whether two different transforms can print alike concerns all pairs of ids; the tests print nothing.",
  (G,"Transform.__str__"),(G,"Transform.__repr__"),(G,"Transform.__neq__"))
p("Loading a Robot Raconteur robot and moving it in floating point stays near the exact pose",
  "If every number of a robot info document is read with relative error eps, then load_robot_info_yaml_to_robot and load_robot_and_tool_info_yaml_to_robot load the document in floating point whenever they load it exactly, the robot has the same joint types and names, and fwdkin at the rounded joint values returns a pose within 63000 (n+3) eps of the exact orientation and within 81000 (n+3) eps times the reach of the exact position.",
  "all documents with unit quaternions, unit axes, integer joint numbers and no null coordinate, all numbers of joints n with 1e8 (n+3) eps at most 1, all joint values, all roundings",
  "The errors of parsing, of converting quaternions and of the chain product add up over any number of joints and all documents; a test compares one document to printed digits.",
  (Y,"load_robot_info_yaml_to_robot"),(Y,"load_robot_and_tool_info_yaml_to_robot"),(G,"fwdkin"))
p("equivalent_configurations in floating point lists the whole turns inside the limits",
  "In floating point, for inputs inside finite joint limits, equivalent_configurations returns. Each returned row is inside the joint limits, so that fwdkin accepts it, and is one or more whole turns of revolute joints away from its input up to rounding. Each configuration that many turns away and inside the limits by more than the rounding error is returned, and for each input no row is returned twice. With last_joints the same rows are returned in another order.",
  "all robots with finite limits, all lists of joint vectors inside the limits, sizes up to 900 rad, all roundings that keep small integers",
  "The number of turns is a floor of a rounded quotient, and inputs near a whole number of turns from a limit are not met by chance.",
  (I,"equivalent_configurations"))
p("Random rotations and transforms in floating point are rotations up to rounding",
  "In binary64, random_R returns finite entries within 5550 rounding units of an exact rotation matrix, the one of the normalised draw, for all draws of the generator; random_transform has such a rotation, the drawn position, and no frame names.",
  "all draws of np.random.rand (multiples of 2^-53), all other floating-point systems if squares of the draw do not underflow",
  "The generator has 2^212 draws; the test looks at a few.",
  (G,"random_R"),(G,"random_p"),(G,"random_transform"))
p("The inertia of URDF links in floating point is the exact one up to rounding",
  "For an inertial element whose numbers were read with an error of one rounding unit, mass from two milligrams on, centre of mass within L of the link frame and tensor entries up to K, _convert_inertial in floating-point arithmetic returns a matrix whose entries are finite and within 19000 u (K + m L^2), 5 u m L and 4 u m of the exact spatial inertia in its blocks; so twice the kinetic energy that follows from it is exact up to u (57000 (K + m L^2)|w|^2 + 30 m L |w||v| + 12 m |v|^2). Masses up to half a milligram, and missing ones, are left out.",
  "all inertial elements, all rounding modes, all sizes without overflow and underflow",
  "A test compares a few links with a tolerance somebody chose; it cannot show that no tensor, rotation or offset loses more digits.",
  (U,"_convert_inertial"))
p("Inertia matrices of URDF robots belong to their bodies",
  "The matrices M of a robot loaded from URDF are one for each body (links joined by fixed joints), and the quadratic form of each is twice the kinetic energy of its body in the frame in which fwdkin moves it: at the joint, parallel to the root frame at zero.",
  "all URDF files, chains of any length, all twists",
  "A test sees single matrices; that they fit the joint data of the same robot takes the kinetic energy of all twists of all bodies.",
  (U,"_robot_from_urdf_robot"),(U,"_convert_inertial"),(U,"_append_inertia"))
p("Several robots in one Tesseract environment",
  "Robots without joint names of their own, added one after another with robot_to_tesseract_env_commands(include_world=False) under names that do not start with world, fit into one environment exactly if each can be converted and no name occurs twice. In every environment built this way the tip of each robot is where fwdkin of this robot alone puts it, moving one robot moves no link of another, and TesseractRobot on the shared environment answers fwdkin for the robot of its name.",
  "all numbers of robots, all robots, names, joint positions", "Any number of robots with any names in any order.",
  (T,"robot_to_tesseract_env_commands"),(T,"get_robot_world_to_base_joint"),(T,"TesseractRobot"))
p("Interpolated orientations form a steady rotation that does not depend on frames",
  "For quaternions whose rotations are more than 2e-6 apart, slerp passes the orientations of a steady rotation about one axis by at most half a turn; from the end to the start it passes the same orientations; interpolating between two orientations of an interpolation passes the orientations of that interpolation in proportion. Turning the reference frame or the moved frame turns all orientations passed in the same way, for all nonzero quaternions.",
  "all pairs of nonzero quaternions, all parameters, all frames", "A test interpolates between a few orientations; the axis is constant over a continuum of parameters.",
  (G,"slerp"))
p("The choice of the zero position of a robot does not matter",
  "Describing a robot by its axes and offsets as they stand at a configuration c, with the flange turned along and the limits lowered by c, gives a robot whose forward kinematics at x equal those of the original at c + x, with the same limit check; without mobile joints the Jacobians are equal too, and the joint solutions of a target are the same counted from c. The iterative solver goes through the same poses and returns the same joint vector counted from c.",
  "all robots, all configurations c and x", "A test moves the zero position of one robot; the claim is about all robots and a continuum of configurations.",
  (G,"fwdkin"),(G,"robotjacobian"),(I,"iterative_invkin"))
p("A robot mounted on another is the chain of the two",
  "Writing the axes and offsets of robot B in the frame of the last joint of robot A, through the flange and tool of A and the base of B, gives one robot whose forward kinematics at the joined joint values are the product of the poses of A and B, defined exactly when both pass their limit checks. Without mobile joints its Jacobian consists of the columns of A moved to the tool of B followed by the columns of B turned by the orientation of A.",
  "all pairs of robots with any number of joints, all joint values", "A test joins two particular robots; the claim is about all pairs and all configurations.",
  (G,"fwdkin"),(G,"robotjacobian"))
p("A robot with a locked joint is the robot without it",
  "Clamping joint i at the value a gives a robot with one joint less, whose axes and offsets behind joint i are turned or shifted by a and whose offsets before and behind it are added: its forward kinematics at the remaining joint values are those of the full robot with joint i at a, and without mobile joints its Jacobian is the Jacobian of the full robot without column i.",
  "all robots, all joints and values, all values of the other joints", "A test locks one joint of one robot; the claim is about all robots, joints and a continuum of configurations.",
  (G,"fwdkin"),(G,"robotjacobian"))
p("Making joints of a URDF file fixed leaves out those joints",
  "Take a URDF file that loads with a given tip link and make any choice of its joints fixed. The new file loads with the same root and tip, its robot has the joints that were kept in the same order, and for all joint values that are zero at the fixed joints both robots have the same pose. If the tip is left to be found, the new file may be refused.",
  "all files whose links form trees and whose axes are unit vectors, all choices of joints, all joint values", "A test edits one joint of one file; the claim is about all files, all choices of joints and a continuum of configurations.",
  (U,"_robot_from_urdf_robot"))
p("A robot held at its tool undoes the motion of the robot",
  "Describe the same mechanism from its tool to its base: joints in the opposite order, axes and offsets reversed, base and tool exchanged. At the same joint values in the opposite order its forward kinematics is the inverse of the pose of the robot, the limits accept the same joint values, and without mobile joints a column (w, v) of the Jacobian becomes (-R'w, R'(w x p - v)) in the opposite order.",
  "all robots with any number of joints, all joint values", "A test turns one robot round at a few configurations; the claim is about all robots and a continuum of configurations.",
  (G,"fwdkin"),(G,"robotjacobian"))
p("Self-motions and singularities do not depend on the outer joints, base and tool",
  "Two robots with the same joints, whatever their bases, flanges and tools, at joint values that differ only at the first and the last joint, have Jacobians that describe the same rigid body at different points and from different frames. So the joint velocities that leave the tool at rest are the same, and a configuration is singular for one robot exactly if it is for the other.",
  "all robots without mobile joints, all bases, flanges, tools and joint values", "A test compares ranks at a few configurations; rank is not even stable under rounding, and the claim is about all robots and configurations.",
  (G,"robotjacobian"))
p("The sense in which a joint is counted is a convention",
  "Reverse the axes of any choice of joints, exchange and negate their limits, and negate their values. The pose of the tool stays the same, the limits accept the same configurations, the columns of the Jacobian of these joints change sign, and the joint values that reach a pose inside the limits are the same configurations.",
  "all robots of all joint types (Jacobian: without mobile joints), all choices of joints, all joint values", "A test flips one axis of one robot; the claim is about all robots, choices of joints and a continuum of configurations.",
  (G,"fwdkin"),(G,"robotjacobian"))
p("Where along its axis a joint is placed is a convention",
  "Move the point at which each joint is placed along the axis of the joint, by any distances, and write the offsets between the joints accordingly. The pose, the Jacobian and the answers of the iterative solver and of the spherical wrist solver are the same, exceptions included.",
  "all robots of all joint types, all distances, all joint values, with or without limits, base, flange and tool", "A test moves one joint of one robot; the claim is about all robots, distances and a continuum of configurations.",
  (G,"fwdkin"),(G,"robotjacobian"),(I,"iterative_invkin"),(I,"robot6_sphericalwrist_invkin"))
p("The frame in which a chain is written is a convention",
  "Write the axes and offsets of a robot in any other orthonormal right-handed frame, and let base and flange take up the difference. The pose, with its frame ids, the Jacobian and the answer of the iterative solver are the same, exceptions included.",
  "all robots of all joint types, all frames, all joint values, with or without limits, base, flange and tool", "A test turns the description of one robot by one rotation; the claim is about all robots and a continuum of frames and configurations.",
  (G,"fwdkin"),(G,"robotjacobian"),(G,"apply_robot_aux_transforms"),(I,"iterative_invkin"))
p("Two neighbouring joints on one axis act as one",
  "If two neighbouring joints turn about the same line, or slide in the same direction, then only the sum of their values enters the pose and the Jacobian, and the two columns of the Jacobian are equal, so that the robot is singular everywhere.",
  "all well-formed robots (Jacobian: without mobile joints), all positions of the two joints in the chain, all joint values", "A test tries a few configurations of one robot; the claim is about all robots and a continuum of configurations.",
  (G,"fwdkin"),(G,"robotjacobian"))
open("/verif/properties.jsonl","w").write("".join(json.dumps(x)+"\n" for x in P))
print(len(P))
