# Formal model of rpi_general_robotics_toolbox_py in Lean 4

## 1. Approach

The Python code is numerical: almost every function is a short program over `float64` arrays whose
interesting content is (a) the real-number identity it is meant to satisfy, (b) its branches, tolerances and
error exits, and (c) what it does on degenerate inputs (division by zero, `sqrt`/`arccos` out of domain, NaN
flowing through comparisons).  The model is therefore written **once, generically in the scalar type** and
instantiated four times:

| scalar | file | use |
|---|---|---|
| `ℝ` | `Verif/Num.lean` | clean mathematics; used for functions with no partial operation and for intermediate lemmas |
| `XReal` = ℝ plus `nan`, `+inf`, `-inf` | `Verif/XReal.lean` | "exact IEEE": comparisons with NaN are false, `0/0 = nan`, `x/0 = ±inf`, `sqrt(-1) = nan`, `arccos 2 = nan`.  Property theorems about functions that divide, take roots or inverse trigonometric functions are stated here, so a theorem can never be true because Lean's `x / 0 = 0`. |
| `Fl F` | `Verif/Fl.lean`, `Verif/B64.lean` | floating-point arithmetic: every operation of `XReal` followed by rounding and overflow.  `F : FSys` is any rounding and elementary functions with the error bounds of the standard model (rounding keeps 0, 1 and the sign of non-negative numbers); `b64` is IEEE binary64, round to nearest even.  Used for C62-C64, C68-C69, C72-C74, C76, C77 and C81-C84 |
| `Float` | `Verif/Num.lean` | execution; `Verif/FloatTests.lean` runs the very same definitions on the literals of `/repo/test` (these are tests, not proofs) |

Python exceptions are values: every function that can raise returns `Except PyErr _`.  In-place mutation of an
argument (`robot6_sphericalwrist_invkin` edits `robot.P`) becomes returning the new robot.

Layout: `Verif/Model/*` (the code, every definition cites file and lines), `Verif/Spec.lean` (independent
specifications), `Verif/Lemmas/*` (helper lemmas), `Verif/Props/*` (property theorems with non-vacuity
examples), `Verif/FloatTests.lean`, `Verif/FloatTests2.lean`, `Verif/FloatData.lean` (tests of the model: the literals of
`/repo/test`, and its YAML/URDF data files transcribed by `tools/testdata.py`).

## 2. Trusted base

* Lean 4.33 kernel; Mathlib's definitions of ℝ, `Real.sin`, `Real.sqrt`, ... ; axioms `propext`,
  `Classical.choice`, `Quot.sound` only.  `AXIOMS.txt` lists the axioms of every theorem of `MANIFEST.json`
  (written by `tools/mkaxioms.py` from `#print axioms`).
* My reading of the Python: each model definition cites the lines it transcribes.
* NumPy semantics as transcribed: broadcasting rules where they can fail, `isclose/allclose` default tolerances,
  `argsort`, `floor_divide`, `remainder`, `arange`, `argwhere`, list/negative indexing.
* Third-party behaviour taken as assumption and modelled: `urdf_parser_py` (`get_root`, `get_chain`, maps),
  `geometry_msgs` constructors' positional order, `tf` listener return shape `(translation, quaternion xyzw)`,
  Tesseract scene graph semantics (child = parent * origin * motion), Eigen isometries, PyYAML output tree.

Not modelled: rounding and overflow outside C62-C64, C68-C69, C72-C74, C76, C77, C81-C87, C93, C104 and C107-C109 (everywhere else arithmetic is exact; in these sums are taken from left to
right and every operation is rounded, where BLAS may reorder or fuse); signed zero; the filters of the `warnings` module (the calls of `warnings.warn` are recorded in `Model/Warnings.lean`, C105) and the warnings of numpy itself; numpy's texts of arrays (parameters of `Model/Printing.lean`, C106); PyYAML's text of a dictionary and tesseract's reader of it (parameters of `Model/TesseractText.lean`, C54);
the contents of files, of the ROS parameter server and of package indexes, xacro and XML parsing (parameters in C100); ROS listener internals; Tesseract/KDL solvers.

## 3. Plan per property

(Updated as the work proceeds; section 4 lists final status and deviations found in the code.)

* C01, C02, C05, C08, C12: ring identities over `ℝ` on 3x3/4x4 structures, plus `sin²+cos²=1`.
* C03, C04: SO(3) facts from orthogonality (`R = cof R`), Rodrigues decomposition; C04 is expected false (sign
  recovery at angle π uses `B[0,2]` instead of `B[1,2]`): prove a witness and the true part.
* C06: each branch of `R2q` by polynomial identities from `R Rᵀ = I, det R = 1`; no NaN because the pivot is positive (on any matrix, rotation or not: the argument of `math.sqrt` is at least 1, `C06_R2q_total`).
* C07, C10, C11: trigonometric inverse functions on their ranges, on `XReal`.
* C09, C20, C22: `HasDerivAt`, induction over the chain.
* C13, C14, C21: algebra; C14 by induction over lists of transforms.
* C15: `isclose` is asymmetric in its two arguments (rtol scales with the second): expected false for symmetry.
* C16: decision logic stated outright.
* C17-C19: induction over the chain; refinement to a product of homogeneous transforms.
* C23-C26: planar geometry of projections; soundness and completeness; degenerate branches on `XReal`.
* C27, C28: integer rounding argument; pruning expected to lose candidates.
* C29-C36: composition of the subproblem theorems; error exits modelled; mutation modelled.
* C37-C39: induction over joints, product structure.
* C40, C41: invariant of the while loop, `pinv` is a parameter.
* C42-C44: structure round trips. For C44 the listener is abstract; its contract (`Spec.TfContract`: a lookup succeeds when `canTransform` says so or a wait has ended) carries over to the wrapper.
* C45-C47: model over a YAML value tree with Python's KeyError/TypeError/IndexError/ValueError.
* C48-C51: URDF model; induction over the chain relating accumulated rotation to the running transform.
* C52-C58: model of the emitted scene graph / dictionaries / parameters.
* C59: model of the loader's inertia handling; expected false for massless root and tip links.
* C60: the completeness counterpart of C35, from the completeness of the subproblems.
* C61: the library's `calcFwdKin`, `calcInvKin`, `calcJacobian` are parameters with their documented meaning on the scene
  graph; everything `TesseractRobot` adds around them (unit, frame and order conversions) is modelled.
* C62: error propagation through the chain in `Fl F`: operator-norm bounds for rotations, absolute bounds in units of the reach for
  positions, by induction over the joints.
* C63: error bounds for the four branches of `R2q` (the pivot is never small) and for `q2R`.
* C64: expected false (`arccos` of a rounded inner product, `sqrt` of a rounded diagonal); proved in floating-point arithmetic away from the singularities: sums of squares with relative error (all terms are non-negative, also after rounding), the change of a root of a sum of squares (triangle inequality), of `arctan2` (C72) and of `arccos` (divided by the sine of the angle).
* C65: same model as C45-C47; case analysis over present, null and missing entries.
* C66: the numbers drawn are parameters in [0, 1); exact set of the rotations that can be drawn, expected to be smaller than all.
* C67: the completeness lemmas of C30 and C60 for a normalizer with last joint values equal to those of the pose (then nothing is pruned and no turns are added), and the order of C34; for UR arms the exact condition on joints 2 to 4 for limits of one turn.
* C68: the loop of `robotjacobian` with the error propagation of C62 for every recorded axis and joint origin; the cross product as a matrix of norm 1; `rot` about a computed axis (mobile bases) by a Lipschitz bound; the base rotation last.
* C69: error propagation through `__mul__`, `inv` and the aux transforms with the exact laws (C13, C21) at the end; `np.isclose` evaluated with rounding; false for positions far from the origin, where the fixed tolerance 1e-8 is below one rounding error.
* C70: forward kinematics is continuously differentiable with derivative given by the Jacobian (C20); one step multiplies the orientation error by about 1 - kR/2 and the position error by about 1 - kp, up to a term small compared with the step; the sum of the errors decreases by a fixed fraction of the measured error at each step, also where `R2rot` returns angle 0; induction over the loop.  `pinv` is a parameter with the Penrose conditions as its specification.
* C71: how far the two values of joints 1, 3 and 5 that the three subproblems give are apart (at least twice the sine of the shoulder, elbow or wrist angle), so that every other row of the search is farther from the last joints than the true one; the completeness lemmas of C67 for last joints within a quarter turn; induction over the path with the robot changed by each call (C33); compactness for continuous paths.
* C72: `arctan2` turns by at most four times the relative error of its arguments; `sqrt(a*a+b*b)` in rounded arithmetic; composition with the bounds of C62.  The accuracy of `arccos` and `arctan2` of the library is a hypothesis (`Spec.InvAcc`: within the rounding unit of the true value, up to whole turns for `arctan2`; `arctan2` is at most 3.2 everywhere, and at most 1.5 at (0, 0)), met for instance by the correctly rounded functions (`invAcc_rounded`).  Expected false next to gimbal lock.
* C73: binary64 computed operation by operation for the counterexample (`Lemmas/B64Sub.lean`); for the error bound, the rounded norm of a vector of any length (relative error, and the underflow case), normalisation, `arctan2` as in C72, and the sign test: a wrong sign is possible only when the sine of the angle is small, and then the two angles are near each other modulo a turn.  `Spec.InvAcc` also assumes that results of `arctan2` are at most 4 in modulus.
* C74: the coefficients of `A sin(theta + phi) = d - mid` and their errors, `A` bounded away from 0 by the rate `m = A |cos(theta + phi)|`, `arctan2` as in C72, and `arcsin` Lipschitz with constant `1/m` between the rounded and the exact quotient; the two branches are told apart by the sign of the cosine.  `Spec.InvAcc` also assumes that `arcsin` is accurate on [-1, 1].  Counterexample in binary64.
* C75: induction over the joints with the two chains side by side, invariant `|S - R| <= e`, `|q - p| <= f`; turning by `a` and `b` about one axis differs by at most `|a - b|` (`2 - 2 cos` bound); multiplication by rigid transforms on either side.
* C76: a joint value that is not finite makes `sin` and `cos` NaN, NaN passes through every operation up to the test, and `NaN < tol` is false, so the final iterate is finite (in Python `math.sin` of an infinite joint value raises ValueError instead: no convergence is reported either way); then C62 gives the error of the computed pose, the matrices of the two errors are near the exact ones, `R2rot` on them is bounded as in C64 (the axis loses accuracy as `1/sin`, which the factor `sin(theta/2)` makes up for), and the position test is a bound on an isometric image.  The number of turns of `normalize_joints` is an integer after rounding (`Spec.IntRounding`, proved for binary64); C75 bounds the effect of the rounding of the returned values.
* C77: one product of stored quaternions of norm at most 1.1 is off by `110 u` (entry by entry); the error of the left factor passes through unchanged because Mathlib's quaternion norm is multiplicative; induction over the factors.
* C78: induction over the joints with the two chains side by side and the twist `(w, u)` collected so far; invariant `|S - R - hat(w) R| <= e^2/2`, `|q - p - (u + w x p)| <= f`.  One turning joint: `|exp(i d) - 1 - i d| <= d^2/2`, proved by monotonicity.  The columns: the part of the arm behind a joint is written in the frame of the joint, where its change does not depend on the joints before.
* C79: as C75, with two chains of different geometry; turning by `x` about two unit axes differs by at most `2 |sin(x/2)|` times their distance, from the multiplicative norm of Mathlib's quaternions.
* C80: Newton-Kantorovich with the constants of C78.  With `e_R` the sine of half the error angle (the norm of the vector part of the unit quaternion of `R_d^T R`) a step gives `e_R' <= sqrt((1 - KR/2)^2 + KR e_R^2) e_R + D^2/4` and `e_p' <= |1 - Kp| e_p + Γ D^2/2`, where `D <= M (e_R + e_p)` is the joint motion; so the sum decreases by a fixed fraction and the joints travel a bounded distance.  The conditioning on that ball follows from the Lipschitz bound of C78 and Minkowski's inequality.  The dead band of `R2rot` (angles below `10^-6` are measured as 0) is why the geometric count of steps is for tolerances of at least `10^-6`.  Existence of a solution: the point with the smallest error in a compact set from which a step can be afforded.
* C81: the stored points are taken as exact and the solution is moved to them, so that the data errors enter with the derivative of the exact solution only (`angle_pert`, also used for the forms of C73 and C74 with separate data errors); the rate `m` bounds the distances of both points from the axis and the sine of the elbow angle from below; `arccos` Lipschitz with constant 1/sine; the two directions passed to `subproblem1` are unit vectors within `30000 u/m`.  Counterexample at the extreme distance in binary64, every operation evaluated with `B64.rnd_eq`.
* C82: for perpendicular axes the intermediate point has the coordinates `(q.k1, p.k2, +-g)` in the frame `k1, k2, k1 x k2`, `g^2 = 1 - (q.k1)^2 - (p.k2)^2`; `g >= gamma` gives the Lipschitz constant of the square root and bounds the distances from both axes; then four times C73 with separate data errors.  For coordinate axes and their negatives the scalar product in the check of `subproblem0` is computed as exactly zero when the coordinates are floating-point numbers (`Lemmas/FlAxis.lean`; uses that rounding is idempotent and odd, `Spec.ExactRnd`, proved for binary64), so C73, C81 and C82 do not raise there.  Not done: axes that are not perpendicular (the solvers call it with perpendicular ones only), vectors that are not of unit length.
* C83: the data errors are carried through the loops one joint after the other, with one lemma per loop (`r6Search_near` ... `r6Last_near` in `Lemmas/FlIk.lean`): the forms of C74, C81, C73, C82 with separate data errors give one angle of each list near the exact joint value, rotations are Lipschitz in the angle, and the chain of bounds is closed by a budget in powers of `1/m` (`ik_budget`).  Base, flange and tool as in C69; the corrected offsets as in the code.  For axes 2 to 6 along coordinate axes the call does return (`Lemmas/FlIkRun.lean`): no subproblem raises (C73, C81, C82 for coordinate axes), the check of the offsets is exact, and each list found by a loop is matched back against the exact solutions, so that rows and solutions correspond both ways (`C83_robot6_coord_partial`).  Not done: joint limits, last joint values, other axes.
* C84: as the second part of C83, for the loops of `ur_invkin` (`Lemmas/FlUr.lean`): the shoulder angle by subproblem 4, joint 5 and the sum of the parallel joints by subproblem 2 about coordinate axes, the elbow by subproblem 3, joints 2 and 6 by subproblem 1, joint 4 as the difference.  Every run of a loop returns, every element it finds is matched to an exact angle and every exact angle to an element; the budget in powers of `1/m` is `ur_budget`.  The solutions of the loops before the elbow that are out of its reach by a margin give no rows.  Not done: joint limits, last joint values, axes that pass the assertion without being stored exactly (C81-C83 show how such axes can raise).
* C85: `Spec.jacDet` is Mathlib's `Matrix.det` of the six columns.  Moving the reference point from the tool to the wrist centre multiplies by a block triangular matrix of determinant 1; there the columns of the joints whose axes pass through it have no linear part, and the determinant is a product of two 3x3 determinants (`Lemmas/JacDet.lean`).  For the UR arm the columns of the three parallel joints are first subtracted from each other.  The margins of C83 and C84 follow because each factor is at most 1.9.
* C86: the rounding analysis of C83 is generic in the normalizer: `Fl.Keeps` (the calls return and keep angles) and `Fl.Follows` (a candidate for a joint vector is not dropped), in `Lemmas/FlKeeps.lean`.  For limits and last joint values these are proved in `Lemmas/FlTrack.lean` (one call of `normalize`: the computed number of turns is an integer that brings the angle within half a turn of the last joint value up to 1/1000; the moved angle has an error of at most 1000 rounding units) and `Lemmas/FlTrackCall.lean` (lists, pruning).  `Lemmas/FlTrackSort.lean` bounds the computed distances of the final sort in both directions.  Partial for the reasons of C83, and because limits far from zero lose solutions (C30).
* C87: the rounding analysis of C84 is generic in the normalizer in the same way (`Fl.UrFollows` in `Lemmas/FlUr.lean`, `ur_run` in `Props/RoundingUr.lean`).  The candidate for the fourth joint is the computed sum of the three parallel joints less the second and third joint values after `normalize`, so its size depends on the limits of these; `Spec.RepsLe` bounds these values and `Spec.UrInside` asks the limits of the fourth joint to suit this size.  The concrete case is a binary64 arm with limits just below a turn either way.
* C88: `Spec.Describes` says in terms of the entries of the document when it is well formed and which robot it describes; `C88_accepts` is the converse of C45, C46 and C65.  The faults are the inductive specs `FloatFault`, `VecFault`, `JointFault`; `Spec.FirstBad` picks the first faulty entry of a list.  Proved by running the loader stage by stage; the check of the joint numbers is characterised in both directions (`checkNumbers_eq`).
* C89: the bound follows from the lengths of the lists of the subproblems, loop by loop, for every number type.  For distinctness each loop is shown to separate its angles: the two shoulder angles by the derivative of the lateral position (`subproblem4_apart`), the two elbow angles by the fold (`subproblem3_apart`), the two wrist solutions always (`subproblem2_apart`); in the UR solver the second is the sum of joints 2 to 4.  `Spec.differ` is 'some joint differs by more than whole turns'.
* C90: `Spec.Fits` is what the constructor checks about lengths (`C90_init_fits`).  For such robots the loop over the joints is followed once with a missing limit (TypeError at the first joint) and once with all of them (only assertions can fail); success is `C53_succeeds_iff`.  The URDF half reads off that the loader passes no acceleration limits, the Robot Raconteur half that it passes everything.
* C91: `Spec.Forest` says that names are distinct, links declared, no link has two parents, and depths increase along joints; the depth bounds the walk from a link to the root (`chainLoop_total`).  `Spec.Outcome` lists the outcomes in terms of the file (roots, valid tips, chains as paths of joints); `C91_exhaustive` shows that there is always one, `C91_outcome` that it is what the loader does for every sufficiently large number of steps, the acceptance by the constructor being `C16_ctor_iff`.
* C92: composition of C29/C35 (soundness of the solvers), C31/C36 (limits), C48 (forward kinematics of a loaded file) and a new invariant of the loader's loop (`urdfLoop_zero`): columns of `H` and `P` are the axes of the joints at zero and the steps between their places.  The geometry asked for is stated about the file alone; the example is a UR file with a turned tip frame that is shown to load by C91.
* C93: `Spec.relays` sends a transform on through a list of messages, each of a kind named by the list.  One message: C63 and C69.  Many: while the trace is positive, the product of the scalar with the vector part of the quaternion is invariant and the squared length `b` of the vector part moves by `b ↦ c / (1 - b)`, which contracts towards the true value when the angle is below 90° and away from it above; `Relay.Inv` bounds both errors by induction on the list, each message adding at most `3690 u`; when the trace is negative, the other branches of `R2q` return `±q` whatever the length of `q` (`Relay.fixed`), so that errors add up (`Relay.Keep`).  The counterexample iterates the same map in exact arithmetic.
* C94: the columns computed for two tool points differ by the cross product with the displacement (induction over the recorded frames, mobile groups included); `fwdkin` gives the two tool points up to the base, which turns cross products into cross products.  Torques follow from C12.  Base: both sides reduce to the robot without base.
* C95: the analytic solvers depend on base, flange and tool through `unapplyAux` only, which C21 inverts.  The iterative solver: error and Jacobian are in the coordinates of the tool, where the base drops out (C94), so one pass through the loop is the same, and so are all by induction over the steps; the iterates stay finite since `pinv` is assumed to return finite entries.
* C96: C30/C60 put a vector that differs by whole turns into the list of the solver, C31/C36 put the list inside the limits, and C38 adds the turns.
* C97: `fwdkin` and `robotjacobian`: induction over the joints.  Subproblems and solvers: multiplication by a positive real number commutes with every operation of `XReal` they use, NaN and infinities included, up to the one comparison with a fixed length in `subproblem1`; the hypothesis of the theorems says that this comparison comes out false.  Counterexamples: a right angle between vectors of 2⁻³⁰ units, and an arm of links of 2⁻³⁰ units.
* C98: what the functions demand is written down as inequalities between numbers (`Spec.OpwAccepts`, `Spec.UrAccepts`, independent of `isclose` and of the bending and straightening of the arm); both directions follow the function assertion by assertion, and no step can raise anything else.
* C99: induction over the joints with a bound that multiplies by `1 + 7 δ` per joint (`rot` is Lipschitz in its axis, also for axes that are not unit vectors).  With it, C55 and C56 extend from exact axes to all accepted ones (`Props/OpwNear.lean`, `Props/UrNear.lean`).
* C100: reading, parsing, xacro and the package index are functions given as parameters (`UrdfIo`), so the theorems hold for all of them; `os.path.join` is modelled on character lists and compared with the list of names a path goes through.
* C101: the last link of the environment has no joint below it (the parents of the joints are the links without the last), so the tip the group reports can only be that link; redundant solutions by periodicity (C19) and the joint types and limits of the environment (C52). Assumptions on the external group are structures in `Spec`.
* C102: a memory of arrays by address; robot objects hold the address of `P` (`Model/Shared.lean`). Induction over the history of calls: a call on a compatible robot leaves another as it was or as a call of its own would (C33).
* C103: assignment to an element of an array of integers drops the fraction (`Model/IntArrays.lean`). Invariant over the joints: the vectors found are integers and differ from the given one; π is irrational. For OPW: the bend by a quarter turn maps integers to integers, straightening the upper arm does not.
* C104: URDF robots with rounding. `C104_urdf_rounding` relates a file over `ℝ` and the file as read over `Fl F` (`Spec.UrdfNear`: same names, types and links; numbers within `ε`). The search for root, tips and chain only uses names and types (`Lemmas/UrdfSame.lean`), the loop keeps an invariant on the accumulated rotation, position, axes and links (`Lemmas/FlUrdf.lean`), and forward kinematics of a robot with data known up to `e` is bounded as in C62 (`Lemmas/FlData.lean`). The result is compared with `Spec.urdfAct`, the motion of C48.
* C105: Warnings. `Model/Warnings.lean` has the subproblems and the two analytic solvers once more, returning the list of messages besides the outcome; `C105_same_outcome` shows that outcomes are those of the rest of the model (loop by loop, `Lemmas/Warnings.lean`). The four claims of the property are proved or refuted per function; in the solvers, all calls of `subproblem1` get vectors of equal length because elbow angles solve their equation exactly (C25), so that only `subproblem3` can warn.
* C106: Printing. `Model/Printing.lean` has `__str__`, `__repr__` and `__neq__`; numpy's texts of the arrays are parameters. That the text determines the arrays' texts and the ids is proved on lists of characters: continuation lines of the rotation are indented deeper than the line of the position, and the end of each line of an id is found by its line break.
* C107: Rounding of the Robot Raconteur loaders. Documents near each other (`Spec.DocNear`) lead through the same branches of the loader, so the two robots agree except for their numbers, which are near (`Lemmas/FlRR.lean`); `Lemmas/FlDataAux.lean` bounds `fwdkin` for a robot whose data, flange, tool and base are known up to a relative error. The exact robot is the one of the same model over the reals, whose meaning is the subject of C45 and C46.
* C108: Rounding of equivalent_configurations. `Lemmas/EquivTurns.lean` describes the loop for any scalar type in terms of the two numbers of turns it reads; `Lemmas/FlEquiv.lean` bounds these numbers and the turned values in floating point. A row is compared with the exact configuration (`Spec.wholeTurns`), so the listing is stated both ways up to the rounding error. The counterexample on the limits is computed with the operations of binary64.
* C109: Rounding of random rotations. The relative error of the norm is bounded for quaternions of any size without underflow, in units of the norm; division and `q2R` then add their errors (C63). That squares of the numbers of the generator do not underflow is proved from their being multiples of 2⁻⁵³.
* C110: Rounding of the URDF inertia. The blocks are compared entry by entry; a sum of three products of numbers of any sizes has an error in units of u times the product of the sizes (`Fl.near_dot3S`), used for both matrix products and for the square of the offset. The statement on the kinetic energy follows with C51_kinetic_energy.
* C111: Inertia by body. The spec cuts the chain at the moving joints and places each link in the frame of its body from the origins of the joints (functions on points, not the matrices of the model); the energy of a placed link is that of C51 with the twist taken to the frame of the link. The loop invariant: the matrix in progress has the energies of the links of the current body except the last.
* C112: Cells. `Spec.Cell` is the list of robots added so far with the environment; by induction the environment is a tree that contains the joints of every robot under its prefix, all names distinct. A pose of a link depends on the joints on its path, which are the robot's own.
* C113: Steady rotation. The combination inside slerp is cos(t a) times the start plus sin(t a) times a unit quaternion orthogonal to it; multiplied by the inverse of the start this is the quaternion of a rotation by 2 t a about a fixed axis. Frames: slerp commutes with every linear map that keeps the scalar product, and multiplication by unit quaternions from either side is one.
* C114: Zero position. A separate specification writes down the new axes, offsets, flange and limits. Loop invariant: the orientation of the original is that of the new robot times the orientation at c; a rotation about a turned axis is the conjugated rotation. The iterative solver sees the robot through forward kinematics and Jacobian only, and its final normalization depends on differences of joint values.
* C115: Mounted robots. The loops of the joined chain are those of A, which hand over with a longer last offset, then those of B conjugated by the adapter between the robots; both by induction over the joints. Columns move by the cross product with the lever arm.
* C116: Locked joints. The zero position is moved so that the joint stays at zero (C114); a joint at zero adds its offset only, so leaving it out and adding the two offsets gives the same loop states, by induction over the joints before it.
* C117: Fixed joints. Root, chain and outcome of the new file follow from those of the old one (C91); the pose is the URDF chain (C48), in which a joint at zero and a fixed joint act alike.
* C118: Turned robots. By induction over the chain the last joint of the turned chain undoes the first joint of the chain (C17); the frames of the Jacobian loop are the same frames seen from the tool, in the opposite order.
* C119: Self-motions. The value of the last joint does not enter the columns, since a rotation keeps its axis; the first joint moves all later frames by one rigid motion; base, flange and tool act on the columns by a rotation and a change of reference point. All of these are invertible on columns.
* C120: Sense of the joints. A step of the loops about the negated axis by the negated value is the same step, by induction over the chain; limits joint by joint.
* C121: Place on the axis. A rotation keeps its axis, so the state of the loops for the moved robot is that of the robot plus the move of the next joint; the lever of a column changes by a multiple of the axis. By induction over the chain, and over the steps of the solver. The spherical wrist solver moves the offsets of joints 4 and 6 to the wrist centre before it starts; with the fifth joint moved its check of the fourth offset fails.
* C122: Frames of description. A rotation about a turned axis is the conjugate rotation, so the state of the loops is the conjugate state; columns turn with the frame, and base and flange cancel it. By induction over the chain.
* C123: One axis. The rotations add up and keep the offset along the axis, the slides add up; by induction on the place of the two joints in the chain.

## 4. Status and what the proofs found in the code

`MANIFEST.json` has the status, the theorems and a note for every property.  A property with a claim that is false of the
code has (i) a theorem ending in `_false`, `_raises`, `_nan` or similar: the negation, with a concrete witness or for the whole
class of failing inputs, and (ii) a theorem ending in `_partial`: the claim under the hypotheses that make it true.
The statements in `properties.jsonl` were not weakened to fit.

| property | what is false of the code | theorem |
|---|---|---|
| C04 | `R2rot` at half turns tests `B[0,2]` where `B[1,2]` is needed: wrong axis | `C04_R2rot_false` |
| C07 | `q2rot` of `q0 = -1` divides 0 by 0 | `C07_q2rot_minus_one` |
| C11 | `slerp` of orthogonal quaternions depends on the sign of the representative | `C11_slerp_sign_false` |
| C15 | `==` of transforms is not symmetric (relative tolerance of `np.isclose`) | `C15_eq_symm_false` |
| C16 | one limit alone is silently dropped | `C16_ctor_half` |
| C18 | a chain that ends within a mobile base is accepted, moved by `fwdkin`, and makes `robotjacobian` raise IndexError | `C18_cut_base_raises` |
| C23 | points on the axis raise; the check of `subproblem0` is one-sided | `Props/Subproblems.lean` |
| C24 | tangent case permutes the arguments of `subproblem1` | `C24_subproblem2_tangent_false` |
| C25 | points on the axis raise although all angles are solutions | `C25_subproblem3_on_axis` |
| C26 | below the range `[nan, nan]`, degenerate input NaN | `C26_subproblem4_below_nan`, `C26_subproblem4_degenerate_nan` |
| C27 | angles more than a turn from the limits are dropped | `C27_normalize_far_false` |
| C28 | with `last_joints` candidates are pruned, not only ordered | `C28_call_prunes_false` |
| C30, C60 | wrist singularities (also the home pose) raise; far limits lose solutions | `C30_*_raises`, `C30_robot6_far_limits_false`, `C60_*` |
| C32 | with `last_joints` an unreachable pose raises instead of giving `[]` | `C32_*_last_raises` |
| C36 | joint 5 of `ur_invkin` is never checked against its limits | `C36_ur_limits_false` |
| C38, C39 | joints of type 2 not expanded; with one infinite limit the turns are lost or ValueError is raised; the inputs are returned again | `C38_heading_false`, `C38_half_infinite_false`, `C39_additional_false` |
| C40, C41 | "converged" can be far away (prismatic joints, half turns); one joint raises TypeError | `C40_*_false`, `C41_one_joint_false` |
| C45, C46 | `joint_numbers` is ignored for the joint data; range checks incomplete | `C45_joint_numbers_false`, `C46_*` |
| C53 | robot names can clash; `include_world=False` never succeeds | `C53_two_robots_false`, `C53_without_world` |
| C54 | string override never accepted; UR tip link is the tool, parameters end at the flange | `C54_string_override_false`, `C54_ur_tool_false` |
| C55 | vertical forearm accepted with an orientation off by a quarter turn; axes within tolerance accepted with sign correction 0; sliding joints accepted | `C55_vertical_false`, `C55_sign_zero_false`, `C55_sliding_false` |
| C56 | `d6` leaves out the last link; +x convention rejected or wrong; sliding joints accepted | `C56_last_link_false`, `C56_urdf_false`, `C56_plus_false`, `C56_sliding_false` |
| C59 | massless root or tip links drop all inertias | `C59_massless_tip_false`, `C59_massless_root_false` |
| C64 | in double precision `slerp(q, q, t)` can be NaN, `q2rot` is NaN when `q0` exceeds 1 by an ulp, `R2rot` has a NaN axis near half turns | `C64_slerp_false`, `C64_q2rot_false`, `C64_R2rot_false` |
| C66 | `random_R` draws only rotations about axes with nonnegative coordinates (an eighth of all); the zero draw gives NaN | `C66_all_rotations_false`, `C66_zero_nan` |
| C67 | `ur_invkin` does not return the current joints when joint 5 is beyond half a turn, or when `q24 - q2 - q3` is two turns or more, although they are inside the usual limits of one turn | `C67_ur_wrist_false`, `C67_ur_fourth_false` |
| C69 | `==` on transforms has a fixed absolute tolerance: at a distance of 2^30, `T * T.inv() == Transform(I, 0)` is False in double precision | `C69_far_false` |
| C70 (rank condition) | a stretched planar arm asked to move inwards never moves: the seed is returned, converged False, for every number of steps and any distance | `C70_singular_false` |
| C72 (whenever it does not raise) | the check `10 * eps` of `R2rpy` is far below the rounding error of its input: for every c above it a matrix within c of a rotation passes, and the recovered matrix is off by more than 1/2 | `C72_gimbal_false` |
| C73 | `subproblem0` asserts `np.dot(k,p)<eps` with `eps` one unit in the last place of 1, but the perpendicular part that `subproblem1` computes and passes on is only perpendicular up to its own rounding error: in binary64 `subproblem1([1,1,1],[1,1,-1],[1,1,0])` raises an `AssertionError` (every operation of the witness has the same result for every summation order, also with fused operations).  For the coordinate axes this cannot happen (`C73_subproblem1_axes_partial`) | `C73_subproblem1_false` |
| C74 | `subproblem4` returns `[]` when the quotient `c/A` exceeds 1 by a rounding error and `[nan, nan]` when it falls below -1 by one (only `> 1` is checked, see C26): in binary64 `subproblem4(ex, ex, ez, d)` with `d` one unit in the last place beyond the reachable 1 or -1 | `C74_subproblem4_false` |
| C81 | `subproblem3` returns `[]` when `abs(bb)` exceeds 1 by a rounding error, also for data that are exactly representable: in binary64 `subproblem3([1+3/2^27,0,0], ex, ez, 2+3/2^27)` is `[]`, angle 0 being a solution | `C81_subproblem3_false` |
| C82 | `subproblem2` raises in the tangent case (wrong argument order, see C24), in binary64 as in exact arithmetic | `C82_subproblem2_false` |
| C83 | `robot6_sphericalwrist_invkin` asserts that offset 4 minus its part along the axis of joint 4 is exactly zero (line 153, and line 159 for offset 5 and joint 6).  With rounding this fails for most tilted axes: the arm with forearm axis and offset (5, 0, 12)/13, stored in binary64, raises AssertionError for every pose | `C83_robot6_false` |
| C89 | at the end of the lateral reach `subproblem4` returns its only angle twice (lines 853-855: `-phi + psi` and `-phi - psi + pi` with `psi = pi/2`), so both solvers list every joint vector twice | `C89_robot6_twice_false`, `C89_ur_twice_false` |
| C90 | the URDF loader passes no `joint_acc_limit` (urdf.py lines 175-178), and `robot_to_scene_graph` subscripts it (tesseract.py line 266): TypeError for every URDF robot | `C90_urdf_false` |
| C90 | joints without identifier are all named `""` (robotraconteur.py line 144), which Tesseract refuses as duplicate | `C90_unnamed_false` |
| C91 | a moving joint without `<axis>` (x axis by the format; `j.axis` is then `None`) raises ValueError at urdf.py line 139 | `C91_default_axis_false` |
| C91 | `continuous` joints are refused (urdf.py line 149) | `C91_continuous_false` |
| C91 | a leaf below a cycle that does not contain the root makes `get_chain` (urdf.py line 95) loop forever | `C91_cycle_diverges` |
| C93 | `q2R` and `R2q` do not normalise: for angles between 90° and 120° the deviation of the quaternion from unit length is amplified by each round trip through a message, up to threefold, so that a rotation sent on some dozen times arrives as another rotation | `C93_unstable_false` |
| C97 | The unit of length matters to `subproblem1` and the solvers: points closer than 2⁻²⁶ units are taken to coincide, whatever the size of the robot (line 694) | `C97_subproblem1_false`, `C97_robot6_false` |
| C98 | `robot_to_ur_inv_kin_parameters` does not check the number of joints: ValueError from numpy instead of AssertionError | `C98_ur_joints_false` |
| C100 | a package given with an absolute file name is looked up and then ignored | `C100_absolute_false` |
| C102 | robots built from the same `P` with another fourth axis are changed by a call on one of them; a transform changes with the array given as `p` | `C102_shared_false`, `C102_transform_false` |
| C103 | `theta2[ind] += ...` and `P2[:,2] = ...` assign floats to copies of the caller's arrays: with arrays of integers no returned configuration is equivalent, and the upper arm loses its fraction | `C103_equivalent_false`, `C103_opw_false` |
| C105 | `robot6_sphericalwrist_invkin` warns of a missing solution on the way to solutions it returns, and so may `subproblem2`; `subproblem1` returns an angle that solves nothing, `subproblem4` the empty list, without a warning | `C105_robot6_spurious_false`, `C105_robot6_silent_false`, `C105_subproblem2_spurious_false`, `C105_subproblem1_silent_false`, `C105_subproblem4_silent_false` |
| C106 | frame ids with line breaks let two different transforms print alike | `C106_print_false` |
| C108 | `equivalent_configurations` returns a configuration one ulp above the upper limit, which `fwdkin` refuses with AssertionError: the difference to the limit rounds up to a whole number of turns | `C108_limits_false` |
| C109 | the draw of four zeros gives NaN in floating point as well | `C109_zero_false` |
| C111 | inertia of links turned against the root, or fixed with a displacement, enters untransformed: the argument `R` of `_convert_inertial` is not used | `C111_turned_false`, `C111_displaced_false` |
| C121 | an arm described with the point of the fifth joint off the wrist centre, though it is the same arm, makes every call of `robot6_sphericalwrist_invkin` raise AssertionError (lines 151-155) | `C121_robot6_fifth_false` |

## 5. Mutation testing

`seeded/LOG.jsonl` has one line per wrong program tried: the definition edited, the edit, the claim it breaks, the theorems that
failed to build (`theorems_failed`), the dependent modules that could not be built because of that, and the theorems that were
added or tightened when nothing failed.  A failing helper lemma blocks the property theorems that use it; they are then not listed
one by one.
