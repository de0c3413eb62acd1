import Verif.FloatTests
import Verif.FloatData

/-!
# Tests of the model (not proofs): loaders and Tesseract parameters

The models of `robotraconteur.py`, `urdf.py` and `tesseract.py`, executed in double precision on the data files of `/repo/test` and
compared with the values expected by `test_rr_yaml.py`, `test_urdf_loader.py` and `test_tesseract_kinematics.py`.
-/
set_option autoImplicit false

namespace FloatTests

def load (d : Yaml Float) : Except PyErr (Robot Float) := rrLoadRobot (fun _ => none) d

def closeO (a : Option (List Float)) (b : List Float) (tol : Float := 1e-7) : Bool := match a with
  | some a => closeL a b tol
  | none => false
def closeCols (a b : List V) (tol : Float := 1e-7) : Bool := a.length == b.length && (a.zip b).all fun x => closeV x.1 x.2 tol

-- test_rr_yaml.py lines 17-45
#guard got (load abb1200Yaml) fun r =>
  closeCols r.H [z, y, y, x, y, x] &&
  closeCols r.P [⟨0, 0, 0.3991⟩, 0, ⟨0, 0, 0.448⟩, ⟨0, 0, 0.042⟩, ⟨0.451, 0, 0⟩, ⟨0.082, 0, 0⟩, 0] &&
  r.jointType == [0, 0, 0, 0, 0, 0] &&
  closeO r.lower [-2.967, -1.745, -3.491, -4.712, -2.269, -6.283] && closeO r.upper [2.967, 2.269, 1.222, 4.712, 2.269, 6.283] &&
  closeO r.vel [5.027, 4.189, 5.236, 6.981, 7.069, 10.472] && closeO r.acc [10, 15, 15, 20, 20, 20] &&
  r.jointNames == some ["joint_1", "joint_2", "joint_3", "joint_4", "joint_5", "joint_6"] &&
  r.rootLink == none && r.tipLink == some "tool0" && r.Rtool.isNone && r.ptool.isNone && r.Tbase.isNone &&
  (match r.Tflange with | some F => closeM F.R (rot y (Elem.pi / 2)) 1e-4 && closeV F.p 0 | none => false)

-- test_rr_yaml.py lines 48-92
def sawyerTest (r : Robot Float) (base : Option (Transform Float)) : Bool :=
  closeCols r.H [z, y, x, y, x, y, x] 1e-4 &&
  closeCols r.P [⟨0, 0, 0.08⟩, ⟨0.081, 0.05, 0.237⟩, ⟨0.14, 0.1425, 0⟩, ⟨0.26, -0.042, 0⟩, ⟨0.125, -0.1265, 0⟩, ⟨0.275, 0.031, 0⟩,
    ⟨0.11, 0.1053, 0⟩, ⟨0.0245, 0, 0⟩] 1e-4 &&
  r.jointType == [0, 0, 0, 0, 0, 0, 0] &&
  closeO r.lower [-3.0503, -3.8095, -3.0426, -3.0439, -2.9761, -2.9761, -4.7124] &&
  closeO r.upper [3.0503, 2.2736, 3.0426, 3.0439, 2.9761, 2.9761, 4.7124] &&
  closeO r.vel [1.74, 1.328, 1.957, 1.957, 3.485, 3.485, 4.545] && closeO r.acc [3.5, 2.5, 5.0, 5.0, 5.0, 5.0, 5.0] &&
  r.jointNames == some ["right_j0", "right_j1", "right_j2", "right_j3", "right_j4", "right_j5", "right_j6"] &&
  r.rootLink == some "right_arm_base_link" && r.tipLink == some "sawyer_electric_gripper" &&
  (match r.Rtool with | some R => closeM R (rot z (deg 5)) 1e-4 | none => false) &&
  (match r.ptool with | some p => closeV p ⟨0, 0, 0.1577⟩ 1e-4 | none => false) &&
  (match base, r.Tbase with | none, none => true | some B, some B' => B.isclose B' 1e-4 | _, _ => false) &&
  (match r.Tflange with
    | some F => (got (R2q F.R) fun q => closeL (q4 q) [-0.45451851, 0.54167662, -0.45452185, 0.54167264] 1e-4) && closeV F.p 0
    | none => false)
#guard got (load sawyerToolYaml) fun r => sawyerTest r (some ⟨rot z (-Elem.pi / 2), ⟨0.5, 0.23, 0.8⟩, none, none⟩)
#guard got (rrLoadRobotTool (fun _ => none) sawyerYaml gripperYaml) fun r => sawyerTest r none
#guard got (load ur5eYaml) fun _ => true
#guard got (load fanucYaml) fun _ => true

-- test_urdf_loader.py lines 28-42
def irbTest (r : Robot Float) : Bool :=
  closeCols r.H [z, y, y, x, y, x] 1e-4 &&
  closeCols r.P [⟨0, 0, 0.78⟩, ⟨0.32, 0, 0⟩, ⟨0, 0, 1.075⟩, ⟨0, 0, 0.2⟩, ⟨1.142, 0, 0⟩, ⟨0.2, 0, 0⟩, 0] 1e-4 &&
  r.jointType == [0, 0, 0, 0, 0, 0] &&
  closeO r.lower [-2.967, -1.134, -3.142, -5.236, -2.094, -6.283] 1e-4 && closeO r.upper [2.967, 1.4855, 1.222, 5.236, 2.094, 6.283] 1e-4 &&
  closeO r.vel [1.7453, 1.5707, 1.5707, 2.9671, 2.4435, 3.3161] 1e-4 &&
  (match r.Rtool with | some R => closeM R ⟨0, 0, 1, 0, 1, 0, -1, 0, 0⟩ 1e-4 | none => false) &&
  (match r.ptool with | some p => closeV p 0 | none => false)
#guard got (urdfLoad 100 irb6640Urdf none none) irbTest
#guard got (urdfLoad 100 irb6640TwistUrdf none none) irbTest

-- test_urdf_loader.py lines 44-74 (disabled there for lack of a ROS package; right `P` to within atol = 1e-4 plus the default rtol)
#guard match urdfLoad 100 sda10fUrdf none none with | .error .assertion => true | _ => false
#guard got (urdfLoad 100 sda10fUrdf none (some "arm_left_link_tool0")) fun r =>
  closeCols r.H [z, y, -z, y, z, -y, z, y] 1e-4 &&
  closeCols r.P [⟨0.0926, 0, 0.8835⟩, ⟨0.0999, 0.0275, 0.3221⟩, ⟨0, 0.2255, 0.0577⟩, ⟨0, 0.169, -0.0454⟩, ⟨0, 0.181, -0.0085⟩,
    ⟨0, 0.1936, 0.0155⟩, ⟨0, 0.155, 0.008⟩, ⟨0, 0.168, -0.015⟩, 0] 1e-4 &&
  closeO r.lower [-2.957, -3.13, -1.9, -2.95, -2.36, -3.13, -1.9, -3.13] 1e-4 &&
  closeO r.upper [2.957, 3.13, 1.9, 2.95, 2.36, 3.13, 1.9, 3.13] 1e-4 &&
  closeO r.vel [2.26, 2.95, 2.95, 2.95, 2.95, 3.48, 3.48, 6.97] 1e-4 &&
  (match r.ptool with | some p => closeV p 0 | none => false) &&
  (match r.Rtool with | some R => closeM R ⟨-1, 0, 0, 0, 0, -1, 0, -1, 0⟩ 1e-4 | none => false)
#guard got (urdfLoad 100 sda10fUrdf (some "torso_link_b1") (some "arm_right_link_tool0")) fun r =>
  closeCols r.H [y, z, y, -z, -y, -z, y] 1e-4 &&
  closeCols r.P [⟨0.1, -0.0275, 0.3221⟩, ⟨0, -0.2255, 0.0577⟩, ⟨0, -0.169, -0.0454⟩, ⟨0, -0.181, -0.0085⟩, ⟨0, -0.1936, 0.0155⟩,
    ⟨0, -0.155, 0.008⟩, ⟨0, -0.168, -0.015⟩, 0] 1.001e-4 &&
  closeO r.lower [-3.13, -1.9, -2.95, -2.36, -3.13, -1.9, -3.13] 1e-4 && closeO r.upper [3.13, 1.9, 2.95, 2.36, 3.13, 1.9, 3.13] 1e-4 &&
  closeO r.vel [2.95, 2.95, 2.95, 2.95, 3.48, 3.48, 6.97] 1e-4 &&
  (match r.ptool with | some p => closeV p 0 | none => false) &&
  (match r.Rtool with | some R => closeM R ⟨1, 0, 0, 0, 0, 1, 0, -1, 0⟩ 1e-4 | none => false)

-- test_tesseract_kinematics.py lines 202-235 and 412-421: the parameters of the analytic solvers
def opwTest (d : Yaml Float) (a1 a2 b c1 c2 c3 c4 o1 o2 : Float) : Bool :=
  got (load d) fun r => got (robotToOpw r) fun p =>
    closeL [p.a1, p.a2, p.b, p.c1, p.c2, p.c3, p.c4] [a1, a2, b, c1, c2, c3, c4] 1e-12 && closeL p.offsets [0, deg o1, deg o2, 0, 0, 0] 1e-7 &&
    p.signs == [1, 1, 1, 1, 1, 1]
#guard opwTest abb1200Yaml 0 (-0.042) 0 0.3991 0.448 0.451 0.082 0 (-90)
#guard opwTest rp260Yaml 0 0 (-0.12446) 0.3302 0.199034 0.2032 0.0635 (-95.49232456) 5.49232456
#guard got (load ur5eYaml) fun r => got (robotToUr r) fun p =>
  closeL [p.d1, p.a2, p.a3, p.d4, p.d5, p.d6] [0.1625, -0.425, -0.3922, 0.1333, 0.0997, 0.0996] 1e-12

-- test_tesseract_kinematics.py lines 309-327: names in the environment
#guard got (load sawyerToolYaml) fun r => got (robotToEnv r "sawyer" true none none) fun e =>
  e.1.links == ["world", "sawyer_base_link", "sawyer_link_1", "sawyer_link_2", "sawyer_link_3", "sawyer_link_4", "sawyer_link_5",
    "sawyer_link_6", "sawyer_link_7", "sawyer_chain_tip", "sawyer_flange", "sawyer_tool_tcp"] &&
  e.2.2 == ["sawyer_right_j0", "sawyer_right_j1", "sawyer_right_j2", "sawyer_right_j3", "sawyer_right_j4", "sawyer_right_j5",
    "sawyer_right_j6"]

/-! The plugin dictionary as PyYAML prints it (keys sorted), compared with the strings of the tests -/

def indent (n : Nat) : String := String.ofList (List.replicate n ' ')

partial def dump (n : Nat) : Yaml Float → String
  | .dict d => String.join ((d.mergeSort fun a b => a.1 ≤ b.1).map fun kv => match kv.2 with
      | .dict _ => indent n ++ kv.1 ++ ":\n" ++ dump (n + 2) kv.2
      | .list _ => indent n ++ kv.1 ++ ":\n" ++ dump n kv.2
      | v => indent n ++ kv.1 ++ ": " ++ dump n v ++ "\n")
  | .list l => String.join (l.map fun v => indent n ++ "- " ++ dump n v ++ "\n")
  | .str s => s
  | .int k => toString k
  | _ => "NUM"

-- test_tesseract_kinematics.py lines 237-262, with the numbers left out (they are compared above)
#guard got (load abb1200Yaml) fun r => got (robotToSceneGraph r) fun g =>
  got (pluginInfoDict r "my_robot" g.linkNames g.chainNames (some "OPWInvKin") none none none) fun d => dump 0 d ==
    "kinematic_plugins:\n  fwd_kin_plugins:\n    my_robot:\n      default: KDLFwdKinChain\n      plugins:\n        KDLFwdKinChain:\n          class: KDLFwdKinChainFactory\n          config:\n            base_link: base_link\n            tip_link: flange\n  inv_kin_plugins:\n    my_robot:\n      default: OPWInvKin\n      plugins:\n        OPWInvKin:\n          class: OPWInvKinFactory\n          config:\n            base_link: base_link\n            params:\n              a1: NUM\n              a2: NUM\n              b: NUM\n              c1: NUM\n              c2: NUM\n              c3: NUM\n              c4: NUM\n              offsets:\n              - NUM\n              - NUM\n              - NUM\n              - NUM\n              - NUM\n              - NUM\n              sign_corrections:\n              - 1\n              - 1\n              - 1\n              - 1\n              - 1\n              - 1\n            tip_link: my_robot_flange\n  search_libraries:\n  - tesseract_kinematics_opw_factories\n"

end FloatTests
