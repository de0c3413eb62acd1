import Verif.Model.RobotRaconteur
import Verif.Model.Urdf

/-!
# Test data (generated by tools/testdata.py from the YAML and URDF files in /repo/test)
-/
set_option autoImplicit false

namespace FloatTests

/-- `FANUC_m10ia_robot_default_config.yml` -/
def fanucYaml : Yaml Float :=
  .dict [("device_info", .dict [("device", .dict [("name", .str "fanuc_m10ia")]), ("manufacturer", .dict [("name", .str "FANUC"), ("uuid",
  .str "d80db3c2-3de8-41e3-97f9-62765a7063b8")]), ("model", .dict [("name", .str "m10ia"), ("uuid",
  .str "1d3f5111-01fa-4ecf-a11e-76810d5e1dde")]), ("user_description", .str "FANUC m10ia Robot"), ("serial_number", .int 123456789),
  ("device_classes", .list [.dict [("class_identifier", .dict [("name", .str "robot"), ("uuid",
  .str "39b513e7-21b9-4b49-8654-7537473030eb")]), ("subclasses", .list [.str "serial", .str "serial_six_axis", .str "cobot"])]]),
  ("implemented_types", .list [.str "com.robotraconteur.robotics.robot.Robot"])]), ("robot_type", .str "serial"), ("robot_capabilities",
  .list [.str "jog_command", .str "trajectory_command", .str "position_command", .str "velocity_command"]), ("chains",
  .list [.dict [("kin_chain_identifier", .str "robot_arm"), ("H", .list [.dict [("x", .num 0.0), ("y", .num 0.0), ("z", .num 1.0)],
  .dict [("x", .num 0.0), ("y", .num 1.0), ("z", .num 0.0)], .dict [("x", .num 0.0), ("y", .num (-1.0)), ("z", .num 0.0)], .dict [("x",
  .num (-1.0)), ("y", .num 0.0), ("z", .num 0.0)], .dict [("x", .num 0.0), ("y", .num (-1.0)), ("z", .num 0.0)], .dict [("x", .num (-1.0)),
  ("y", .num 0.0), ("z", .num 0.0)]]), ("P", .list [.dict [("x", .num 0.0), ("y", .num 0.0), ("z", .int 450)], .dict [("x", .int 150),
  ("y", .num 0.0), ("z", .num 0.0)], .dict [("x", .num 0.0), ("y", .num 0.0), ("z", .int 600)], .dict [("x", .num 0.0), ("y", .num 0.0),
  ("z", .int 200)], .dict [("x", .int 640), ("y", .num 0.0), ("z", .num 0.0)], .dict [("x", .int 100), ("y", .num 0.0), ("z", .num 0.0)],
  .dict [("x", .num 0.0), ("y", .num 0.0), ("z", .num 0.0)]]), ("flange_identifier", .str "tool0"), ("flange_pose", .dict [("orientation",
  .dict [("w", .num 0.7071067811882787), ("x", .num 0.0), ("y", .num 0.7071067811848163), ("z", .num 0.0)]), ("position", .dict [("x",
  .int 0), ("y", .num 0.0), ("z", .int 0)])]), ("joint_numbers", .list [.int 0, .int 1, .int 2, .int 3, .int 4, .int 5])]]), ("joint_info",
  .list [.dict [("default_effort_units", .str "newton_meter"), ("default_units", .str "radian"), ("joint_identifier", .str "joint_1"),
  ("joint_limits", .dict [("effort", .int 1000), ("lower", .num (-2.96705972)), ("upper", .num 2.96705972), ("velocity", .num 3.66519142),
  ("acceleration", .int 10)]), ("joint_type", .str "revolute"), ("passive", .bool false)], .dict [("default_effort_units",
  .str "newton_meter"), ("default_units", .str "radian"), ("joint_identifier", .str "joint_2"), ("joint_limits", .dict [("effort",
  .int 1000), ("lower", .num (-1.57079632)), ("upper", .num 2.7925268), ("velocity", .num 3.31612557), ("acceleration", .int 15)]),
  ("joint_type", .str "revolute"), ("passive", .bool false)], .dict [("default_effort_units", .str "newton_meter"), ("default_units",
  .str "radian"), ("joint_identifier", .str "joint_3"), ("joint_limits", .dict [("effort", .int 1000), ("lower", .num (-3.14159265)),
  ("upper", .num 1.55334303), ("velocity", .num 3.66519142), ("acceleration", .int 15)]), ("joint_type", .str "revolute"), ("passive",
  .bool false)], .dict [("default_effort_units", .str "newton_meter"), ("default_units", .str "radian"), ("joint_identifier",
  .str "joint_4"), ("joint_limits", .dict [("effort", .int 1000), ("lower", .num (-3.31612557)), ("upper", .num 3.31612557), ("velocity",
  .num 6.981317), ("acceleration", .int 20)]), ("joint_type", .str "revolute"), ("passive", .bool false)], .dict [("default_effort_units",
  .str "newton_meter"), ("default_units", .str "radian"), ("joint_identifier", .str "joint_5"), ("joint_limits", .dict [("effort",
  .int 1000), ("lower", .num (-2.44346095)), ("upper", .num 2.44346095), ("velocity", .num 6.981317), ("acceleration", .int 20)]),
  ("joint_type", .str "revolute"), ("passive", .bool false)], .dict [("default_effort_units", .str "newton_meter"), ("default_units",
  .str "radian"), ("joint_identifier", .str "joint_6"), ("joint_limits", .dict [("effort", .int 1000), ("lower", .num (-6.28318530718)),
  ("upper", .num 6.28318530718), ("velocity", .num 10.47197551), ("acceleration", .int 20)]), ("joint_type", .str "revolute"), ("passive",
  .bool false)]])]

/-- `abb_1200_5_90_robot_default_config.yml` -/
def abb1200Yaml : Yaml Float :=
  .dict [("device_info", .dict [("device", .dict [("name", .str "abb_robot")]), ("manufacturer", .dict [("name", .str "ABB"), ("uuid",
  .str "ee260e78-d731-415a-84ca-4b02c487410c")]), ("model", .dict [("name", .str "ABB_1200_5_90"), ("uuid",
  .str "9ad3c0ee-ec5e-4057-a297-d340e1484f01")]), ("user_description", .str "ABB Robot"), ("serial_number", .int 123456789),
  ("device_classes", .list [.dict [("class_identifier", .dict [("name", .str "robot"), ("uuid",
  .str "39b513e7-21b9-4b49-8654-7537473030eb")]), ("subclasses", .list [.str "serial", .str "serial_six_axis"])]]), ("implemented_types",
  .list [.str "com.robotraconteur.robotics.robot.Robot"])]), ("robot_type", .str "serial"), ("robot_capabilities",
  .list [.str "jog_command", .str "trajectory_command", .str "position_command"]), ("chains", .list [.dict [("kin_chain_identifier",
  .str "robot_arm"), ("H", .list [.dict [("x", .num 0.0), ("y", .num 0.0), ("z", .num 1.0)], .dict [("x", .num 0.0), ("y", .num 1.0), ("z",
  .num 0.0)], .dict [("x", .num 0.0), ("y", .num 1.0), ("z", .num 0.0)], .dict [("x", .num 1.0), ("y", .num 0.0), ("z", .num 0.0)],
  .dict [("x", .num 0.0), ("y", .num 1.0), ("z", .num 0.0)], .dict [("x", .num 1.0), ("y", .num 0.0), ("z", .num 0.0)]]), ("P",
  .list [.dict [("x", .num 0.0), ("y", .num 0.0), ("z", .num 0.3991)], .dict [("x", .num 0.0), ("y", .num 0.0), ("z", .num 0.0)],
  .dict [("x", .num 0.0), ("y", .num 0.0), ("z", .num 0.448)], .dict [("x", .num 0.0), ("y", .num 0.0), ("z", .num 0.042)], .dict [("x",
  .num 0.451), ("y", .num 0.0), ("z", .num 0.0)], .dict [("x", .num 0.082), ("y", .num 0.0), ("z", .num 0.0)], .dict [("x", .num 0.0),
  ("y", .num 0.0), ("z", .num 0.0)]]), ("flange_identifier", .str "tool0"), ("flange_pose", .dict [("orientation", .dict [("w",
  .num 0.7071067811882787), ("x", .num 0.0), ("y", .num 0.7071067811848163), ("z", .num 0.0)]), ("position", .dict [("x", .num 0.0), ("y",
  .num 0.0), ("z", .num 0.0)])]), ("joint_numbers", .list [.int 0, .int 1, .int 2, .int 3, .int 4, .int 5])]]), ("joint_info",
  .list [.dict [("default_effort_units", .str "newton_meter"), ("default_units", .str "radian"), ("joint_identifier", .str "joint_1"),
  ("joint_limits", .dict [("effort", .num 1000.0), ("lower", .num (-2.967)), ("upper", .num 2.967), ("velocity", .num 5.027),
  ("acceleration", .int 10)]), ("joint_type", .str "revolute"), ("passive", .bool false)], .dict [("default_effort_units",
  .str "newton_meter"), ("default_units", .str "radian"), ("joint_identifier", .str "joint_2"), ("joint_limits", .dict [("effort",
  .num 1000.0), ("lower", .num (-1.745)), ("upper", .num 2.269), ("velocity", .num 4.189), ("acceleration", .int 15)]), ("joint_type",
  .str "revolute"), ("passive", .bool false)], .dict [("default_effort_units", .str "newton_meter"), ("default_units", .str "radian"),
  ("joint_identifier", .str "joint_3"), ("joint_limits", .dict [("effort", .num 1000.0), ("lower", .num (-3.491)), ("upper", .num 1.222),
  ("velocity", .num 5.236), ("acceleration", .int 15)]), ("joint_type", .str "revolute"), ("passive", .bool false)],
  .dict [("default_effort_units", .str "newton_meter"), ("default_units", .str "radian"), ("joint_identifier", .str "joint_4"),
  ("joint_limits", .dict [("effort", .num 1000.0), ("lower", .num (-4.712)), ("upper", .num 4.712), ("velocity", .num 6.981),
  ("acceleration", .int 20)]), ("joint_type", .str "revolute"), ("passive", .bool false)], .dict [("default_effort_units",
  .str "newton_meter"), ("default_units", .str "radian"), ("joint_identifier", .str "joint_5"), ("joint_limits", .dict [("effort",
  .num 1000.0), ("lower", .num (-2.269)), ("upper", .num 2.269), ("velocity", .num 7.069), ("acceleration", .int 20)]), ("joint_type",
  .str "revolute"), ("passive", .bool false)], .dict [("default_effort_units", .str "newton_meter"), ("default_units", .str "radian"),
  ("joint_identifier", .str "joint_6"), ("joint_limits", .dict [("effort", .num 1000.0), ("lower", .num (-6.283)), ("upper", .num 6.283),
  ("velocity", .num 10.472), ("acceleration", .int 20)]), ("joint_type", .str "revolute"), ("passive", .bool false)]])]

/-- `rp260_robot_default_config.yml` -/
def rp260Yaml : Yaml Float :=
  .dict [("device_info", .dict [("device", .dict [("name", .str "rp260_robot")]), ("manufacturer", .dict [("name", .str "RP_Automation"),
  ("uuid", .str "e14a3241-159d-4c25-81fb-19eff378d5b3")]), ("model", .dict [("name", .str "RP260"), ("uuid",
  .str "3fd21c0a-8f15-4d0a-84af-2ce5f9f71979")]), ("user_description", .str "RP Automation 260 Robot"), ("serial_number", .int 123456789),
  ("device_classes", .list [.dict [("class_identifier", .dict [("name", .str "robot"), ("uuid",
  .str "39b513e7-21b9-4b49-8654-7537473030eb")]), ("subclasses", .list [.str "serial", .str "serial_six_axis"])]]), ("implemented_types",
  .list [.str "com.robotraconteur.robotics.robot.Robot"]), ("device_origin_pose", .dict [("pose", .dict [("orientation", .dict [("w",
  .num 0.707107), ("x", .int 0), ("y", .int 0), ("z", .num (-0.707107))]), ("position", .dict [("x", .num 0.5), ("y", .num 0.23), ("z",
  .num 0.8)])])])]), ("robot_type", .str "serial"), ("robot_capabilities", .list [.str "jog_command", .str "trajectory_command",
  .str "position_command"]), ("chains", .list [.dict [("kin_chain_identifier", .str "robot_arm"), ("H", .list [.dict [("x", .num 0.0),
  ("y", .num 0.0), ("z", .num 1.0)], .dict [("x", .num 0.0), ("y", .num 1.0), ("z", .num 0.0)], .dict [("x", .num 0.0), ("y", .num 1.0),
  ("z", .num 0.0)], .dict [("x", .num 1.0), ("y", .num 0.0), ("z", .num 0.0)], .dict [("x", .num 0.0), ("y", .num 1.0), ("z", .num 0.0)],
  .dict [("x", .num 1.0), ("y", .num 0.0), ("z", .num 0.0)]]), ("P", .list [.dict [("x", .num 0.0), ("y", .num 0.0), ("z", .num 0.3302)],
  .dict [("x", .num 0.0), ("y", .num 0.0), ("z", .num 0.0)], .dict [("x", .num 0.19812), ("y", .num (-0.12446)), ("z", .num (-0.01905))],
  .dict [("x", .num 0.2032), ("y", .num 0.0), ("z", .num 0.0)], .dict [("x", .num 0.0), ("y", .num 0.0), ("z", .num 0.0)], .dict [("x",
  .num 0.0635), ("y", .num 0.0), ("z", .num 0.0)], .dict [("x", .num 0.0), ("y", .num 0.0), ("z", .num 0.0)]]), ("flange_identifier",
  .str "tool0"), ("flange_pose", .dict [("orientation", .dict [("w", .num 0.7071067811882787), ("x", .num 0.0), ("y",
  .num 0.7071067811848163), ("z", .num 0.0)]), ("position", .dict [("x", .num 0.0), ("y", .num 0.0), ("z", .num 0.0)])]), ("joint_numbers",
  .list [.int 0, .int 1, .int 2, .int 3, .int 4, .int 5])]]), ("joint_info", .list [.dict [("default_effort_units", .str "newton_meter"),
  ("default_units", .str "radian"), ("joint_identifier", .str "joint_1"), ("joint_limits", .dict [("effort", .num 100.0), ("lower",
  .num (-1.57079632679)), ("upper", .num 3.49065850399), ("velocity", .num 2.07694180987), ("acceleration", .int 1)]), ("joint_type",
  .str "revolute"), ("passive", .bool false)], .dict [("default_effort_units", .str "newton_meter"), ("default_units", .str "radian"),
  ("joint_identifier", .str "joint_2"), ("joint_limits", .dict [("effort", .num 100.0), ("lower", .num (-4.18879020479)), ("upper",
  .num 1.308996939), ("velocity", .num 2.07694180987), ("acceleration", .int 1)]), ("joint_type", .str "revolute"), ("passive",
  .bool false)], .dict [("default_effort_units", .str "newton_meter"), ("default_units", .str "radian"), ("joint_identifier",
  .str "joint_3"), ("joint_limits", .dict [("effort", .num 100.0), ("lower", .num (-2.53072741539)), ("upper", .num 2.53072741539),
  ("velocity", .num 2.86233997327), ("acceleration", .int 1)]), ("joint_type", .str "revolute"), ("passive", .bool false)],
  .dict [("default_effort_units", .str "newton_meter"), ("default_units", .str "radian"), ("joint_identifier", .str "joint_4"),
  ("joint_limits", .dict [("effort", .num 100.0), ("lower", .num (-3.22885911619)), ("upper", .num 6.28318530718), ("velocity",
  .num 10.070549784), ("acceleration", .int 1)]), ("joint_type", .str "revolute"), ("passive", .bool false)],
  .dict [("default_effort_units", .str "newton_meter"), ("default_units", .str "radian"), ("joint_identifier", .str "joint_5"),
  ("joint_limits", .dict [("effort", .num 100.0), ("lower", .num (-2.09439510239)), ("upper", .num 2.09439510239), ("velocity",
  .num 7.5223690761), ("acceleration", .int 1)]), ("joint_type", .str "revolute"), ("passive", .bool false)],
  .dict [("default_effort_units", .str "newton_meter"), ("default_units", .str "radian"), ("joint_identifier", .str "joint_6"),
  ("joint_limits", .dict [("effort", .num 100.0), ("lower", .num (-6.28318530718)), ("upper", .num 1.57079632679), ("velocity",
  .num 6.92895713042), ("acceleration", .int 1)]), ("joint_type", .str "revolute"), ("passive", .bool false)]])]

/-- `sawyer_electric_gripper_default_config.yml` -/
def gripperYaml : Yaml Float :=
  .dict [("device_info", .dict [("device", .dict [("name", .str "sawyer_electric_gripper")]), ("manufacturer", .dict [("name",
  .str "Rethink_Robotics"), ("uuid", .str "82d22757-bbfc-44ca-9edb-8824c4a1943e")]), ("model", .dict [("name",
  .str "Sawyer_Electric_Gripper"), ("uuid", .str "f9521686-6acc-4718-a637-f276463bfc3c")]), ("user_description",
  .str "Rethink Robotics Sawyer Electric Gripper"), ("serial_number", .int 123456789), ("device_classes",
  .list [.dict [("class_identifier", .dict [("name", .str "gripper"), ("uuid", .str "ee974ee5-a5de-49c4-8fe6-831df8f2821c")]),
  ("subclasses", .list [.str "electric"])]]), ("implemented_types", .list [.str "com.robotraconteur.robotics.tool.Tool"])]), ("tool_type",
  .str "electric_gripper"), ("tool_capabilities", .list [.str "open_close_command", .str "continuous_command", .str "homing_command"]),
  ("tcp", .dict [("translation", .dict [("x", .int 0), ("y", .int 0), ("z", .num 0.1577)]), ("rotation", .dict [("x", .int 0), ("y",
  .int 0), ("z", .num 0.043619), ("w", .num 0.999048)])]), ("close_position", .int 0), ("open_position", .num 0.041667), ("command_min",
  .int 0), ("command_max", .num 0.041667), ("command_close", .int 0), ("command_open", .num 0.041667), ("sensor_min", .list [.int 0]),
  ("sensor_max", .list [.int 100])]

/-- `sawyer_robot_default_config.yml` -/
def sawyerYaml : Yaml Float :=
  .dict [("device_info", .dict [("device", .dict [("name", .str "sawyer_robot")]), ("manufacturer", .dict [("name", .str "Rethink_Robotics"),
  ("uuid", .str "82d22757-bbfc-44ca-9edb-8824c4a1943e")]), ("model", .dict [("name", .str "Sawyer"), ("uuid",
  .str "f965af3f-da91-41d7-be0f-871207c2185d")]), ("user_description", .str "Rethink Robotics Sawyer Robot"), ("serial_number",
  .int 123456789), ("device_classes", .list [.dict [("class_identifier", .dict [("name", .str "robot"), ("uuid",
  .str "39b513e7-21b9-4b49-8654-7537473030eb")]), ("subclasses", .list [.str "serial", .str "serial_seven_axis", .str "cobot"])]]),
  ("implemented_types", .list [.str "com.robotraconteur.robotics.robot.Robot"])]), ("robot_type", .str "serial"), ("robot_capabilities",
  .list [.str "jog_command", .str "trajectory_command", .str "position_command", .str "velocity_command", .str "homing_command",
  .str "software_reset_errors", .str "software_enable"]), ("chains", .list [.dict [("kin_chain_identifier", .str "right_arm"), ("H",
  .list [.dict [("x", .num 0.0), ("y", .num 0.0), ("z", .num 1.0)], .dict [("x", .num 4.896638650109253e-12), ("y", .num 1.0), ("z",
  .num 2.3977070069743767e-23)], .dict [("x", .num 1.0), ("y", .num 0.0), ("z", .num 4.896638650109253e-12)], .dict [("x",
  .num 4.896638650109253e-12), ("y", .num 1.0), ("z", .num 2.3977070069743767e-23)], .dict [("x", .num 1.0), ("y", .num 0.0), ("z",
  .num 4.896638650109253e-12)], .dict [("x", .num 4.896638650109253e-12), ("y", .num 1.0), ("z", .num 2.3977070069743767e-23)],
  .dict [("x", .num 0.9999999999730151), ("y", .num (-7.438845639614214e-14)), ("z", .num (-7.346406160283209e-06))]]), ("P",
  .list [.dict [("x", .num 0.0), ("y", .num 0.0), ("z", .num 0.08)], .dict [("x", .num 0.081), ("y", .num 0.05), ("z", .num 0.237)],
  .dict [("x", .num 0.1400000000006978), ("y", .num 0.14249999999931445), ("z", .num 6.855294110187123e-13)], .dict [("x", .num 0.26),
  ("y", .num (-0.042)), ("z", .num 1.2731260490284059e-12)], .dict [("x", .num 0.12499999999938058), ("y", .num (-0.12650000000061207)),
  ("z", .num 6.120798312606236e-13)], .dict [("x", .num 0.275), ("y", .num 0.031), ("z", .num 1.3465756287800448e-12)], .dict [("x",
  .num 0.11000000000051562), ("y", .num 0.10529999999946138), ("z", .num 5.386302515145426e-13)], .dict [("x", .num 0.024499999999338874),
  ("y", .num (-1.8225171817054826e-15)), ("z", .num (-1.7998695092693863e-07))]]), ("link_identifiers", .list [.str "right_arm_base_link",
  .str "right_l0", .str "right_l1", .str "right_l2", .str "right_l3", .str "right_l4", .str "right_l5", .str "right_l6"]),
  ("flange_identifier", .str "right_hand"), ("flange_pose", .dict [("orientation", .dict [("w", .num (-0.4545185118693182)), ("x",
  .num 0.5416766195837562), ("y", .num (-0.4545218509592193)), ("z", .num 0.5416726402219519)]), ("position", .dict [("x", .num 0.0), ("y",
  .num 0.0), ("z", .num 0.0)])]), ("joint_numbers", .list [.int 0, .int 1, .int 2, .int 3, .int 4, .int 5, .int 6]), ("link_inertias",
  .list [.dict [("com", .dict [("x", .num (-0.0006241)), ("y", .num (-2.8025e-05)), ("z", .num 0.065404)]), ("ixx",
  .num 0.006759900000000001), ("ixy", .num (-4.2024e-05)), ("ixz", .num (-6.190400000000048e-07)), ("iyy", .num 0.006787700000000001),
  ("iyz", .num 1.5888e-05), ("izz", .num 0.0074031), ("m", .num 2.0687)], .dict [("com", .dict [("x", .num 0.024366000000000002), ("y",
  .num 0.010969), ("z", .num 0.14363)]), ("ixx", .num 0.053314), ("ixy", .num 0.0047093), ("ixz", .num 0.011734000000000003), ("iyy",
  .num 0.05790200000000001), ("iyz", .num 0.0080179), ("izz", .num 0.023659), ("m", .num 5.3213)], .dict [("com", .dict [("x",
  .num (-0.0030849)), ("y", .num (-0.026811)), ("z", .num 0.092521)]), ("ixx", .num 0.022398), ("ixy", .num (-0.00023986)), ("ixz",
  .num (-0.0002936200000000001)), ("iyy", .num 0.014613000000000001), ("iyz", .num (-0.0060875)), ("izz", .num 0.017295), ("m",
  .num 4.505)], .dict [("com", .dict [("x", .num (-0.00016044)), ("y", .num (-0.014967)), ("z", .num 0.13582)]), ("ixx", .num 0.025506),
  ("ixy", .num 4.4101e-06), ("ixz", .num 1.4955000000000002e-05), ("iyy", .num 0.025300000000000003), ("iyz", .num (-0.0033204)), ("izz",
  .num 0.0034179), ("m", .num 1.745)], .dict [("com", .dict [("x", .num (-0.0048135)), ("y", .num (-0.028100000000000003)), ("z",
  .num (-0.084154))]), ("ixx", .num 0.010160000000000002), ("ixy", .num (-9.745199999999874e-06)), ("ixz", .num 0.00026624000000000005),
  ("iyy", .num 0.006568499999999998), ("iyz", .num 0.003031600000000002), ("izz", .num 0.0069078), ("m", .num 2.5097)], .dict [("com",
  .dict [("x", .num (-0.0018844)), ("y", .num 0.0069001), ("z", .num 0.1341)]), ("ixx", .num 0.013557), ("ixy",
  .num 1.8109000000000002e-05), ("ixz", .num 0.00013522999999999996), ("iyy", .num 0.013554999999999998), ("iyz", .num 0.0010561), ("izz",
  .num 0.0013658), ("m", .num 1.1136)], .dict [("com", .dict [("x", .num 0.0061133), ("y", .num (-0.023697)), ("z", .num 0.076416)]),
  ("ixx", .num 0.0047328000000000005), ("ixy", .num 0.00011526000000000003), ("ixz", .num 4.626900000000004e-05), ("iyy",
  .num 0.002967599999999999), ("iyz", .num (-0.0011557)), ("izz", .num 0.0031762000000000006), ("m", .num 1.5625)], .dict [("com",
  .dict [("x", .num (-8.0726e-06)), ("y", .num 0.0085838), ("z", .num (-0.0049566))]), ("ixx", .num 0.00031105), ("ixy", .num 1.4771e-06),
  ("ixz", .num (-3.7074e-07)), ("iyy", .num 0.00021549), ("iyz", .num (-8.4533e-06)), ("izz", .num 0.00035976), ("m", .num 0.3292)]])]]),
  ("joint_info", .list [.dict [("default_effort_units", .str "newton_meter"), ("default_units", .str "radian"), ("joint_identifier",
  .str "right_j0"), ("joint_limits", .dict [("effort", .num 80.0), ("lower", .num (-3.0503)), ("upper", .num 3.0503), ("velocity",
  .num 1.74), ("acceleration", .num 3.5)]), ("joint_type", .str "revolute"), ("passive", .bool false)], .dict [("default_effort_units",
  .str "newton_meter"), ("default_units", .str "radian"), ("joint_identifier", .str "right_j1"), ("joint_limits", .dict [("effort",
  .num 80.0), ("lower", .num (-3.8095)), ("upper", .num 2.2736), ("velocity", .num 1.328), ("acceleration", .num 2.5)]), ("joint_type",
  .str "revolute"), ("passive", .bool false)], .dict [("default_effort_units", .str "newton_meter"), ("default_units", .str "radian"),
  ("joint_identifier", .str "right_j2"), ("joint_limits", .dict [("effort", .num 40.0), ("lower", .num (-3.0426)), ("upper", .num 3.0426),
  ("velocity", .num 1.957), ("acceleration", .num 5.0)]), ("joint_type", .str "revolute"), ("passive", .bool false)],
  .dict [("default_effort_units", .str "newton_meter"), ("default_units", .str "radian"), ("joint_identifier", .str "right_j3"),
  ("joint_limits", .dict [("effort", .num 40.0), ("lower", .num (-3.0439)), ("upper", .num 3.0439), ("velocity", .num 1.957),
  ("acceleration", .num 5.0)]), ("joint_type", .str "revolute"), ("passive", .bool false)], .dict [("default_effort_units",
  .str "newton_meter"), ("default_units", .str "radian"), ("joint_identifier", .str "right_j4"), ("joint_limits", .dict [("effort",
  .num 9.0), ("lower", .num (-2.9761)), ("upper", .num 2.9761), ("velocity", .num 3.485), ("acceleration", .num 5.0)]), ("joint_type",
  .str "revolute"), ("passive", .bool false)], .dict [("default_effort_units", .str "newton_meter"), ("default_units", .str "radian"),
  ("joint_identifier", .str "right_j5"), ("joint_limits", .dict [("effort", .num 9.0), ("lower", .num (-2.9761)), ("upper", .num 2.9761),
  ("velocity", .num 3.485), ("acceleration", .num 5.0)]), ("joint_type", .str "revolute"), ("passive", .bool false)],
  .dict [("default_effort_units", .str "newton_meter"), ("default_units", .str "radian"), ("joint_identifier", .str "right_j6"),
  ("joint_limits", .dict [("effort", .num 9.0), ("lower", .num (-4.7124)), ("upper", .num 4.7124), ("velocity", .num 4.545),
  ("acceleration", .num 5.0)]), ("joint_type", .str "revolute"), ("passive", .bool false)]])]

/-- `sawyer_robot_with_electric_gripper_config.yml` -/
def sawyerToolYaml : Yaml Float :=
  .dict [("device_info", .dict [("device", .dict [("name", .str "sawyer_robot")]), ("manufacturer", .dict [("name", .str "Rethink_Robotics"),
  ("uuid", .str "82d22757-bbfc-44ca-9edb-8824c4a1943e")]), ("model", .dict [("name", .str "Sawyer"), ("uuid",
  .str "f965af3f-da91-41d7-be0f-871207c2185d")]), ("device_origin_pose", .dict [("pose", .dict [("orientation", .dict [("w",
  .num 0.707107), ("x", .int 0), ("y", .int 0), ("z", .num (-0.707107))]), ("position", .dict [("x", .num 0.5), ("y", .num 0.23), ("z",
  .num 0.8)])])]), ("user_description", .str "Rethink Robotics Sawyer Robot"), ("serial_number", .int 123456789), ("device_classes",
  .list [.dict [("class_identifier", .dict [("name", .str "robot"), ("uuid", .str "39b513e7-21b9-4b49-8654-7537473030eb")]), ("subclasses",
  .list [.str "serial", .str "serial_seven_axis", .str "cobot"])]]), ("implemented_types",
  .list [.str "com.robotraconteur.robotics.robot.Robot"])]), ("robot_type", .str "serial"), ("robot_capabilities",
  .list [.str "jog_command", .str "trajectory_command", .str "position_command", .str "velocity_command", .str "homing_command",
  .str "software_reset_errors", .str "software_enable"]), ("chains", .list [.dict [("kin_chain_identifier", .str "right_arm"), ("H",
  .list [.dict [("x", .num 0.0), ("y", .num 0.0), ("z", .num 1.0)], .dict [("x", .num 4.896638650109253e-12), ("y", .num 1.0), ("z",
  .num 2.3977070069743767e-23)], .dict [("x", .num 1.0), ("y", .num 0.0), ("z", .num 4.896638650109253e-12)], .dict [("x",
  .num 4.896638650109253e-12), ("y", .num 1.0), ("z", .num 2.3977070069743767e-23)], .dict [("x", .num 1.0), ("y", .num 0.0), ("z",
  .num 4.896638650109253e-12)], .dict [("x", .num 4.896638650109253e-12), ("y", .num 1.0), ("z", .num 2.3977070069743767e-23)],
  .dict [("x", .num 0.9999999999730151), ("y", .num (-7.438845639614214e-14)), ("z", .num (-7.346406160283209e-06))]]), ("P",
  .list [.dict [("x", .num 0.0), ("y", .num 0.0), ("z", .num 0.08)], .dict [("x", .num 0.081), ("y", .num 0.05), ("z", .num 0.237)],
  .dict [("x", .num 0.1400000000006978), ("y", .num 0.14249999999931445), ("z", .num 6.855294110187123e-13)], .dict [("x", .num 0.26),
  ("y", .num (-0.042)), ("z", .num 1.2731260490284059e-12)], .dict [("x", .num 0.12499999999938058), ("y", .num (-0.12650000000061207)),
  ("z", .num 6.120798312606236e-13)], .dict [("x", .num 0.275), ("y", .num 0.031), ("z", .num 1.3465756287800448e-12)], .dict [("x",
  .num 0.11000000000051562), ("y", .num 0.10529999999946138), ("z", .num 5.386302515145426e-13)], .dict [("x", .num 0.024499999999338874),
  ("y", .num (-1.8225171817054826e-15)), ("z", .num (-1.7998695092693863e-07))]]), ("link_identifiers", .list [.str "right_arm_base_link",
  .str "right_l0", .str "right_l1", .str "right_l2", .str "right_l3", .str "right_l4", .str "right_l5", .str "right_l6"]),
  ("flange_identifier", .str "right_hand"), ("flange_pose", .dict [("orientation", .dict [("w", .num (-0.4545185118693182)), ("x",
  .num 0.5416766195837562), ("y", .num (-0.4545218509592193)), ("z", .num 0.5416726402219519)]), ("position", .dict [("x", .num 0.0), ("y",
  .num 0.0), ("z", .num 0.0)])]), ("joint_numbers", .list [.int 0, .int 1, .int 2, .int 3, .int 4, .int 5, .int 6]), ("link_inertias",
  .list [.dict [("com", .dict [("x", .num (-0.0006241)), ("y", .num (-2.8025e-05)), ("z", .num 0.065404)]), ("ixx",
  .num 0.006759900000000001), ("ixy", .num (-4.2024e-05)), ("ixz", .num (-6.190400000000048e-07)), ("iyy", .num 0.006787700000000001),
  ("iyz", .num 1.5888e-05), ("izz", .num 0.0074031), ("m", .num 2.0687)], .dict [("com", .dict [("x", .num 0.024366000000000002), ("y",
  .num 0.010969), ("z", .num 0.14363)]), ("ixx", .num 0.053314), ("ixy", .num 0.0047093), ("ixz", .num 0.011734000000000003), ("iyy",
  .num 0.05790200000000001), ("iyz", .num 0.0080179), ("izz", .num 0.023659), ("m", .num 5.3213)], .dict [("com", .dict [("x",
  .num (-0.0030849)), ("y", .num (-0.026811)), ("z", .num 0.092521)]), ("ixx", .num 0.022398), ("ixy", .num (-0.00023986)), ("ixz",
  .num (-0.0002936200000000001)), ("iyy", .num 0.014613000000000001), ("iyz", .num (-0.0060875)), ("izz", .num 0.017295), ("m",
  .num 4.505)], .dict [("com", .dict [("x", .num (-0.00016044)), ("y", .num (-0.014967)), ("z", .num 0.13582)]), ("ixx", .num 0.025506),
  ("ixy", .num 4.4101e-06), ("ixz", .num 1.4955000000000002e-05), ("iyy", .num 0.025300000000000003), ("iyz", .num (-0.0033204)), ("izz",
  .num 0.0034179), ("m", .num 1.745)], .dict [("com", .dict [("x", .num (-0.0048135)), ("y", .num (-0.028100000000000003)), ("z",
  .num (-0.084154))]), ("ixx", .num 0.010160000000000002), ("ixy", .num (-9.745199999999874e-06)), ("ixz", .num 0.00026624000000000005),
  ("iyy", .num 0.006568499999999998), ("iyz", .num 0.003031600000000002), ("izz", .num 0.0069078), ("m", .num 2.5097)], .dict [("com",
  .dict [("x", .num (-0.0018844)), ("y", .num 0.0069001), ("z", .num 0.1341)]), ("ixx", .num 0.013557), ("ixy",
  .num 1.8109000000000002e-05), ("ixz", .num 0.00013522999999999996), ("iyy", .num 0.013554999999999998), ("iyz", .num 0.0010561), ("izz",
  .num 0.0013658), ("m", .num 1.1136)], .dict [("com", .dict [("x", .num 0.0061133), ("y", .num (-0.023697)), ("z", .num 0.076416)]),
  ("ixx", .num 0.0047328000000000005), ("ixy", .num 0.00011526000000000003), ("ixz", .num 4.626900000000004e-05), ("iyy",
  .num 0.002967599999999999), ("iyz", .num (-0.0011557)), ("izz", .num 0.0031762000000000006), ("m", .num 1.5625)], .dict [("com",
  .dict [("x", .num (-8.0726e-06)), ("y", .num 0.0085838), ("z", .num (-0.0049566))]), ("ixx", .num 0.00031105), ("ixy", .num 1.4771e-06),
  ("ixz", .num (-3.7074e-07)), ("iyy", .num 0.00021549), ("iyz", .num (-8.4533e-06)), ("izz", .num 0.00035976), ("m", .num 0.3292)]]),
  ("current_tool", .dict [("device_info", .dict [("device", .dict [("name", .str "sawyer_electric_gripper")]), ("manufacturer",
  .dict [("name", .str "Rethink_Robotics"), ("uuid", .str "82d22757-bbfc-44ca-9edb-8824c4a1943e")]), ("model", .dict [("name",
  .str "Sawyer_Electric_Gripper"), ("uuid", .str "f9521686-6acc-4718-a637-f276463bfc3c")]), ("user_description",
  .str "Rethink Robotics Sawyer Electric Gripper"), ("serial_number", .int 123456789), ("device_classes",
  .list [.dict [("class_identifier", .dict [("name", .str "gripper"), ("uuid", .str "ee974ee5-a5de-49c4-8fe6-831df8f2821c")]),
  ("subclasses", .list [.str "electric"])]]), ("implemented_types", .list [.str "com.robotraconteur.robotics.tool.Tool"])]), ("tool_type",
  .str "electric_gripper"), ("tool_capabilities", .list [.str "open_close_command", .str "continuous_command", .str "homing_command"]),
  ("tcp", .dict [("translation", .dict [("x", .int 0), ("y", .int 0), ("z", .num 0.1577)]), ("rotation", .dict [("x", .int 0), ("y",
  .int 0), ("z", .num 0.043619), ("w", .num 0.999048)])]), ("close_position", .int 0), ("open_position", .num 0.041667), ("command_min",
  .int 0), ("command_max", .num 0.041667), ("command_close", .int 0), ("command_open", .num 0.041667), ("sensor_min", .list [.int 0]),
  ("sensor_max", .list [.int 100])])]]), ("joint_info", .list [.dict [("default_effort_units", .str "newton_meter"), ("default_units",
  .str "radian"), ("joint_identifier", .str "right_j0"), ("joint_limits", .dict [("effort", .num 80.0), ("lower", .num (-3.0503)),
  ("upper", .num 3.0503), ("velocity", .num 1.74), ("acceleration", .num 3.5)]), ("joint_type", .str "revolute"), ("passive",
  .bool false)], .dict [("default_effort_units", .str "newton_meter"), ("default_units", .str "radian"), ("joint_identifier",
  .str "right_j1"), ("joint_limits", .dict [("effort", .num 80.0), ("lower", .num (-3.8095)), ("upper", .num 2.2736), ("velocity",
  .num 1.328), ("acceleration", .num 2.5)]), ("joint_type", .str "revolute"), ("passive", .bool false)], .dict [("default_effort_units",
  .str "newton_meter"), ("default_units", .str "radian"), ("joint_identifier", .str "right_j2"), ("joint_limits", .dict [("effort",
  .num 40.0), ("lower", .num (-3.0426)), ("upper", .num 3.0426), ("velocity", .num 1.957), ("acceleration", .num 5.0)]), ("joint_type",
  .str "revolute"), ("passive", .bool false)], .dict [("default_effort_units", .str "newton_meter"), ("default_units", .str "radian"),
  ("joint_identifier", .str "right_j3"), ("joint_limits", .dict [("effort", .num 40.0), ("lower", .num (-3.0439)), ("upper", .num 3.0439),
  ("velocity", .num 1.957), ("acceleration", .num 5.0)]), ("joint_type", .str "revolute"), ("passive", .bool false)],
  .dict [("default_effort_units", .str "newton_meter"), ("default_units", .str "radian"), ("joint_identifier", .str "right_j4"),
  ("joint_limits", .dict [("effort", .num 9.0), ("lower", .num (-2.9761)), ("upper", .num 2.9761), ("velocity", .num 3.485),
  ("acceleration", .num 5.0)]), ("joint_type", .str "revolute"), ("passive", .bool false)], .dict [("default_effort_units",
  .str "newton_meter"), ("default_units", .str "radian"), ("joint_identifier", .str "right_j5"), ("joint_limits", .dict [("effort",
  .num 9.0), ("lower", .num (-2.9761)), ("upper", .num 2.9761), ("velocity", .num 3.485), ("acceleration", .num 5.0)]), ("joint_type",
  .str "revolute"), ("passive", .bool false)], .dict [("default_effort_units", .str "newton_meter"), ("default_units", .str "radian"),
  ("joint_identifier", .str "right_j6"), ("joint_limits", .dict [("effort", .num 9.0), ("lower", .num (-4.7124)), ("upper", .num 4.7124),
  ("velocity", .num 4.545), ("acceleration", .num 5.0)]), ("joint_type", .str "revolute"), ("passive", .bool false)]])]

/-- `ur5e_robot_default_config.yml` -/
def ur5eYaml : Yaml Float :=
  .dict [("device_info", .dict [("device", .dict [("name", .str "ur5e_robot")]), ("manufacturer", .dict [("name", .str "Universal_Robots"),
  ("uuid", .str "d80db3c2-3de8-41e3-97f9-62765a7063b8")]), ("model", .dict [("name", .str "UR5e"), ("uuid",
  .str "774ab965-651e-4d8e-876c-7d3732120d5b")]), ("user_description", .str "Universal Robots UR5e Robot"), ("serial_number",
  .int 123456789), ("device_classes", .list [.dict [("class_identifier", .dict [("name", .str "robot"), ("uuid",
  .str "39b513e7-21b9-4b49-8654-7537473030eb")]), ("subclasses", .list [.str "serial", .str "serial_six_axis", .str "cobot"])]]),
  ("implemented_types", .list [.str "com.robotraconteur.robotics.robot.Robot"]), ("device_origin_pose", .dict [("pose",
  .dict [("orientation", .dict [("w", .int 0), ("x", .int 0), ("y", .int 0), ("z", .int 1)]), ("position", .dict [("x", .int 0), ("y",
  .int 0), ("z", .int 0)])])])]), ("robot_type", .str "serial"), ("robot_capabilities", .list [.str "jog_command",
  .str "trajectory_command", .str "position_command", .str "velocity_command"]), ("chains", .list [.dict [("H", .list [.dict [("x",
  .num 0.0), ("y", .num 0.0), ("z", .num 1.0)], .dict [("x", .num 0.0), ("y", .num (-1.0)), ("z", .num (-0.0))], .dict [("x", .num 0.0),
  ("y", .num (-1.0)), ("z", .num (-0.0))], .dict [("x", .num 0.0), ("y", .num (-1.0)), ("z", .num (-0.0))], .dict [("x", .num 0.0), ("y",
  .num 0.0), ("z", .num (-1.0))], .dict [("x", .num 0.0), ("y", .num (-1.0)), ("z", .num (-0.0))]]), ("P", .list [.dict [("x", .num 0.0),
  ("y", .num 0.0), ("z", .num 0.1625)], .dict [("x", .num 0.0), ("y", .num 0.0), ("z", .num 0.0)], .dict [("x", .num (-0.425)), ("y",
  .num 0.0), ("z", .num 0.0)], .dict [("x", .num (-0.3922)), ("y", .num (-0.1333)), ("z", .num (-0.0))], .dict [("x", .num 0.0), ("y",
  .num 0.0), ("z", .num (-0.0997))], .dict [("x", .num 0.0), ("y", .num (-0.0996)), ("z", .num (-0.0))], .dict [("x", .num 0.0), ("y",
  .num 0.0), ("z", .num 0.0)]]), ("flange_identifier", .str "tool0"), ("flange_pose", .dict [("orientation", .dict [("w", .num 0.707107),
  ("x", .num 0.707107), ("y", .num (-0.0)), ("z", .num 0.0)]), ("position", .dict [("x", .num 0.0), ("y", .num 0.0), ("z", .num 0.0)])]),
  ("joint_numbers", .list [.int 0, .int 1, .int 2, .int 3, .int 4, .int 5]), ("kin_chain_identifier", .str "robot_arm")]]), ("joint_info",
  .list [.dict [("default_effort_units", .str "newton_meter"), ("default_units", .str "radian"), ("joint_identifier",
  .str "shoulder_pan_joint"), ("joint_limits", .dict [("effort", .num 150.0), ("lower", .num (-6.283185)), ("upper", .num 6.283185),
  ("velocity", .num 3.141593), ("acceleration", .int 10)]), ("joint_type", .str "revolute"), ("passive", .bool false)],
  .dict [("default_effort_units", .str "newton_meter"), ("default_units", .str "radian"), ("joint_identifier", .str "shoulder_lift_joint"),
  ("joint_limits", .dict [("effort", .num 150.0), ("lower", .num (-6.283185)), ("upper", .num 6.283185), ("velocity", .num 3.141593),
  ("acceleration", .int 10)]), ("joint_type", .str "revolute"), ("passive", .bool false)], .dict [("default_effort_units",
  .str "newton_meter"), ("default_units", .str "radian"), ("joint_identifier", .str "elbow_joint"), ("joint_limits", .dict [("effort",
  .num 150.0), ("lower", .num (-3.141593)), ("upper", .num 3.141593), ("velocity", .num 3.141593), ("acceleration", .int 10)]),
  ("joint_type", .str "revolute"), ("passive", .bool false)], .dict [("default_effort_units", .str "newton_meter"), ("default_units",
  .str "radian"), ("joint_identifier", .str "wrist_1_joint"), ("joint_limits", .dict [("effort", .num 28.0), ("lower", .num (-6.283185)),
  ("upper", .num 6.283185), ("velocity", .num 3.141593), ("acceleration", .int 10)]), ("joint_type", .str "revolute"), ("passive",
  .bool false)], .dict [("default_effort_units", .str "newton_meter"), ("default_units", .str "radian"), ("joint_identifier",
  .str "wrist_2_joint"), ("joint_limits", .dict [("effort", .num 28.0), ("lower", .num (-6.283185)), ("upper", .num 6.283185), ("velocity",
  .num 3.141593), ("acceleration", .int 10)]), ("joint_type", .str "revolute"), ("passive", .bool false)], .dict [("default_effort_units",
  .str "newton_meter"), ("default_units", .str "radian"), ("joint_identifier", .str "wrist_3_joint"), ("joint_limits", .dict [("effort",
  .num 28.0), ("lower", .num (-6.283185)), ("upper", .num 6.283185), ("velocity", .num 3.141593), ("acceleration", .int 10)]),
  ("joint_type", .str "revolute"), ("passive", .bool false)]])]

/-- `irb6640_180_255_nogeom.urdf` -/
def irb6640Urdf : Urdf Float :=
  { links := [{ name := "base_link" }, { name := "link_1" }, { name := "link_2" }, { name := "link_3" }, { name := "link_4" }, { name := "link_5" }, { name := "link_6" }, { name := "tool0" }, { name := "base" }, { name := "world" }],
    joints := [
      { name := "joint_1", jointType := "revolute", parent := "base_link", child := "link_1", origin := some ⟨some ⟨0.0, 0.0, 0.78⟩, some ⟨0.0, 0.0, 0.0⟩⟩, axis := some ⟨0.0, 0.0, 1.0⟩, limit := some ⟨some (-2.967), some (2.967), some (1.7453), some (0.0)⟩ },
      { name := "joint_2", jointType := "revolute", parent := "link_1", child := "link_2", origin := some ⟨some ⟨0.32, 0.0, 0.0⟩, some ⟨0.0, 0.0, 0.0⟩⟩, axis := some ⟨0.0, 1.0, 0.0⟩, limit := some ⟨some (-1.134), some (1.4855), some (1.5707), some (0.0)⟩ },
      { name := "joint_3", jointType := "revolute", parent := "link_2", child := "link_3", origin := some ⟨some ⟨0.0, 0.0, 1.075⟩, some ⟨0.0, 0.0, 0.0⟩⟩, axis := some ⟨0.0, 1.0, 0.0⟩, limit := some ⟨some (-3.142), some (1.222), some (1.5707), some (0.0)⟩ },
      { name := "joint_4", jointType := "revolute", parent := "link_3", child := "link_4", origin := some ⟨some ⟨0.0, 0.0, 0.2⟩, some ⟨0.0, 0.0, 0.0⟩⟩, axis := some ⟨1.0, 0.0, 0.0⟩, limit := some ⟨some (-5.236), some (5.236), some (2.9671), some (0.0)⟩ },
      { name := "joint_5", jointType := "revolute", parent := "link_4", child := "link_5", origin := some ⟨some ⟨1.142, 0.0, 0.0⟩, some ⟨0.0, 0.0, 0.0⟩⟩, axis := some ⟨0.0, 1.0, 0.0⟩, limit := some ⟨some (-2.094), some (2.094), some (2.4435), some (0.0)⟩ },
      { name := "joint_6", jointType := "revolute", parent := "link_5", child := "link_6", origin := some ⟨some ⟨0.2, 0.0, 0.0⟩, some ⟨0.0, 0.0, 0.0⟩⟩, axis := some ⟨1.0, 0.0, 0.0⟩, limit := some ⟨some (-6.283), some (6.283), some (3.3161), some (0.0)⟩ },
      { name := "joint_6-tool0", jointType := "fixed", parent := "link_6", child := "tool0", origin := some ⟨some ⟨0.0, 0.0, 0.0⟩, some ⟨0.0, 1.57079632679, 0.0⟩⟩ },
      { name := "base_link-base", jointType := "fixed", parent := "base_link", child := "base", origin := some ⟨some ⟨0.0, 0.0, 0.0⟩, some ⟨0.0, 0.0, 0.0⟩⟩ },
      { name := "fixed", jointType := "fixed", parent := "world", child := "base_link" }] }

/-- `irb6640_180_255_nogeom_twist.urdf` -/
def irb6640TwistUrdf : Urdf Float :=
  { links := [{ name := "base_link" }, { name := "link_1" }, { name := "link_2" }, { name := "link_3" }, { name := "link_4" }, { name := "link_5" }, { name := "link_6" }, { name := "tool0" }, { name := "base" }, { name := "world" }],
    joints := [
      { name := "joint_1", jointType := "revolute", parent := "base_link", child := "link_1", origin := some ⟨some ⟨0.0, 0.0, 0.78⟩, some ⟨0.0, 0.0, 0.0⟩⟩, axis := some ⟨0.0, 0.0, 1.0⟩, limit := some ⟨some (-2.967), some (2.967), some (1.7453), some (0.0)⟩ },
      { name := "joint_2", jointType := "revolute", parent := "link_1", child := "link_2", origin := some ⟨some ⟨0.32, 0.0, 0.0⟩, some ⟨0.0, 0.0, 0.0⟩⟩, axis := some ⟨0.0, 1.0, 0.0⟩, limit := some ⟨some (-1.134), some (1.4855), some (1.5707), some (0.0)⟩ },
      { name := "joint_3", jointType := "revolute", parent := "link_2", child := "link_3", origin := some ⟨some ⟨0.0, 0.0, 1.075⟩, some ⟨0.0, 0.0, 0.0⟩⟩, axis := some ⟨0.0, 1.0, 0.0⟩, limit := some ⟨some (-3.142), some (1.222), some (1.5707), some (0.0)⟩ },
      { name := "joint_4", jointType := "revolute", parent := "link_3", child := "link_4", origin := some ⟨some ⟨0.0, 0.0, 0.2⟩, some ⟨1.57079632679, 3.14159265358, -1.57079632679⟩⟩, axis := some ⟨0.0, 0.0, -1.0⟩, limit := some ⟨some (-5.236), some (5.236), some (2.9671), some (0.0)⟩ },
      { name := "joint_5", jointType := "revolute", parent := "link_4", child := "link_5", origin := some ⟨some ⟨0.0, 0.0, -1.142⟩, some ⟨0.0, 0.0, 0.0⟩⟩, axis := some ⟨1.0, 0.0, 0.0⟩, limit := some ⟨some (-2.094), some (2.094), some (2.4435), some (0.0)⟩ },
      { name := "joint_6", jointType := "revolute", parent := "link_5", child := "link_6", origin := some ⟨some ⟨0.0, 0.0, -0.2⟩, some ⟨0.0, 0.0, 0.0⟩⟩, axis := some ⟨0.0, 0.0, -1.0⟩, limit := some ⟨some (-6.283), some (6.283), some (3.3161), some (0.0)⟩ },
      { name := "joint_6-tool0", jointType := "fixed", parent := "link_6", child := "tool0", origin := some ⟨some ⟨0.0, 0.0, 0.0⟩, some ⟨3.14159265358, 0.0, 1.57079632679⟩⟩ },
      { name := "base_link-base", jointType := "fixed", parent := "base_link", child := "base", origin := some ⟨some ⟨0.0, 0.0, 0.0⟩, some ⟨0.0, 0.0, 0.0⟩⟩ },
      { name := "fixed", jointType := "fixed", parent := "world", child := "base_link" }] }

/-- `sda10f_nogeom.urdf` -/
def sda10fUrdf : Urdf Float :=
  { links := [{ name := "torso_base_link" }, { name := "torso_link_b1" }, { name := "torso_link_b2" }, { name := "arm_left_link_1_s" }, { name := "arm_left_link_2_l" }, { name := "arm_left_link_3_e" }, { name := "arm_left_link_4_u" }, { name := "arm_left_link_5_r" }, { name := "arm_left_link_6_b" }, { name := "arm_left_link_7_t" }, { name := "arm_left_link_tool0" }, { name := "arm_right_link_1_s" }, { name := "arm_right_link_2_l" }, { name := "arm_right_link_3_e" }, { name := "arm_right_link_4_u" }, { name := "arm_right_link_5_r" }, { name := "arm_right_link_6_b" }, { name := "arm_right_link_7_t" }, { name := "arm_right_link_tool0" }],
    joints := [
      { name := "torso_joint_b1", jointType := "revolute", parent := "torso_base_link", child := "torso_link_b1", origin := some ⟨some ⟨0.09257, 0.0, 0.8835⟩, some ⟨0.0, 0.0, 0.0⟩⟩, axis := some ⟨0.0, 0.0, 1.0⟩, limit := some ⟨some (-2.957), some (2.957), some (2.26), some (100.0)⟩ },
      { name := "torso_joint_b2", jointType := "revolute", parent := "torso_base_link", child := "torso_link_b2", origin := some ⟨some ⟨0.09257, 0.0, 0.8835⟩, some ⟨0.0, 0.0, 0.0⟩⟩, axis := some ⟨0.0, 0.0, 1.0⟩, limit := some ⟨some (-2.957), some (2.957), some (2.26), some (100.0)⟩ },
      { name := "arm_left_joint_1_s", jointType := "revolute", parent := "torso_link_b1", child := "arm_left_link_1_s", origin := some ⟨some ⟨0.09996, 0.0275, 0.32214⟩, some ⟨1.57079632679, 0.0, 0.0⟩⟩, axis := some ⟨0.0, 0.0, -1.0⟩, limit := some ⟨some (-3.13), some (3.13), some (2.95), some (0.0)⟩ },
      { name := "arm_left_joint_2_l", jointType := "revolute", parent := "arm_left_link_1_s", child := "arm_left_link_2_l", origin := some ⟨some ⟨0.0, 0.0577, -0.2255⟩, some ⟨-1.57079632679, 0.0, 0.0⟩⟩, axis := some ⟨0.0, 0.0, -1.0⟩, limit := some ⟨some (-1.9), some (1.9), some (2.95), some (0.0)⟩ },
      { name := "arm_left_joint_3_e", jointType := "revolute", parent := "arm_left_link_2_l", child := "arm_left_link_3_e", origin := some ⟨some ⟨0.0, 0.169, -0.0454⟩, some ⟨1.57079632679, 0.0, 0.0⟩⟩, axis := some ⟨0.0, 0.0, -1.0⟩, limit := some ⟨some (-2.95), some (2.95), some (2.95), some (0.0)⟩ },
      { name := "arm_left_joint_4_u", jointType := "revolute", parent := "arm_left_link_3_e", child := "arm_left_link_4_u", origin := some ⟨some ⟨0.0, -0.0085, -0.181⟩, some ⟨-1.57079632679, 0.0, 0.0⟩⟩, axis := some ⟨0.0, 0.0, 1.0⟩, limit := some ⟨some (-2.36), some (2.36), some (2.95), some (0.0)⟩ },
      { name := "arm_left_joint_5_r", jointType := "revolute", parent := "arm_left_link_4_u", child := "arm_left_link_5_r", origin := some ⟨some ⟨0.0, 0.1936, 0.0155⟩, some ⟨1.57079632679, 0.0, 0.0⟩⟩, axis := some ⟨0.0, 0.0, 1.0⟩, limit := some ⟨some (-3.13), some (3.13), some (3.48), some (0.0)⟩ },
      { name := "arm_left_joint_6_b", jointType := "revolute", parent := "arm_left_link_5_r", child := "arm_left_link_6_b", origin := some ⟨some ⟨0.0, 0.008, -0.155⟩, some ⟨-1.57079632679, 0.0, 0.0⟩⟩, axis := some ⟨0.0, 0.0, 1.0⟩, limit := some ⟨some (-1.9), some (1.9), some (3.48), some (0.0)⟩ },
      { name := "arm_left_joint_7_t", jointType := "revolute", parent := "arm_left_link_6_b", child := "arm_left_link_7_t", origin := some ⟨some ⟨0.0, 0.168, -0.015⟩, some ⟨1.57079632679, 0.0, 0.0⟩⟩, axis := some ⟨0.0, 0.0, -1.0⟩, limit := some ⟨some (-3.13), some (3.13), some (6.97), some (0.0)⟩ },
      { name := "arm_left_joint_tool0", jointType := "fixed", parent := "arm_left_link_7_t", child := "arm_left_link_tool0", origin := some ⟨some ⟨0.0, 0.0, 0.0⟩, some ⟨0.0, 0.0, -3.14159265358⟩⟩ },
      { name := "arm_right_joint_1_s", jointType := "revolute", parent := "torso_link_b1", child := "arm_right_link_1_s", origin := some ⟨some ⟨0.09996, -0.0275, 0.32214⟩, some ⟨1.57079632679, 0.0, -3.14159265358⟩⟩, axis := some ⟨0.0, 0.0, 1.0⟩, limit := some ⟨some (-3.13), some (3.13), some (2.95), some (0.0)⟩ },
      { name := "arm_right_joint_2_l", jointType := "revolute", parent := "arm_right_link_1_s", child := "arm_right_link_2_l", origin := some ⟨some ⟨0.0, 0.0577, -0.2255⟩, some ⟨-1.57079632679, 0.0, 0.0⟩⟩, axis := some ⟨0.0, 0.0, 1.0⟩, limit := some ⟨some (-1.9), some (1.9), some (2.95), some (0.0)⟩ },
      { name := "arm_right_joint_3_e", jointType := "revolute", parent := "arm_right_link_2_l", child := "arm_right_link_3_e", origin := some ⟨some ⟨0.0, 0.169, -0.0454⟩, some ⟨1.57079632679, 0.0, 0.0⟩⟩, axis := some ⟨0.0, 0.0, 1.0⟩, limit := some ⟨some (-2.95), some (2.95), some (2.95), some (0.0)⟩ },
      { name := "arm_right_joint_4_u", jointType := "revolute", parent := "arm_right_link_3_e", child := "arm_right_link_4_u", origin := some ⟨some ⟨0.0, -0.0085, -0.181⟩, some ⟨-1.57079632679, 0.0, 0.0⟩⟩, axis := some ⟨0.0, 0.0, -1.0⟩, limit := some ⟨some (-2.36), some (2.36), some (2.95), some (0.0)⟩ },
      { name := "arm_right_joint_5_r", jointType := "revolute", parent := "arm_right_link_4_u", child := "arm_right_link_5_r", origin := some ⟨some ⟨0.0, 0.1936, 0.0155⟩, some ⟨1.57079632679, 0.0, 0.0⟩⟩, axis := some ⟨0.0, 0.0, -1.0⟩, limit := some ⟨some (-3.13), some (3.13), some (3.48), some (0.0)⟩ },
      { name := "arm_right_joint_6_b", jointType := "revolute", parent := "arm_right_link_5_r", child := "arm_right_link_6_b", origin := some ⟨some ⟨0.0, 0.008, -0.155⟩, some ⟨-1.57079632679, 0.0, 0.0⟩⟩, axis := some ⟨0.0, 0.0, -1.0⟩, limit := some ⟨some (-1.9), some (1.9), some (3.48), some (0.0)⟩ },
      { name := "arm_right_joint_7_t", jointType := "revolute", parent := "arm_right_link_6_b", child := "arm_right_link_7_t", origin := some ⟨some ⟨0.0, 0.168, -0.015⟩, some ⟨1.57079632679, 0.0, 0.0⟩⟩, axis := some ⟨0.0, 0.0, 1.0⟩, limit := some ⟨some (-3.13), some (3.13), some (6.97), some (0.0)⟩ },
      { name := "arm_right_joint_tool0", jointType := "fixed", parent := "arm_right_link_7_t", child := "arm_right_link_tool0", origin := some ⟨some ⟨0.0, 0.0, 0.0⟩, some ⟨0.0, 0.0, -3.14159265358⟩⟩ }] }

end FloatTests
