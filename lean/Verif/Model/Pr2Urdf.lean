import Verif.Model.Xml

/-!
# The robot description shipped with the code: `pr2_mechanism_model/pr2.urdf`

Generated by tools/mkurdf.py.  All children of the root element, in order; of `link`, `gazebo` and `material`, which nothing modelled reads, only tag and name.
-/

namespace Pr2

/-- Children 0 to 24 of the root (pr2.urdf:1-3382). -/
def pr2Part0 : List Xml := [
  .node "gazebo" [] none [],
  .node "material" [("name", "Blue")] none [],
  .node "material" [("name", "Green")] none [],
  .node "material" [("name", "Grey")] none [],
  .node "material" [("name", "Grey2")] none [],
  .node "material" [("name", "Red")] none [],
  .node "material" [("name", "White")] none [],
  .node "material" [("name", "Caster")] none [],
  .node "material" [("name", "Wheel_l")] none [],
  .node "material" [("name", "Wheel_r")] none [],
  .node "material" [("name", "RollLinks")] none [],
  .node "link" [("name", "base_link")] none [],
  .node "link" [("name", "base_footprint")] none [],
  .node "joint" [("name", "base_footprint_joint"), ("type", "fixed")] none [.node "origin" [("rpy", "0 0 0"), ("xyz", "0 0 0.051")] none [], .node "child" [("link", "base_link")] none [], .node "parent" [("link", "base_footprint")] none []],
  .node "joint" [("name", "base_laser_joint"), ("type", "fixed")] none [.node "axis" [("xyz", "0 1 0")] none [], .node "origin" [("rpy", "0 0 0"), ("xyz", "0.275 0.0 0.252")] none [], .node "parent" [("link", "base_link")] none [], .node "child" [("link", "base_laser_link")] none []],
  .node "link" [("name", "base_laser_link")] none [],
  .node "gazebo" [] none [],
  .node "joint" [("name", "fl_caster_rotation_joint"), ("type", "continuous")] none [.node "axis" [("xyz", "0 0 1")] none [], .node "limit" [("effort", "100"), ("velocity", "100")] none [], .node "safety_controller" [("k_velocity", "10")] none [], .node "calibration" [("reference_position", "-0.785398163397"), ("rising", "-0.785398163397")] none [], .node "dynamics" [("damping", "0.0"), ("friction", "0.0")] none [], .node "origin" [("rpy", "0 0 0"), ("xyz", "0.2246 0.2246 0.0282")] none [], .node "parent" [("link", "base_link")] none [], .node "child" [("link", "fl_caster_rotation_link")] none []],
  .node "link" [("name", "fl_caster_rotation_link")] none [],
  .node "transmission" [("name", "fl_caster_rotation_trans"), ("type", "SimpleTransmission")] none [.node "actuator" [("name", "fl_caster_rotation_motor")] none [], .node "joint" [("name", "fl_caster_rotation_joint")] none [], .node "mechanicalReduction" [] (some "-79.2380952381") []],
  .node "joint" [("name", "fl_caster_l_wheel_joint"), ("type", "continuous")] none [.node "axis" [("xyz", "0 1 0")] none [], .node "limit" [("effort", "100"), ("velocity", "100")] none [], .node "safety_controller" [("k_velocity", "10")] none [], .node "dynamics" [("damping", "0.0"), ("friction", "0.0")] none [], .node "origin" [("rpy", "0 0 0"), ("xyz", "0 0.049 0")] none [], .node "parent" [("link", "fl_caster_rotation_link")] none [], .node "child" [("link", "fl_caster_l_wheel_link")] none []],
  .node "link" [("name", "fl_caster_l_wheel_link")] none [],
  .node "gazebo" [] none [],
  .node "transmission" [("name", "fl_caster_l_wheel_trans"), ("type", "SimpleTransmission")] none [.node "actuator" [("name", "fl_caster_l_wheel_motor")] none [], .node "joint" [("name", "fl_caster_l_wheel_joint")] none [], .node "mechanicalReduction" [] (some "79.2380952381") []],
  .node "joint" [("name", "fl_caster_r_wheel_joint"), ("type", "continuous")] none [.node "axis" [("xyz", "0 1 0")] none [], .node "limit" [("effort", "100"), ("velocity", "100")] none [], .node "safety_controller" [("k_velocity", "10")] none [], .node "dynamics" [("damping", "0.0"), ("friction", "0.0")] none [], .node "origin" [("rpy", "0 0 0"), ("xyz", "0 -0.049 0")] none [], .node "parent" [("link", "fl_caster_rotation_link")] none [], .node "child" [("link", "fl_caster_r_wheel_link")] none []]]

/-- Children 25 to 49 of the root (pr2.urdf:1-3382). -/
def pr2Part1 : List Xml := [
  .node "link" [("name", "fl_caster_r_wheel_link")] none [],
  .node "gazebo" [] none [],
  .node "transmission" [("name", "fl_caster_r_wheel_trans"), ("type", "SimpleTransmission")] none [.node "actuator" [("name", "fl_caster_r_wheel_motor")] none [], .node "joint" [("name", "fl_caster_r_wheel_joint")] none [], .node "mechanicalReduction" [] (some "-79.2380952381") []],
  .node "gazebo" [] none [],
  .node "joint" [("name", "fr_caster_rotation_joint"), ("type", "continuous")] none [.node "axis" [("xyz", "0 0 1")] none [], .node "limit" [("effort", "100"), ("velocity", "100")] none [], .node "safety_controller" [("k_velocity", "10")] none [], .node "calibration" [("reference_position", "-0.785398163397"), ("rising", "-0.785398163397")] none [], .node "dynamics" [("damping", "0.0"), ("friction", "0.0")] none [], .node "origin" [("rpy", "0 0 0"), ("xyz", "0.2246 -0.2246 0.0282")] none [], .node "parent" [("link", "base_link")] none [], .node "child" [("link", "fr_caster_rotation_link")] none []],
  .node "link" [("name", "fr_caster_rotation_link")] none [],
  .node "transmission" [("name", "fr_caster_rotation_trans"), ("type", "SimpleTransmission")] none [.node "actuator" [("name", "fr_caster_rotation_motor")] none [], .node "joint" [("name", "fr_caster_rotation_joint")] none [], .node "mechanicalReduction" [] (some "-79.2380952381") []],
  .node "joint" [("name", "fr_caster_l_wheel_joint"), ("type", "continuous")] none [.node "axis" [("xyz", "0 1 0")] none [], .node "limit" [("effort", "100"), ("velocity", "100")] none [], .node "safety_controller" [("k_velocity", "10")] none [], .node "dynamics" [("damping", "0.0"), ("friction", "0.0")] none [], .node "origin" [("rpy", "0 0 0"), ("xyz", "0 0.049 0")] none [], .node "parent" [("link", "fr_caster_rotation_link")] none [], .node "child" [("link", "fr_caster_l_wheel_link")] none []],
  .node "link" [("name", "fr_caster_l_wheel_link")] none [],
  .node "gazebo" [] none [],
  .node "transmission" [("name", "fr_caster_l_wheel_trans"), ("type", "SimpleTransmission")] none [.node "actuator" [("name", "fr_caster_l_wheel_motor")] none [], .node "joint" [("name", "fr_caster_l_wheel_joint")] none [], .node "mechanicalReduction" [] (some "79.2380952381") []],
  .node "joint" [("name", "fr_caster_r_wheel_joint"), ("type", "continuous")] none [.node "axis" [("xyz", "0 1 0")] none [], .node "limit" [("effort", "100"), ("velocity", "100")] none [], .node "safety_controller" [("k_velocity", "10")] none [], .node "dynamics" [("damping", "0.0"), ("friction", "0.0")] none [], .node "origin" [("rpy", "0 0 0"), ("xyz", "0 -0.049 0")] none [], .node "parent" [("link", "fr_caster_rotation_link")] none [], .node "child" [("link", "fr_caster_r_wheel_link")] none []],
  .node "link" [("name", "fr_caster_r_wheel_link")] none [],
  .node "gazebo" [] none [],
  .node "transmission" [("name", "fr_caster_r_wheel_trans"), ("type", "SimpleTransmission")] none [.node "actuator" [("name", "fr_caster_r_wheel_motor")] none [], .node "joint" [("name", "fr_caster_r_wheel_joint")] none [], .node "mechanicalReduction" [] (some "-79.2380952381") []],
  .node "gazebo" [] none [],
  .node "joint" [("name", "bl_caster_rotation_joint"), ("type", "continuous")] none [.node "axis" [("xyz", "0 0 1")] none [], .node "limit" [("effort", "100"), ("velocity", "100")] none [], .node "safety_controller" [("k_velocity", "10")] none [], .node "calibration" [("reference_position", "2.35619449019"), ("rising", "2.35619449019")] none [], .node "dynamics" [("damping", "0.0"), ("friction", "0.0")] none [], .node "origin" [("rpy", "0 0 0"), ("xyz", "-0.2246 0.2246 0.0282")] none [], .node "parent" [("link", "base_link")] none [], .node "child" [("link", "bl_caster_rotation_link")] none []],
  .node "link" [("name", "bl_caster_rotation_link")] none [],
  .node "transmission" [("name", "bl_caster_rotation_trans"), ("type", "SimpleTransmission")] none [.node "actuator" [("name", "bl_caster_rotation_motor")] none [], .node "joint" [("name", "bl_caster_rotation_joint")] none [], .node "mechanicalReduction" [] (some "-79.2380952381") []],
  .node "joint" [("name", "bl_caster_l_wheel_joint"), ("type", "continuous")] none [.node "axis" [("xyz", "0 1 0")] none [], .node "limit" [("effort", "100"), ("velocity", "100")] none [], .node "safety_controller" [("k_velocity", "10")] none [], .node "dynamics" [("damping", "0.0"), ("friction", "0.0")] none [], .node "origin" [("rpy", "0 0 0"), ("xyz", "0 0.049 0")] none [], .node "parent" [("link", "bl_caster_rotation_link")] none [], .node "child" [("link", "bl_caster_l_wheel_link")] none []],
  .node "link" [("name", "bl_caster_l_wheel_link")] none [],
  .node "gazebo" [] none [],
  .node "transmission" [("name", "bl_caster_l_wheel_trans"), ("type", "SimpleTransmission")] none [.node "actuator" [("name", "bl_caster_l_wheel_motor")] none [], .node "joint" [("name", "bl_caster_l_wheel_joint")] none [], .node "mechanicalReduction" [] (some "79.2380952381") []],
  .node "joint" [("name", "bl_caster_r_wheel_joint"), ("type", "continuous")] none [.node "axis" [("xyz", "0 1 0")] none [], .node "limit" [("effort", "100"), ("velocity", "100")] none [], .node "safety_controller" [("k_velocity", "10")] none [], .node "dynamics" [("damping", "0.0"), ("friction", "0.0")] none [], .node "origin" [("rpy", "0 0 0"), ("xyz", "0 -0.049 0")] none [], .node "parent" [("link", "bl_caster_rotation_link")] none [], .node "child" [("link", "bl_caster_r_wheel_link")] none []],
  .node "link" [("name", "bl_caster_r_wheel_link")] none []]

/-- Children 50 to 74 of the root (pr2.urdf:1-3382). -/
def pr2Part2 : List Xml := [
  .node "gazebo" [] none [],
  .node "transmission" [("name", "bl_caster_r_wheel_trans"), ("type", "SimpleTransmission")] none [.node "actuator" [("name", "bl_caster_r_wheel_motor")] none [], .node "joint" [("name", "bl_caster_r_wheel_joint")] none [], .node "mechanicalReduction" [] (some "-79.2380952381") []],
  .node "gazebo" [] none [],
  .node "joint" [("name", "br_caster_rotation_joint"), ("type", "continuous")] none [.node "axis" [("xyz", "0 0 1")] none [], .node "limit" [("effort", "100"), ("velocity", "100")] none [], .node "safety_controller" [("k_velocity", "10")] none [], .node "calibration" [("reference_position", "2.35619449019"), ("rising", "2.35619449019")] none [], .node "dynamics" [("damping", "0.0"), ("friction", "0.0")] none [], .node "origin" [("rpy", "0 0 0"), ("xyz", "-0.2246 -0.2246 0.0282")] none [], .node "parent" [("link", "base_link")] none [], .node "child" [("link", "br_caster_rotation_link")] none []],
  .node "link" [("name", "br_caster_rotation_link")] none [],
  .node "transmission" [("name", "br_caster_rotation_trans"), ("type", "SimpleTransmission")] none [.node "actuator" [("name", "br_caster_rotation_motor")] none [], .node "joint" [("name", "br_caster_rotation_joint")] none [], .node "mechanicalReduction" [] (some "-79.2380952381") []],
  .node "joint" [("name", "br_caster_l_wheel_joint"), ("type", "continuous")] none [.node "axis" [("xyz", "0 1 0")] none [], .node "limit" [("effort", "100"), ("velocity", "100")] none [], .node "safety_controller" [("k_velocity", "10")] none [], .node "dynamics" [("damping", "0.0"), ("friction", "0.0")] none [], .node "origin" [("rpy", "0 0 0"), ("xyz", "0 0.049 0")] none [], .node "parent" [("link", "br_caster_rotation_link")] none [], .node "child" [("link", "br_caster_l_wheel_link")] none []],
  .node "link" [("name", "br_caster_l_wheel_link")] none [],
  .node "gazebo" [] none [],
  .node "transmission" [("name", "br_caster_l_wheel_trans"), ("type", "SimpleTransmission")] none [.node "actuator" [("name", "br_caster_l_wheel_motor")] none [], .node "joint" [("name", "br_caster_l_wheel_joint")] none [], .node "mechanicalReduction" [] (some "79.2380952381") []],
  .node "joint" [("name", "br_caster_r_wheel_joint"), ("type", "continuous")] none [.node "axis" [("xyz", "0 1 0")] none [], .node "limit" [("effort", "100"), ("velocity", "100")] none [], .node "safety_controller" [("k_velocity", "10")] none [], .node "dynamics" [("damping", "0.0"), ("friction", "0.0")] none [], .node "origin" [("rpy", "0 0 0"), ("xyz", "0 -0.049 0")] none [], .node "parent" [("link", "br_caster_rotation_link")] none [], .node "child" [("link", "br_caster_r_wheel_link")] none []],
  .node "link" [("name", "br_caster_r_wheel_link")] none [],
  .node "gazebo" [] none [],
  .node "transmission" [("name", "br_caster_r_wheel_trans"), ("type", "SimpleTransmission")] none [.node "actuator" [("name", "br_caster_r_wheel_motor")] none [], .node "joint" [("name", "br_caster_r_wheel_joint")] none [], .node "mechanicalReduction" [] (some "-79.2380952381") []],
  .node "gazebo" [] none [],
  .node "gazebo" [] none [],
  .node "gazebo" [] none [],
  .node "joint" [("name", "torso_lift_joint"), ("type", "prismatic")] none [.node "axis" [("xyz", "0 0 1")] none [], .node "limit" [("effort", "10000"), ("lower", "0.0"), ("upper", "0.31"), ("velocity", "0.013")] none [], .node "safety_controller" [("k_position", "100"), ("k_velocity", "2000000"), ("soft_lower_limit", "0.0115"), ("soft_upper_limit", "0.305")] none [], .node "calibration" [("falling", "0.00536"), ("reference_position", "0.00536")] none [], .node "dynamics" [("damping", "20000.0")] none [], .node "origin" [("rpy", "0 0 0"), ("xyz", "-0.05 0 0.739675")] none [], .node "parent" [("link", "base_link")] none [], .node "child" [("link", "torso_lift_link")] none []],
  .node "link" [("name", "torso_lift_link")] none [],
  .node "gazebo" [] none [],
  .node "transmission" [("name", "torso_lift_trans"), ("type", "SimpleTransmission")] none [.node "actuator" [("name", "torso_lift_motor")] none [], .node "joint" [("name", "torso_lift_joint")] none [], .node "mechanicalReduction" [] (some "-52143.33") []],
  .node "joint" [("name", "imu_joint"), ("type", "fixed")] none [.node "axis" [("xyz", "0 1 0")] none [], .node "origin" [("rpy", "0 3.14159265359 0"), ("xyz", "-0.02977 -0.1497 0.164")] none [], .node "parent" [("link", "torso_lift_link")] none [], .node "child" [("link", "imu_link")] none []],
  .node "link" [("name", "imu_link")] none [],
  .node "gazebo" [] none [],
  .node "joint" [("name", "head_pan_joint"), ("type", "revolute")] none [.node "axis" [("xyz", "0 0 1")] none [], .node "limit" [("effort", "2.645"), ("lower", "-3.007"), ("upper", "3.007"), ("velocity", "6")] none [], .node "safety_controller" [("k_position", "100"), ("k_velocity", "1.5"), ("soft_lower_limit", "-2.857"), ("soft_upper_limit", "2.857")] none [], .node "calibration" [("reference_position", "0.0"), ("rising", "0.0")] none [], .node "dynamics" [("damping", "1.0")] none [], .node "origin" [("rpy", "0.0 0.0 0.0"), ("xyz", "-0.01707 0.0 0.38145")] none [], .node "parent" [("link", "torso_lift_link")] none [], .node "child" [("link", "head_pan_link")] none []]]

/-- Children 75 to 99 of the root (pr2.urdf:1-3382). -/
def pr2Part3 : List Xml := [
  .node "link" [("name", "head_pan_link")] none [],
  .node "gazebo" [] none [],
  .node "transmission" [("name", "head_pan_trans"), ("type", "SimpleTransmission")] none [.node "actuator" [("name", "head_pan_motor")] none [], .node "joint" [("name", "head_pan_joint")] none [], .node "mechanicalReduction" [] (some "6.0") []],
  .node "joint" [("name", "head_tilt_joint"), ("type", "revolute")] none [.node "axis" [("xyz", "0 1 0")] none [], .node "limit" [("effort", "15"), ("lower", "-0.471238"), ("upper", "1.39626"), ("velocity", "5")] none [], .node "safety_controller" [("k_position", "100"), ("k_velocity", "1.5"), ("soft_lower_limit", "-0.3712"), ("soft_upper_limit", "1.29626")] none [], .node "calibration" [("falling", "0.0"), ("reference_position", "0.0")] none [], .node "dynamics" [("damping", "1.0")] none [], .node "origin" [("rpy", "0 0 0"), ("xyz", "0.068 0 0")] none [], .node "parent" [("link", "head_pan_link")] none [], .node "child" [("link", "head_tilt_link")] none []],
  .node "link" [("name", "head_tilt_link")] none [],
  .node "gazebo" [] none [],
  .node "transmission" [("name", "head_tilt_trans"), ("type", "SimpleTransmission")] none [.node "actuator" [("name", "head_tilt_motor")] none [], .node "joint" [("name", "head_tilt_joint")] none [], .node "mechanicalReduction" [] (some "6.0") []],
  .node "joint" [("name", "head_plate_frame_joint"), ("type", "fixed")] none [.node "origin" [("rpy", "0 0 0"), ("xyz", "0.0232 0 0.0645")] none [], .node "parent" [("link", "head_tilt_link")] none [], .node "child" [("link", "head_plate_frame")] none []],
  .node "link" [("name", "head_plate_frame")] none [],
  .node "gazebo" [] none [],
  .node "joint" [("name", "sensor_mount_frame_joint"), ("type", "fixed")] none [.node "origin" [("rpy", "0 0 0"), ("xyz", "0.0 0.0 0.0")] none [], .node "parent" [("link", "head_plate_frame")] none [], .node "child" [("link", "sensor_mount_link")] none []],
  .node "link" [("name", "sensor_mount_link")] none [],
  .node "joint" [("name", "high_def_frame_joint"), ("type", "fixed")] none [.node "origin" [("rpy", "0 0 0"), ("xyz", "0 -0.109 0.035")] none [], .node "parent" [("link", "sensor_mount_link")] none [], .node "child" [("link", "high_def_frame")] none []],
  .node "link" [("name", "high_def_frame")] none [],
  .node "joint" [("name", "high_def_optical_frame_joint"), ("type", "fixed")] none [.node "origin" [("rpy", "-1.57079632679 0.0 -1.57079632679"), ("xyz", "0.0            0.0         0.0")] none [], .node "parent" [("link", "high_def_frame")] none [], .node "child" [("link", "high_def_optical_frame")] none []],
  .node "link" [("name", "high_def_optical_frame")] none [],
  .node "gazebo" [] none [],
  .node "joint" [("name", "double_stereo_frame_joint"), ("type", "fixed")] none [.node "origin" [("rpy", "0 0 0"), ("xyz", "0.0 0.0 0.003")] none [], .node "parent" [("link", "sensor_mount_link")] none [], .node "child" [("link", "double_stereo_link")] none []],
  .node "link" [("name", "double_stereo_link")] none [],
  .node "joint" [("name", "wide_stereo_frame_joint"), ("type", "fixed")] none [.node "origin" [("rpy", "0.0   0.0   0.0"), ("xyz", "0.0 0.03 0.0305")] none [], .node "parent" [("link", "double_stereo_link")] none [], .node "child" [("link", "wide_stereo_link")] none []],
  .node "link" [("name", "wide_stereo_link")] none [],
  .node "joint" [("name", "wide_stereo_optical_frame_joint"), ("type", "fixed")] none [.node "origin" [("rpy", "-1.57079632679 0.0 -1.57079632679"), ("xyz", "0 0 0")] none [], .node "parent" [("link", "wide_stereo_link")] none [], .node "child" [("link", "wide_stereo_optical_frame")] none []],
  .node "link" [("name", "wide_stereo_optical_frame")] none [],
  .node "joint" [("name", "wide_stereo_gazebo_l_stereo_camera_frame_joint"), ("type", "fixed")] none [.node "origin" [("rpy", "0 0 0"), ("xyz", "0 0 0")] none [], .node "parent" [("link", "wide_stereo_link")] none [], .node "child" [("link", "wide_stereo_gazebo_l_stereo_camera_frame")] none []],
  .node "link" [("name", "wide_stereo_gazebo_l_stereo_camera_frame")] none []]

/-- Children 100 to 124 of the root (pr2.urdf:1-3382). -/
def pr2Part4 : List Xml := [
  .node "joint" [("name", "wide_stereo_gazebo_l_stereo_camera_optical_frame_joint"), ("type", "fixed")] none [.node "origin" [("rpy", "-1.57079632679 0.0 -1.57079632679"), ("xyz", "0 0 0")] none [], .node "parent" [("link", "wide_stereo_gazebo_l_stereo_camera_frame")] none [], .node "child" [("link", "wide_stereo_gazebo_l_stereo_camera_optical_frame")] none []],
  .node "link" [("name", "wide_stereo_gazebo_l_stereo_camera_optical_frame")] none [],
  .node "gazebo" [] none [],
  .node "joint" [("name", "wide_stereo_gazebo_r_stereo_camera_frame_joint"), ("type", "fixed")] none [.node "origin" [("rpy", "0.0 0.0 0.0"), ("xyz", "0.0 -0.09 0.0")] none [], .node "parent" [("link", "wide_stereo_gazebo_l_stereo_camera_frame")] none [], .node "child" [("link", "wide_stereo_gazebo_r_stereo_camera_frame")] none []],
  .node "link" [("name", "wide_stereo_gazebo_r_stereo_camera_frame")] none [],
  .node "joint" [("name", "wide_stereo_gazebo_r_stereo_camera_optical_frame_joint"), ("type", "fixed")] none [.node "origin" [("rpy", "-1.57079632679 0.0 -1.57079632679"), ("xyz", "0 0 0")] none [], .node "parent" [("link", "wide_stereo_gazebo_r_stereo_camera_frame")] none [], .node "child" [("link", "wide_stereo_gazebo_r_stereo_camera_optical_frame")] none []],
  .node "link" [("name", "wide_stereo_gazebo_r_stereo_camera_optical_frame")] none [],
  .node "gazebo" [] none [],
  .node "gazebo" [] none [],
  .node "gazebo" [] none [],
  .node "joint" [("name", "narrow_stereo_frame_joint"), ("type", "fixed")] none [.node "origin" [("rpy", "0.0   0.0   0.0"), ("xyz", "0.0 0.06 0.0305")] none [], .node "parent" [("link", "double_stereo_link")] none [], .node "child" [("link", "narrow_stereo_link")] none []],
  .node "link" [("name", "narrow_stereo_link")] none [],
  .node "joint" [("name", "narrow_stereo_optical_frame_joint"), ("type", "fixed")] none [.node "origin" [("rpy", "-1.57079632679 0.0 -1.57079632679"), ("xyz", "0 0 0")] none [], .node "parent" [("link", "narrow_stereo_link")] none [], .node "child" [("link", "narrow_stereo_optical_frame")] none []],
  .node "link" [("name", "narrow_stereo_optical_frame")] none [],
  .node "joint" [("name", "narrow_stereo_gazebo_l_stereo_camera_frame_joint"), ("type", "fixed")] none [.node "origin" [("rpy", "0 0 0"), ("xyz", "0 0 0")] none [], .node "parent" [("link", "narrow_stereo_link")] none [], .node "child" [("link", "narrow_stereo_gazebo_l_stereo_camera_frame")] none []],
  .node "link" [("name", "narrow_stereo_gazebo_l_stereo_camera_frame")] none [],
  .node "joint" [("name", "narrow_stereo_gazebo_l_stereo_camera_optical_frame_joint"), ("type", "fixed")] none [.node "origin" [("rpy", "-1.57079632679 0.0 -1.57079632679"), ("xyz", "0 0 0")] none [], .node "parent" [("link", "narrow_stereo_gazebo_l_stereo_camera_frame")] none [], .node "child" [("link", "narrow_stereo_gazebo_l_stereo_camera_optical_frame")] none []],
  .node "link" [("name", "narrow_stereo_gazebo_l_stereo_camera_optical_frame")] none [],
  .node "gazebo" [] none [],
  .node "joint" [("name", "narrow_stereo_gazebo_r_stereo_camera_frame_joint"), ("type", "fixed")] none [.node "origin" [("rpy", "0.0 0.0 0.0"), ("xyz", "0.0 -0.09 0.0")] none [], .node "parent" [("link", "narrow_stereo_gazebo_l_stereo_camera_frame")] none [], .node "child" [("link", "narrow_stereo_gazebo_r_stereo_camera_frame")] none []],
  .node "link" [("name", "narrow_stereo_gazebo_r_stereo_camera_frame")] none [],
  .node "joint" [("name", "narrow_stereo_gazebo_r_stereo_camera_optical_frame_joint"), ("type", "fixed")] none [.node "origin" [("rpy", "-1.57079632679 0.0 -1.57079632679"), ("xyz", "0 0 0")] none [], .node "parent" [("link", "narrow_stereo_gazebo_r_stereo_camera_frame")] none [], .node "child" [("link", "narrow_stereo_gazebo_r_stereo_camera_optical_frame")] none []],
  .node "link" [("name", "narrow_stereo_gazebo_r_stereo_camera_optical_frame")] none [],
  .node "gazebo" [] none [],
  .node "gazebo" [] none []]

/-- Children 125 to 149 of the root (pr2.urdf:1-3382). -/
def pr2Part5 : List Xml := [
  .node "gazebo" [] none [],
  .node "gazebo" [] none [],
  .node "gazebo" [] none [],
  .node "joint" [("name", "laser_tilt_mount_joint"), ("type", "revolute")] none [.node "axis" [("xyz", "0 1 0")] none [], .node "limit" [("effort", "0.65"), ("lower", "-0.7854"), ("upper", "1.48353"), ("velocity", "10.0")] none [], .node "safety_controller" [("k_position", "100"), ("k_velocity", "0.05"), ("soft_lower_limit", "-0.7354"), ("soft_upper_limit", "1.43353")] none [], .node "calibration" [("falling", "0.0"), ("reference_position", "0.0")] none [], .node "dynamics" [("damping", "0.008")] none [], .node "origin" [("rpy", "0 0 0"), ("xyz", "0.09893 0 0.227")] none [], .node "parent" [("link", "torso_lift_link")] none [], .node "child" [("link", "laser_tilt_mount_link")] none []],
  .node "link" [("name", "laser_tilt_mount_link")] none [],
  .node "joint" [("name", "laser_tilt_joint"), ("type", "fixed")] none [.node "axis" [("xyz", "0 1 0")] none [], .node "origin" [("rpy", "0 0 0"), ("xyz", "0 0 0.03")] none [], .node "parent" [("link", "laser_tilt_mount_link")] none [], .node "child" [("link", "laser_tilt_link")] none []],
  .node "link" [("name", "laser_tilt_link")] none [],
  .node "gazebo" [] none [],
  .node "gazebo" [] none [],
  .node "transmission" [("name", "laser_tilt_mount_trans"), ("type", "SimpleTransmission")] none [.node "actuator" [("name", "laser_tilt_mount_motor")] none [], .node "joint" [("name", "laser_tilt_mount_joint")] none [], .node "mechanicalReduction" [] (some "-6.05") []],
  .node "joint" [("name", "r_shoulder_pan_joint"), ("type", "revolute")] none [.node "axis" [("xyz", "0 0 1")] none [], .node "origin" [("rpy", "0 0 0"), ("xyz", "0.0 -0.188 0.0")] none [], .node "parent" [("link", "torso_lift_link")] none [], .node "child" [("link", "r_shoulder_pan_link")] none [], .node "limit" [("effort", "30"), ("lower", "-2.2853981634"), ("upper", "0.714601836603"), ("velocity", "2.088")] none [], .node "dynamics" [("damping", "10.0")] none [], .node "safety_controller" [("k_position", "100"), ("k_velocity", "10"), ("soft_lower_limit", "-2.1353981634"), ("soft_upper_limit", "0.564601836603")] none [], .node "calibration" [("reference_position", "-0.785398163397"), ("rising", "-0.785398163397")] none []],
  .node "link" [("name", "r_shoulder_pan_link")] none [],
  .node "joint" [("name", "r_shoulder_lift_joint"), ("type", "revolute")] none [.node "axis" [("xyz", "0 1 0")] none [], .node "limit" [("effort", "30"), ("lower", "-0.5236"), ("upper", "1.3963"), ("velocity", "2.082")] none [], .node "safety_controller" [("k_position", "100"), ("k_velocity", "10"), ("soft_lower_limit", "-0.3536"), ("soft_upper_limit", "1.2963")] none [], .node "calibration" [("falling", "0.0"), ("reference_position", "0.0")] none [], .node "dynamics" [("damping", "10.0")] none [], .node "origin" [("rpy", "0 0 0"), ("xyz", "0.1 0 0")] none [], .node "parent" [("link", "r_shoulder_pan_link")] none [], .node "child" [("link", "r_shoulder_lift_link")] none []],
  .node "link" [("name", "r_shoulder_lift_link")] none [],
  .node "joint" [("name", "r_upper_arm_roll_joint"), ("type", "revolute")] none [.node "axis" [("xyz", "1 0 0")] none [], .node "origin" [("rpy", "0 0 0"), ("xyz", "0 0 0")] none [], .node "parent" [("link", "r_shoulder_lift_link")] none [], .node "child" [("link", "r_upper_arm_roll_link")] none [], .node "limit" [("effort", "30"), ("lower", "-3.9"), ("upper", "0.8"), ("velocity", "3.27")] none [], .node "safety_controller" [("k_position", "100"), ("k_velocity", "2"), ("soft_lower_limit", "-3.75"), ("soft_upper_limit", "0.65")] none [], .node "calibration" [("reference_position", "-1.57079632679"), ("rising", "-1.57079632679")] none [], .node "dynamics" [("damping", "0.1")] none []],
  .node "link" [("name", "r_upper_arm_roll_link")] none [],
  .node "gazebo" [] none [],
  .node "gazebo" [] none [],
  .node "transmission" [("name", "r_upper_arm_roll_trans"), ("type", "SimpleTransmission")] none [.node "actuator" [("name", "r_upper_arm_roll_motor")] none [], .node "joint" [("name", "r_upper_arm_roll_joint")] none [], .node "mechanicalReduction" [] (some "32.6525111499") []],
  .node "gazebo" [] none [],
  .node "gazebo" [] none [],
  .node "gazebo" [] none [],
  .node "gazebo" [] none [],
  .node "transmission" [("name", "r_shoulder_pan_trans"), ("type", "SimpleTransmission")] none [.node "actuator" [("name", "r_shoulder_pan_motor")] none [], .node "joint" [("name", "r_shoulder_pan_joint")] none [], .node "mechanicalReduction" [] (some "63.1552452977") []],
  .node "transmission" [("name", "r_shoulder_lift_trans"), ("type", "SimpleTransmission")] none [.node "actuator" [("name", "r_shoulder_lift_motor")] none [], .node "joint" [("name", "r_shoulder_lift_joint")] none [], .node "mechanicalReduction" [] (some "61.8948225713") []]]

/-- Children 150 to 174 of the root (pr2.urdf:1-3382). -/
def pr2Part6 : List Xml := [
  .node "joint" [("name", "r_upper_arm_joint"), ("type", "fixed")] none [.node "origin" [("rpy", "0 0 0"), ("xyz", "0 0 0")] none [], .node "parent" [("link", "r_upper_arm_roll_link")] none [], .node "child" [("link", "r_upper_arm_link")] none []],
  .node "link" [("name", "r_upper_arm_link")] none [],
  .node "gazebo" [] none [],
  .node "joint" [("name", "r_forearm_roll_joint"), ("type", "continuous")] none [.node "axis" [("xyz", "1 0 0")] none [], .node "limit" [("effort", "30"), ("velocity", "3.6")] none [], .node "safety_controller" [("k_velocity", "1")] none [], .node "calibration" [("reference_position", "0.0"), ("rising", "0.0")] none [], .node "dynamics" [("damping", "0.1")] none [], .node "origin" [("rpy", "0 0 0"), ("xyz", "0 0 0")] none [], .node "parent" [("link", "r_elbow_flex_link")] none [], .node "child" [("link", "r_forearm_roll_link")] none []],
  .node "link" [("name", "r_forearm_roll_link")] none [],
  .node "gazebo" [] none [],
  .node "gazebo" [] none [],
  .node "transmission" [("name", "r_forearm_roll_trans"), ("type", "SimpleTransmission")] none [.node "actuator" [("name", "r_forearm_roll_motor")] none [], .node "joint" [("name", "r_forearm_roll_joint")] none [], .node "mechanicalReduction" [] (some "-90.5142857143") []],
  .node "joint" [("name", "r_elbow_flex_joint"), ("type", "revolute")] none [.node "axis" [("xyz", "0 1 0")] none [], .node "limit" [("effort", "30"), ("lower", "-2.3213"), ("upper", "0.00"), ("velocity", "3.3")] none [], .node "safety_controller" [("k_position", "100"), ("k_velocity", "3"), ("soft_lower_limit", "-2.1213"), ("soft_upper_limit", "-0.15")] none [], .node "calibration" [("falling", "-1.1606"), ("reference_position", "-1.1606")] none [], .node "dynamics" [("damping", "1.0")] none [], .node "origin" [("rpy", "0 0 0"), ("xyz", "0.4 0 0")] none [], .node "parent" [("link", "r_upper_arm_link")] none [], .node "child" [("link", "r_elbow_flex_link")] none []],
  .node "link" [("name", "r_elbow_flex_link")] none [],
  .node "gazebo" [] none [],
  .node "gazebo" [] none [],
  .node "gazebo" [] none [],
  .node "transmission" [("name", "r_elbow_flex_trans"), ("type", "SimpleTransmission")] none [.node "actuator" [("name", "r_elbow_flex_motor")] none [], .node "joint" [("name", "r_elbow_flex_joint")] none [], .node "mechanicalReduction" [] (some "-36.167452007") []],
  .node "joint" [("name", "r_forearm_joint"), ("type", "fixed")] none [.node "origin" [("rpy", "0 0 0"), ("xyz", "0 0 0")] none [], .node "parent" [("link", "r_forearm_roll_link")] none [], .node "child" [("link", "r_forearm_link")] none []],
  .node "link" [("name", "r_forearm_link")] none [],
  .node "joint" [("name", "r_wrist_flex_joint"), ("type", "revolute")] none [.node "axis" [("xyz", "0 1 0")] none [], .node "limit" [("effort", "10"), ("lower", "-2.094"), ("upper", "0.0"), ("velocity", "3.078")] none [], .node "safety_controller" [("k_position", "20"), ("k_velocity", "4"), ("soft_lower_limit", "-1.994"), ("soft_upper_limit", "-0.1")] none [], .node "dynamics" [("damping", "0.1")] none [], .node "calibration" [("falling", "-0.5410521"), ("reference_position", "-0.5410521")] none [], .node "origin" [("rpy", "0 0 0"), ("xyz", "0.321 0 0")] none [], .node "parent" [("link", "r_forearm_link")] none [], .node "child" [("link", "r_wrist_flex_link")] none []],
  .node "link" [("name", "r_wrist_flex_link")] none [],
  .node "joint" [("name", "r_wrist_roll_joint"), ("type", "continuous")] none [.node "axis" [("xyz", "1 0 0")] none [], .node "limit" [("effort", "10"), ("velocity", "3.6")] none [], .node "safety_controller" [("k_velocity", "2")] none [], .node "dynamics" [("damping", "0.1")] none [], .node "calibration" [("reference_position", "-1.57079632679"), ("rising", "-1.57079632679")] none [], .node "origin" [("rpy", "0 0 0"), ("xyz", "0 0 0")] none [], .node "parent" [("link", "r_wrist_flex_link")] none [], .node "child" [("link", "r_wrist_roll_link")] none []],
  .node "link" [("name", "r_wrist_roll_link")] none [],
  .node "gazebo" [] none [],
  .node "gazebo" [] none [],
  .node "gazebo" [] none [],
  .node "gazebo" [] none [],
  .node "gazebo" [] none []]

/-- Children 175 to 199 of the root (pr2.urdf:1-3382). -/
def pr2Part7 : List Xml := [
  .node "transmission" [("name", "r_wrist_trans"), ("type", "WristTransmission")] none [.node "rightActuator" [("mechanicalReduction", "60.1714285714"), ("name", "r_wrist_r_motor")] none [], .node "leftActuator" [("mechanicalReduction", "60.1714285714"), ("name", "r_wrist_l_motor")] none [], .node "flexJoint" [("mechanicalReduction", "-1.0"), ("name", "r_wrist_flex_joint")] none [], .node "rollJoint" [("mechanicalReduction", "1.0"), ("name", "r_wrist_roll_joint")] none []],
  .node "joint" [("name", "r_gripper_palm_joint"), ("type", "fixed")] none [.node "origin" [("rpy", "0 0 0"), ("xyz", "0 0 0")] none [], .node "parent" [("link", "r_wrist_roll_link")] none [], .node "child" [("link", "r_gripper_palm_link")] none []],
  .node "link" [("name", "r_gripper_palm_link")] none [],
  .node "joint" [("name", "r_gripper_led_joint"), ("type", "fixed")] none [.node "origin" [("xyz", "0.0513 0.0 .0244")] none [], .node "parent" [("link", "r_gripper_palm_link")] none [], .node "child" [("link", "r_gripper_led_frame")] none []],
  .node "link" [("name", "r_gripper_led_frame")] none [],
  .node "joint" [("name", "r_gripper_motor_accelerometer_joint"), ("type", "fixed")] none [.node "origin" [("rpy", "0 0 0"), ("xyz", "0 0 0")] none [], .node "parent" [("link", "r_gripper_palm_link")] none [], .node "child" [("link", "r_gripper_motor_accelerometer_link")] none []],
  .node "link" [("name", "r_gripper_motor_accelerometer_link")] none [],
  .node "joint" [("name", "r_gripper_tool_joint"), ("type", "fixed")] none [.node "origin" [("rpy", "0 0 0"), ("xyz", "0.18 0 0")] none [], .node "parent" [("link", "r_gripper_palm_link")] none [], .node "child" [("link", "r_gripper_tool_frame")] none []],
  .node "link" [("name", "r_gripper_tool_frame")] none [],
  .node "joint" [("name", "r_gripper_l_finger_joint"), ("type", "revolute")] none [.node "axis" [("xyz", "0 0 1")] none [], .node "limit" [("effort", "1000.0"), ("lower", "0.0"), ("upper", "0.548"), ("velocity", "0.5")] none [], .node "dynamics" [("damping", "0.2")] none [], .node "origin" [("rpy", "0 0 0"), ("xyz", "0.07691 0.01 0")] none [], .node "parent" [("link", "r_gripper_palm_link")] none [], .node "child" [("link", "r_gripper_l_finger_link")] none []],
  .node "link" [("name", "r_gripper_l_finger_link")] none [],
  .node "joint" [("name", "r_gripper_r_finger_joint"), ("type", "revolute")] none [.node "axis" [("xyz", "0 0 -1")] none [], .node "origin" [("rpy", "0 0 0"), ("xyz", "0.07691 -0.01 0")] none [], .node "limit" [("effort", "1000.0"), ("lower", "0.0"), ("upper", "0.548"), ("velocity", "0.5")] none [], .node "dynamics" [("damping", "0.2")] none [], .node "mimic" [("joint", "r_gripper_l_finger_joint"), ("multiplier", "1"), ("offset", "0")] none [], .node "parent" [("link", "r_gripper_palm_link")] none [], .node "child" [("link", "r_gripper_r_finger_link")] none []],
  .node "link" [("name", "r_gripper_r_finger_link")] none [],
  .node "joint" [("name", "r_gripper_l_parallel_root_joint"), ("type", "revolute")] none [.node "axis" [("xyz", "0 0 1")] none [], .node "origin" [("rpy", "0 0 0"), ("xyz", "0.05891 0.031 0")] none [], .node "dynamics" [("damping", "0.2")] none [], .node "mimic" [("joint", "r_gripper_l_finger_joint"), ("multiplier", "1"), ("offset", "0")] none [], .node "parent" [("link", "r_gripper_palm_link")] none [], .node "child" [("link", "r_gripper_l_parallel_link")] none [], .node "limit" [("effort", "1000.0"), ("lower", "0.0"), ("upper", "0.548"), ("velocity", "0.5")] none []],
  .node "joint" [("name", "r_gripper_r_parallel_root_joint"), ("type", "revolute")] none [.node "axis" [("xyz", "0 0 -1")] none [], .node "origin" [("rpy", "0 0 0"), ("xyz", "0.05891 -0.031 0")] none [], .node "dynamics" [("damping", "0.2")] none [], .node "mimic" [("joint", "r_gripper_l_finger_joint"), ("multiplier", "-1"), ("offset", "0")] none [], .node "parent" [("link", "r_gripper_palm_link")] none [], .node "child" [("link", "r_gripper_r_parallel_link")] none [], .node "limit" [("effort", "1000.0"), ("lower", "0.0"), ("upper", "0.548"), ("velocity", "0.5")] none []],
  .node "link" [("name", "r_gripper_l_parallel_link")] none [],
  .node "link" [("name", "r_gripper_r_parallel_link")] none [],
  .node "joint" [("name", "r_gripper_l_finger_tip_joint"), ("type", "revolute")] none [.node "axis" [("xyz", "0 0 -1")] none [], .node "origin" [("rpy", "0 0 0"), ("xyz", "0.09137 0.00495 0")] none [], .node "limit" [("effort", "1000.0"), ("lower", "0.0"), ("upper", "0.548"), ("velocity", "0.5")] none [], .node "dynamics" [("damping", "0.01")] none [], .node "mimic" [("joint", "r_gripper_l_finger_joint"), ("multiplier", "1"), ("offset", "0")] none [], .node "parent" [("link", "r_gripper_l_finger_link")] none [], .node "child" [("link", "r_gripper_l_finger_tip_link")] none []],
  .node "link" [("name", "r_gripper_l_finger_tip_link")] none [],
  .node "joint" [("name", "r_gripper_r_finger_tip_joint"), ("type", "revolute")] none [.node "axis" [("xyz", "0 0 1")] none [], .node "origin" [("rpy", "0 0 0"), ("xyz", "0.09137 -0.00495 0")] none [], .node "limit" [("effort", "1000.0"), ("lower", "0.0"), ("upper", "0.548"), ("velocity", "0.5")] none [], .node "dynamics" [("damping", "0.01")] none [], .node "mimic" [("joint", "r_gripper_l_finger_joint"), ("multiplier", "1"), ("offset", "0")] none [], .node "parent" [("link", "r_gripper_r_finger_link")] none [], .node "child" [("link", "r_gripper_r_finger_tip_link")] none []],
  .node "link" [("name", "r_gripper_r_finger_tip_link")] none [],
  .node "gazebo" [] none [],
  .node "gazebo" [] none [],
  .node "gazebo" [] none [],
  .node "gazebo" [] none []]

/-- Children 200 to 224 of the root (pr2.urdf:1-3382). -/
def pr2Part8 : List Xml := [
  .node "gazebo" [] none [],
  .node "gazebo" [] none [],
  .node "gazebo" [] none [],
  .node "gazebo" [] none [],
  .node "gazebo" [] none [],
  .node "gazebo" [] none [],
  .node "gazebo" [] none [],
  .node "gazebo" [] none [],
  .node "joint" [("name", "r_gripper_joint"), ("type", "prismatic")] none [.node "parent" [("link", "r_gripper_r_finger_tip_link")] none [], .node "child" [("link", "r_gripper_l_finger_tip_frame")] none [], .node "axis" [("xyz", "0 1 0")] none [], .node "dynamics" [("damping", "100.0")] none [], .node "limit" [("effort", "1000.0"), ("lower", "0.0"), ("upper", "0.09"), ("velocity", "0.2")] none [], .node "safety_controller" [("k_position", "20.0"), ("k_velocity", "5000.0"), ("soft_lower_limit", "-0.01"), ("soft_upper_limit", "0.088")] none []],
  .node "link" [("name", "r_gripper_l_finger_tip_frame")] none [],
  .node "gazebo" [] none [],
  .node "gazebo" [] none [],
  .node "transmission" [("name", "r_gripper_trans"), ("type", "PR2GripperTransmission")] none [.node "actuator" [("name", "r_gripper_motor")] none [], .node "gap_joint" [("L0", "0.0375528"), ("a", "0.0683698"), ("b", "0.0433849"), ("gear_ratio", "40.095"), ("h", "0.0"), ("mechanical_reduction", "1.0"), ("name", "r_gripper_joint"), ("phi0", "0.518518122146"), ("r", "0.0915"), ("screw_reduction", "0.004"), ("t0", "-0.0001914"), ("theta0", "0.0628824676201")] none [], .node "use_simulated_gripper_joint" [] none [], .node "passive_joint" [("name", "r_gripper_l_finger_joint")] none [], .node "passive_joint" [("name", "r_gripper_r_finger_joint")] none [], .node "passive_joint" [("name", "r_gripper_r_finger_tip_joint")] none [], .node "passive_joint" [("name", "r_gripper_l_finger_tip_joint")] none [], .node "passive_joint" [("name", "r_gripper_r_parallel_root_joint")] none [], .node "passive_joint" [("name", "r_gripper_l_parallel_root_joint")] none []],
  .node "joint" [("name", "l_shoulder_pan_joint"), ("type", "revolute")] none [.node "axis" [("xyz", "0 0 1")] none [], .node "origin" [("rpy", "0 0 0"), ("xyz", "0.0 0.188 0.0")] none [], .node "parent" [("link", "torso_lift_link")] none [], .node "child" [("link", "l_shoulder_pan_link")] none [], .node "limit" [("effort", "30"), ("lower", "-0.714601836603"), ("upper", "2.2853981634"), ("velocity", "2.088")] none [], .node "dynamics" [("damping", "10.0")] none [], .node "safety_controller" [("k_position", "100"), ("k_velocity", "10"), ("soft_lower_limit", "-0.564601836603"), ("soft_upper_limit", "2.1353981634")] none [], .node "calibration" [("reference_position", "0.785398163397"), ("rising", "0.785398163397")] none []],
  .node "link" [("name", "l_shoulder_pan_link")] none [],
  .node "joint" [("name", "l_shoulder_lift_joint"), ("type", "revolute")] none [.node "axis" [("xyz", "0 1 0")] none [], .node "limit" [("effort", "30"), ("lower", "-0.5236"), ("upper", "1.3963"), ("velocity", "2.082")] none [], .node "safety_controller" [("k_position", "100"), ("k_velocity", "10"), ("soft_lower_limit", "-0.3536"), ("soft_upper_limit", "1.2963")] none [], .node "calibration" [("falling", "0.0"), ("reference_position", "0.0")] none [], .node "dynamics" [("damping", "10.0")] none [], .node "origin" [("rpy", "0 0 0"), ("xyz", "0.1 0 0")] none [], .node "parent" [("link", "l_shoulder_pan_link")] none [], .node "child" [("link", "l_shoulder_lift_link")] none []],
  .node "link" [("name", "l_shoulder_lift_link")] none [],
  .node "joint" [("name", "l_upper_arm_roll_joint"), ("type", "revolute")] none [.node "axis" [("xyz", "1 0 0")] none [], .node "origin" [("rpy", "0 0 0"), ("xyz", "0 0 0")] none [], .node "parent" [("link", "l_shoulder_lift_link")] none [], .node "child" [("link", "l_upper_arm_roll_link")] none [], .node "limit" [("effort", "30"), ("lower", "-0.8"), ("upper", "3.9"), ("velocity", "3.27")] none [], .node "safety_controller" [("k_position", "100"), ("k_velocity", "2"), ("soft_lower_limit", "-0.65"), ("soft_upper_limit", "3.75")] none [], .node "calibration" [("reference_position", "1.57079632679"), ("rising", "1.57079632679")] none [], .node "dynamics" [("damping", "0.1")] none []],
  .node "link" [("name", "l_upper_arm_roll_link")] none [],
  .node "gazebo" [] none [],
  .node "gazebo" [] none [],
  .node "transmission" [("name", "l_upper_arm_roll_trans"), ("type", "SimpleTransmission")] none [.node "actuator" [("name", "l_upper_arm_roll_motor")] none [], .node "joint" [("name", "l_upper_arm_roll_joint")] none [], .node "mechanicalReduction" [] (some "32.6525111499") []],
  .node "gazebo" [] none [],
  .node "gazebo" [] none [],
  .node "gazebo" [] none []]

/-- Children 225 to 249 of the root (pr2.urdf:1-3382). -/
def pr2Part9 : List Xml := [
  .node "gazebo" [] none [],
  .node "transmission" [("name", "l_shoulder_pan_trans"), ("type", "SimpleTransmission")] none [.node "actuator" [("name", "l_shoulder_pan_motor")] none [], .node "joint" [("name", "l_shoulder_pan_joint")] none [], .node "mechanicalReduction" [] (some "63.1552452977") []],
  .node "transmission" [("name", "l_shoulder_lift_trans"), ("type", "SimpleTransmission")] none [.node "actuator" [("name", "l_shoulder_lift_motor")] none [], .node "joint" [("name", "l_shoulder_lift_joint")] none [], .node "mechanicalReduction" [] (some "61.8948225713") []],
  .node "joint" [("name", "l_upper_arm_joint"), ("type", "fixed")] none [.node "origin" [("rpy", "0 0 0"), ("xyz", "0 0 0")] none [], .node "parent" [("link", "l_upper_arm_roll_link")] none [], .node "child" [("link", "l_upper_arm_link")] none []],
  .node "link" [("name", "l_upper_arm_link")] none [],
  .node "gazebo" [] none [],
  .node "joint" [("name", "l_forearm_roll_joint"), ("type", "continuous")] none [.node "axis" [("xyz", "1 0 0")] none [], .node "limit" [("effort", "30"), ("velocity", "3.6")] none [], .node "safety_controller" [("k_velocity", "1")] none [], .node "calibration" [("reference_position", "0.0"), ("rising", "0.0")] none [], .node "dynamics" [("damping", "0.1")] none [], .node "origin" [("rpy", "0 0 0"), ("xyz", "0 0 0")] none [], .node "parent" [("link", "l_elbow_flex_link")] none [], .node "child" [("link", "l_forearm_roll_link")] none []],
  .node "link" [("name", "l_forearm_roll_link")] none [],
  .node "gazebo" [] none [],
  .node "gazebo" [] none [],
  .node "transmission" [("name", "l_forearm_roll_trans"), ("type", "SimpleTransmission")] none [.node "actuator" [("name", "l_forearm_roll_motor")] none [], .node "joint" [("name", "l_forearm_roll_joint")] none [], .node "mechanicalReduction" [] (some "-90.5142857143") []],
  .node "joint" [("name", "l_elbow_flex_joint"), ("type", "revolute")] none [.node "axis" [("xyz", "0 1 0")] none [], .node "limit" [("effort", "30"), ("lower", "-2.3213"), ("upper", "0.00"), ("velocity", "3.3")] none [], .node "safety_controller" [("k_position", "100"), ("k_velocity", "3"), ("soft_lower_limit", "-2.1213"), ("soft_upper_limit", "-0.15")] none [], .node "calibration" [("falling", "-1.1606"), ("reference_position", "-1.1606")] none [], .node "dynamics" [("damping", "1.0")] none [], .node "origin" [("rpy", "0 0 0"), ("xyz", "0.4 0 0")] none [], .node "parent" [("link", "l_upper_arm_link")] none [], .node "child" [("link", "l_elbow_flex_link")] none []],
  .node "link" [("name", "l_elbow_flex_link")] none [],
  .node "gazebo" [] none [],
  .node "gazebo" [] none [],
  .node "gazebo" [] none [],
  .node "transmission" [("name", "l_elbow_flex_trans"), ("type", "SimpleTransmission")] none [.node "actuator" [("name", "l_elbow_flex_motor")] none [], .node "joint" [("name", "l_elbow_flex_joint")] none [], .node "mechanicalReduction" [] (some "-36.167452007") []],
  .node "joint" [("name", "l_forearm_joint"), ("type", "fixed")] none [.node "origin" [("rpy", "0 0 0"), ("xyz", "0 0 0")] none [], .node "parent" [("link", "l_forearm_roll_link")] none [], .node "child" [("link", "l_forearm_link")] none []],
  .node "link" [("name", "l_forearm_link")] none [],
  .node "joint" [("name", "l_wrist_flex_joint"), ("type", "revolute")] none [.node "axis" [("xyz", "0 1 0")] none [], .node "limit" [("effort", "10"), ("lower", "-2.094"), ("upper", "0.0"), ("velocity", "3.078")] none [], .node "safety_controller" [("k_position", "20"), ("k_velocity", "4"), ("soft_lower_limit", "-1.994"), ("soft_upper_limit", "-0.1")] none [], .node "dynamics" [("damping", "0.1")] none [], .node "calibration" [("falling", "-0.5410521"), ("reference_position", "-0.5410521")] none [], .node "origin" [("rpy", "0 0 0"), ("xyz", "0.321 0 0")] none [], .node "parent" [("link", "l_forearm_link")] none [], .node "child" [("link", "l_wrist_flex_link")] none []],
  .node "link" [("name", "l_wrist_flex_link")] none [],
  .node "joint" [("name", "l_wrist_roll_joint"), ("type", "continuous")] none [.node "axis" [("xyz", "1 0 0")] none [], .node "limit" [("effort", "10"), ("velocity", "3.6")] none [], .node "safety_controller" [("k_velocity", "2")] none [], .node "dynamics" [("damping", "0.1")] none [], .node "calibration" [("reference_position", "-1.57079632679"), ("rising", "-1.57079632679")] none [], .node "origin" [("rpy", "0 0 0"), ("xyz", "0 0 0")] none [], .node "parent" [("link", "l_wrist_flex_link")] none [], .node "child" [("link", "l_wrist_roll_link")] none []],
  .node "link" [("name", "l_wrist_roll_link")] none [],
  .node "gazebo" [] none [],
  .node "gazebo" [] none []]

/-- Children 250 to 274 of the root (pr2.urdf:1-3382). -/
def pr2Part10 : List Xml := [
  .node "gazebo" [] none [],
  .node "gazebo" [] none [],
  .node "gazebo" [] none [],
  .node "transmission" [("name", "l_wrist_trans"), ("type", "WristTransmission")] none [.node "rightActuator" [("mechanicalReduction", "60.1714285714"), ("name", "l_wrist_r_motor")] none [], .node "leftActuator" [("mechanicalReduction", "60.1714285714"), ("name", "l_wrist_l_motor")] none [], .node "flexJoint" [("mechanicalReduction", "-1.0"), ("name", "l_wrist_flex_joint")] none [], .node "rollJoint" [("mechanicalReduction", "1.0"), ("name", "l_wrist_roll_joint")] none []],
  .node "joint" [("name", "l_gripper_palm_joint"), ("type", "fixed")] none [.node "origin" [("rpy", "0 0 0"), ("xyz", "0 0 0")] none [], .node "parent" [("link", "l_wrist_roll_link")] none [], .node "child" [("link", "l_gripper_palm_link")] none []],
  .node "link" [("name", "l_gripper_palm_link")] none [],
  .node "joint" [("name", "l_gripper_led_joint"), ("type", "fixed")] none [.node "origin" [("xyz", "0.0513 0.0 .0244")] none [], .node "parent" [("link", "l_gripper_palm_link")] none [], .node "child" [("link", "l_gripper_led_frame")] none []],
  .node "link" [("name", "l_gripper_led_frame")] none [],
  .node "joint" [("name", "l_gripper_motor_accelerometer_joint"), ("type", "fixed")] none [.node "origin" [("rpy", "0 0 0"), ("xyz", "0 0 0")] none [], .node "parent" [("link", "l_gripper_palm_link")] none [], .node "child" [("link", "l_gripper_motor_accelerometer_link")] none []],
  .node "link" [("name", "l_gripper_motor_accelerometer_link")] none [],
  .node "joint" [("name", "l_gripper_tool_joint"), ("type", "fixed")] none [.node "origin" [("rpy", "0 0 0"), ("xyz", "0.18 0 0")] none [], .node "parent" [("link", "l_gripper_palm_link")] none [], .node "child" [("link", "l_gripper_tool_frame")] none []],
  .node "link" [("name", "l_gripper_tool_frame")] none [],
  .node "joint" [("name", "l_gripper_l_finger_joint"), ("type", "revolute")] none [.node "axis" [("xyz", "0 0 1")] none [], .node "limit" [("effort", "1000.0"), ("lower", "0.0"), ("upper", "0.548"), ("velocity", "0.5")] none [], .node "dynamics" [("damping", "0.2")] none [], .node "origin" [("rpy", "0 0 0"), ("xyz", "0.07691 0.01 0")] none [], .node "parent" [("link", "l_gripper_palm_link")] none [], .node "child" [("link", "l_gripper_l_finger_link")] none []],
  .node "link" [("name", "l_gripper_l_finger_link")] none [],
  .node "joint" [("name", "l_gripper_r_finger_joint"), ("type", "revolute")] none [.node "axis" [("xyz", "0 0 -1")] none [], .node "origin" [("rpy", "0 0 0"), ("xyz", "0.07691 -0.01 0")] none [], .node "limit" [("effort", "1000.0"), ("lower", "0.0"), ("upper", "0.548"), ("velocity", "0.5")] none [], .node "dynamics" [("damping", "0.2")] none [], .node "mimic" [("joint", "l_gripper_l_finger_joint"), ("multiplier", "1"), ("offset", "0")] none [], .node "parent" [("link", "l_gripper_palm_link")] none [], .node "child" [("link", "l_gripper_r_finger_link")] none []],
  .node "link" [("name", "l_gripper_r_finger_link")] none [],
  .node "joint" [("name", "l_gripper_l_parallel_root_joint"), ("type", "revolute")] none [.node "axis" [("xyz", "0 0 1")] none [], .node "origin" [("rpy", "0 0 0"), ("xyz", "0.05891 0.031 0")] none [], .node "dynamics" [("damping", "0.2")] none [], .node "mimic" [("joint", "l_gripper_l_finger_joint"), ("multiplier", "1"), ("offset", "0")] none [], .node "parent" [("link", "l_gripper_palm_link")] none [], .node "child" [("link", "l_gripper_l_parallel_link")] none [], .node "limit" [("effort", "1000.0"), ("lower", "0.0"), ("upper", "0.548"), ("velocity", "0.5")] none []],
  .node "joint" [("name", "l_gripper_r_parallel_root_joint"), ("type", "revolute")] none [.node "axis" [("xyz", "0 0 -1")] none [], .node "origin" [("rpy", "0 0 0"), ("xyz", "0.05891 -0.031 0")] none [], .node "dynamics" [("damping", "0.2")] none [], .node "mimic" [("joint", "l_gripper_l_finger_joint"), ("multiplier", "-1"), ("offset", "0")] none [], .node "parent" [("link", "l_gripper_palm_link")] none [], .node "child" [("link", "l_gripper_r_parallel_link")] none [], .node "limit" [("effort", "1000.0"), ("lower", "0.0"), ("upper", "0.548"), ("velocity", "0.5")] none []],
  .node "link" [("name", "l_gripper_l_parallel_link")] none [],
  .node "link" [("name", "l_gripper_r_parallel_link")] none [],
  .node "joint" [("name", "l_gripper_l_finger_tip_joint"), ("type", "revolute")] none [.node "axis" [("xyz", "0 0 -1")] none [], .node "origin" [("rpy", "0 0 0"), ("xyz", "0.09137 0.00495 0")] none [], .node "limit" [("effort", "1000.0"), ("lower", "0.0"), ("upper", "0.548"), ("velocity", "0.5")] none [], .node "dynamics" [("damping", "0.01")] none [], .node "mimic" [("joint", "l_gripper_l_finger_joint"), ("multiplier", "1"), ("offset", "0")] none [], .node "parent" [("link", "l_gripper_l_finger_link")] none [], .node "child" [("link", "l_gripper_l_finger_tip_link")] none []],
  .node "link" [("name", "l_gripper_l_finger_tip_link")] none [],
  .node "joint" [("name", "l_gripper_r_finger_tip_joint"), ("type", "revolute")] none [.node "axis" [("xyz", "0 0 1")] none [], .node "origin" [("rpy", "0 0 0"), ("xyz", "0.09137 -0.00495 0")] none [], .node "limit" [("effort", "1000.0"), ("lower", "0.0"), ("upper", "0.548"), ("velocity", "0.5")] none [], .node "dynamics" [("damping", "0.01")] none [], .node "mimic" [("joint", "l_gripper_l_finger_joint"), ("multiplier", "1"), ("offset", "0")] none [], .node "parent" [("link", "l_gripper_r_finger_link")] none [], .node "child" [("link", "l_gripper_r_finger_tip_link")] none []],
  .node "link" [("name", "l_gripper_r_finger_tip_link")] none [],
  .node "gazebo" [] none []]

/-- Children 275 to 299 of the root (pr2.urdf:1-3382). -/
def pr2Part11 : List Xml := [
  .node "gazebo" [] none [],
  .node "gazebo" [] none [],
  .node "gazebo" [] none [],
  .node "gazebo" [] none [],
  .node "gazebo" [] none [],
  .node "gazebo" [] none [],
  .node "gazebo" [] none [],
  .node "gazebo" [] none [],
  .node "gazebo" [] none [],
  .node "gazebo" [] none [],
  .node "gazebo" [] none [],
  .node "joint" [("name", "l_gripper_joint"), ("type", "prismatic")] none [.node "parent" [("link", "l_gripper_r_finger_tip_link")] none [], .node "child" [("link", "l_gripper_l_finger_tip_frame")] none [], .node "axis" [("xyz", "0 1 0")] none [], .node "dynamics" [("damping", "100.0")] none [], .node "limit" [("effort", "1000.0"), ("lower", "0.0"), ("upper", "0.09"), ("velocity", "0.2")] none [], .node "safety_controller" [("k_position", "20.0"), ("k_velocity", "5000.0"), ("soft_lower_limit", "-0.01"), ("soft_upper_limit", "0.088")] none []],
  .node "link" [("name", "l_gripper_l_finger_tip_frame")] none [],
  .node "gazebo" [] none [],
  .node "gazebo" [] none [],
  .node "transmission" [("name", "l_gripper_trans"), ("type", "PR2GripperTransmission")] none [.node "actuator" [("name", "l_gripper_motor")] none [], .node "gap_joint" [("L0", "0.0375528"), ("a", "0.0683698"), ("b", "0.0433849"), ("gear_ratio", "40.095"), ("h", "0.0"), ("mechanical_reduction", "1.0"), ("name", "l_gripper_joint"), ("phi0", "0.518518122146"), ("r", "0.0915"), ("screw_reduction", "0.004"), ("t0", "-0.0001914"), ("theta0", "0.0628824676201")] none [], .node "use_simulated_gripper_joint" [] none [], .node "passive_joint" [("name", "l_gripper_l_finger_joint")] none [], .node "passive_joint" [("name", "l_gripper_r_finger_joint")] none [], .node "passive_joint" [("name", "l_gripper_r_finger_tip_joint")] none [], .node "passive_joint" [("name", "l_gripper_l_finger_tip_joint")] none [], .node "passive_joint" [("name", "l_gripper_r_parallel_root_joint")] none [], .node "passive_joint" [("name", "l_gripper_l_parallel_root_joint")] none []],
  .node "joint" [("name", "l_forearm_cam_frame_joint"), ("type", "fixed")] none [.node "origin" [("rpy", "-1.57079632679 -0.562868683768 0"), ("xyz", ".135 0 .044")] none [], .node "parent" [("link", "l_forearm_roll_link")] none [], .node "child" [("link", "l_forearm_cam_frame")] none []],
  .node "link" [("name", "l_forearm_cam_frame")] none [],
  .node "joint" [("name", "l_forearm_cam_optical_frame_joint"), ("type", "fixed")] none [.node "origin" [("rpy", "-1.57079632679 0.0 -1.57079632679"), ("xyz", "0 0 0")] none [], .node "parent" [("link", "l_forearm_cam_frame")] none [], .node "child" [("link", "l_forearm_cam_optical_frame")] none []],
  .node "link" [("name", "l_forearm_cam_optical_frame")] none [],
  .node "gazebo" [] none [],
  .node "joint" [("name", "r_forearm_cam_frame_joint"), ("type", "fixed")] none [.node "origin" [("rpy", "1.57079632679 -0.562868683768 0"), ("xyz", ".135 0 .044")] none [], .node "parent" [("link", "r_forearm_roll_link")] none [], .node "child" [("link", "r_forearm_cam_frame")] none []],
  .node "link" [("name", "r_forearm_cam_frame")] none [],
  .node "joint" [("name", "r_forearm_cam_optical_frame_joint"), ("type", "fixed")] none [.node "origin" [("rpy", "-1.57079632679 0.0 -1.57079632679"), ("xyz", "0 0 0")] none [], .node "parent" [("link", "r_forearm_cam_frame")] none [], .node "child" [("link", "r_forearm_cam_optical_frame")] none []],
  .node "link" [("name", "r_forearm_cam_optical_frame")] none []]

/-- Children 300 to 300 of the root (pr2.urdf:1-3382). -/
def pr2Part12 : List Xml := [
  .node "gazebo" [] none []]

/-- The document (pr2.urdf:1-3382). -/
def pr2Urdf : Xml := .node "robot" [("name", "pr2")] none (pr2Part0 ++ pr2Part1 ++ pr2Part2 ++ pr2Part3 ++ pr2Part4 ++ pr2Part5 ++ pr2Part6 ++ pr2Part7 ++ pr2Part8 ++ pr2Part9 ++ pr2Part10 ++ pr2Part11 ++ pr2Part12)

end Pr2
