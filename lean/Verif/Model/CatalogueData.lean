import Verif.Model.Catalogue
/-!
# The catalogue that comes with the library

The codes and the names of `Patro/Measurement/data/valentina-standard-measurements.yaml`, generated from it. The other fields, which the loading does not
look at, are left empty.
-/

namespace Patro.Catalogue

open Patro.Text (Text)

/-- A measurement of the catalogue: its code and its fields. -/
def field (code name : String) : Text × List Text := (code.toList, [name.toList, [], [], []])

/-- `Patro/Measurement/data/valentina-standard-measurements.yaml`. -/
def shipped : Dict Text Topic := [
  ("A".toList, ⟨some [
      field "A01" "height", field "A02" "height_neck_back", field "A03" "height_scapula", field "A04" "height_armpit",
      field "A05" "height_waist_side", field "A06" "height_hip", field "A07" "height_gluteal_fold", field "A08" "height_knee",
      field "A09" "height_calf", field "A10" "height_ankle_high", field "A11" "height_ankle", field "A12" "height_highhip",
      field "A13" "height_waist_front", field "A14" "height_bustpoint", field "A15" "height_shoulder_tip", field "A16" "height_neck_front",
      field "A17" "height_neck_side", field "A18" "height_neck_back_to_knee", field "A19" "height_waist_side_to_knee",
      field "A20" "height_waist_side_to_hip", field "A21" "height_knee_to_ankle", field "A22" "height_neck_back_to_waist_side",
      field "A23" "height_waist_back"]⟩),
  ("B".toList, ⟨some [
      field "B01" "width_shoulder", field "B02" "width_bust", field "B03" "width_waist", field "B04" "width_hip",
      field "B05" "width_abdomen_to_hip"]⟩),
  ("C".toList, ⟨some [
      field "C01" "indent_neck_back", field "C02" "indent_waist_back", field "C03" "indent_ankle_high"]⟩),
  ("D".toList, ⟨some [
      field "D01" "hand_palm_length", field "D02" "hand_length", field "D03" "hand_palm_width", field "D04" "hand_palm_circ",
      field "D05" "hand_circ"]⟩),
  ("E".toList, ⟨some [
      field "E01" "foot_width", field "E02" "foot_length", field "E03" "foot_circ", field "E04" "foot_instep_circ"]⟩),
  ("F".toList, ⟨some [
      field "F01" "head_circ", field "F02" "head_length", field "F03" "head_depth", field "F04" "head_width",
      field "F05" "head_crown_to_neck_back", field "F06" "head_chin_to_neck_back"]⟩),
  ("G".toList, ⟨some [
      field "G01" "neck_mid_circ", field "G02" "neck_circ", field "G03" "highbust_circ", field "G04" "bust_circ",
      field "G05" "lowbust_circ", field "G06" "rib_circ", field "G07" "waist_circ", field "G08" "highhip_circ", field "G09" "hip_circ",
      field "G10" "neck_arc_f", field "G11" "highbust_arc_f", field "G12" "size", field "G13" "lowbust_arc_f", field "G14" "rib_arc_f",
      field "G15" "waist_arc_f", field "G16" "highhip_arc_f", field "G17" "hip_arc_f", field "G18" "neck_arc_half_f",
      field "G19" "highbust_arc_half_f", field "G20" "bust_arc_half_f", field "G21" "lowbust_arc_half_f", field "G22" "rib_arc_half_f",
      field "G23" "waist_arc_half_f", field "G24" "highhip_arc_half_f", field "G25" "hip_arc_half_f", field "G26" "neck_arc_b",
      field "G27" "highbust_arc_b", field "G28" "bust_arc_b", field "G29" "lowbust_arc_b", field "G30" "rib_arc_b",
      field "G31" "waist_arc_b", field "G32" "highhip_arc_b", field "G33" "hip_arc_b", field "G34" "neck_arc_half_b",
      field "G35" "highbust_arc_half_b", field "G36" "bust_arc_half_b", field "G37" "lowbust_arc_half_b", field "G38" "rib_arc_half_b",
      field "G39" "waist_arc_half_b", field "G40" "highhip_arc_half_b", field "G41" "hip_arc_half_b", field "G42" "hip_with_abdomen_arc_f",
      field "G43" "body_armfold_circ", field "G44" "body_bust_circ", field "G45" "body_torso_circ", field "G46" "hip_circ_with_abdomen"]⟩),
  ("H".toList, ⟨some [
      field "H01" "neck_front_to_waist_f", field "H02" "neck_front_to_waist_flat_f", field "H03" "armpit_to_waist_side",
      field "H04" "shoulder_tip_to_waist_side_f", field "H05" "neck_side_to_waist_f", field "H06" "neck_side_to_waist_bustpoint_f",
      field "H07" "neck_front_to_highbust_f", field "H08" "highbust_to_waist_f", field "H09" "neck_front_to_bust_f",
      field "H10" "bust_to_waist_f", field "H11" "lowbust_to_waist_f", field "H12" "rib_to_waist_side",
      field "H13" "shoulder_tip_to_armfold_f", field "H14" "neck_side_to_bust_f", field "H15" "neck_side_to_highbust_f",
      field "H16" "shoulder_center_to_highbust_f", field "H17" "shoulder_tip_to_waist_side_b", field "H18" "neck_side_to_waist_b",
      field "H19" "neck_back_to_waist_b", field "H20" "neck_side_to_waist_scapula_b", field "H21" "neck_back_to_highbust_b",
      field "H22" "highbust_to_waist_b", field "H23" "neck_back_to_bust_b", field "H24" "bust_to_waist_b",
      field "H25" "lowbust_to_waist_b", field "H26" "shoulder_tip_to_armfold_b", field "H27" "neck_side_to_bust_b",
      field "H28" "neck_side_to_highbust_b", field "H29" "shoulder_center_to_highbust_b", field "H30" "waist_to_highhip_f",
      field "H31" "waist_to_hip_f", field "H32" "waist_to_highhip_side", field "H33" "waist_to_highhip_b", field "H34" "waist_to_hip_b",
      field "H35" "waist_to_hip_side", field "H36" "shoulder_slope_neck_side_angle", field "H37" "shoulder_slope_neck_side_length",
      field "H38" "shoulder_slope_neck_back_angle", field "H39" "shoulder_slope_neck_back_height",
      field "H40" "shoulder_slope_shoulder_tip_angle", field "H41" "neck_back_to_across_back", field "H42" "across_back_to_waist_b"]⟩),
  ("I".toList, ⟨some [
      field "I01" "shoulder_length", field "I02" "shoulder_tip_to_shoulder_tip_f", field "I03" "across_chest_f",
      field "I04" "armfold_to_armfold_f", field "I05" "shoulder_tip_to_shoulder_tip_half_f", field "I06" "across_chest_half_f",
      field "I07" "shoulder_tip_to_shoulder_tip_b", field "I08" "across_back_b", field "I09" "armfold_to_armfold_b",
      field "I10" "shoulder_tip_to_shoulder_tip_half_b", field "I11" "across_back_half_b", field "I12" "neck_front_to_shoulder_tip_f",
      field "I13" "neck_back_to_shoulder_tip_b", field "I14" "neck_width"]⟩),
  ("J".toList, ⟨some [
      field "J01" "bustpoint_to_bustpoint", field "J02" "bustpoint_to_neck_side", field "J03" "bustpoint_to_lowbust",
      field "J04" "bustpoint_to_waist", field "J05" "bustpoint_to_bustpoint_half", field "J06" "bustpoint_neck_side_to_waist",
      field "J07" "bustpoint_to_shoulder_tip", field "J08" "bustpoint_to_waist_front", field "J09" "bustpoint_to_bustpoint_halter",
      field "J10" "bustpoint_to_shoulder_center"]⟩),
  ("K".toList, ⟨some [
      field "K01" "shoulder_tip_to_waist_front", field "K02" "neck_front_to_waist_side", field "K03" "neck_side_to_waist_side_f",
      field "K04" "shoulder_tip_to_waist_back", field "K05" "shoulder_tip_to_waist_b_1in_offset", field "K06" "neck_back_to_waist_side",
      field "K07" "neck_side_to_waist_side_b", field "K08" "neck_side_to_armfold_f", field "K09" "neck_side_to_armpit_f",
      field "K10" "neck_side_to_bust_side_f", field "K11" "neck_side_to_armfold_b", field "K12" "neck_side_to_armpit_b",
      field "K13" "neck_side_to_bust_side_b"]⟩),
  ("L".toList, ⟨some [
      field "L01" "arm_shoulder_tip_to_wrist_bent", field "L02" "arm_shoulder_tip_to_elbow_bent", field "L03" "arm_elbow_to_wrist_bent",
      field "L04" "arm_elbow_circ_bent", field "L05" "arm_shoulder_tip_to_wrist", field "L06" "arm_shoulder_tip_to_elbow",
      field "L07" "arm_elbow_to_wrist", field "L08" "arm_armpit_to_wrist", field "L09" "arm_armpit_to_elbow",
      field "L10" "arm_elbow_to_wrist_inside", field "L11" "arm_upper_circ", field "L12" "arm_above_elbow_circ",
      field "L13" "arm_elbow_circ", field "L14" "arm_lower_circ", field "L15" "arm_wrist_circ",
      field "L16" "arm_shoulder_tip_to_armfold_line", field "L17" "arm_neck_side_to_wrist", field "L18" "arm_neck_side_to_finger_tip",
      field "L19" "armscye_circ", field "L20" "armscye_length", field "L21" "armscye_width", field "L22" "arm_neck_side_to_outer_elbow"]⟩),
  ("M".toList, ⟨some [
      field "M01" "leg_crotch_to_floor", field "M02" "leg_waist_side_to_floor", field "M03" "leg_thigh_upper_circ",
      field "M04" "leg_thigh_mid_circ", field "M05" "leg_knee_circ", field "M06" "leg_knee_small_circ", field "M07" "leg_calf_circ",
      field "M08" "leg_ankle_high_circ", field "M09" "leg_ankle_circ", field "M10" "leg_knee_circ_bent", field "M11" "leg_ankle_diag_circ",
      field "M12" "leg_crotch_to_ankle", field "M13" "leg_waist_side_to_ankle", field "M14" "leg_waist_side_to_knee"]⟩),
  ("N".toList, ⟨some [
      field "N01" "crotch_length", field "N02" "crotch_length_b", field "N03" "crotch_length_f", field "N04" "rise_length_side_sitting",
      field "N05" "rise_length_diag", field "N06" "rise_length_b", field "N07" "rise_length_f", field "N08" "rise_length_side"]⟩),
  ("O".toList, ⟨some [
      field "O01" "neck_back_to_waist_front", field "O02" "waist_to_waist_halter", field "O03" "waist_natural_circ",
      field "O04" "waist_natural_arc_f", field "O05" "waist_natural_arc_b", field "O06" "waist_to_natural_waist_f",
      field "O07" "waist_to_natural_waist_b", field "O08" "arm_neck_back_to_elbow_bent", field "O09" "arm_neck_back_to_wrist_bent",
      field "O10" "arm_neck_side_to_elbow_bent", field "O11" "arm_neck_side_to_wrist_bent",
      field "O12" "arm_across_back_center_to_elbow_bent", field "O13" "arm_across_back_center_to_wrist_bent",
      field "O14" "arm_armscye_back_center_to_wrist_bent"]⟩),
  ("P".toList, ⟨some [
      field "P01" "neck_back_to_bust_front", field "P02" "neck_back_to_armfold_front",
      field "P03" "neck_back_to_armfold_front_to_waist_side", field "P04" "highbust_back_over_shoulder_to_armfold_front",
      field "P05" "highbust_back_over_shoulder_to_waist_front", field "P06" "neck_back_to_armfold_front_to_neck_back",
      field "P07" "across_back_center_to_armfold_front_to_across_back_center", field "P08" "neck_back_to_armfold_front_to_highbust_back",
      field "P09" "armfold_to_armfold_bust", field "P10" "armfold_to_bust_front", field "P11" "highbust_b_over_shoulder_to_highbust_f",
      field "P12" "armscye_arc"]⟩),
  ("Q".toList, ⟨some [
      field "Q01" "dart_width_shoulder", field "Q02" "dart_width_bust", field "Q03" "dart_width_waist"]⟩)]

end Patro.Catalogue
