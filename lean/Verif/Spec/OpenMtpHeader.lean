import Verif.Spec.Bytes
import Verif.Model.Basic

/-
The binary header of OpenMTP files as a record: its members one after the other, with the names under which the
program prints them (msat/openmtp/OpenMTP_binary_header.h:206-362), and `Chan` and `Maxdev` for two it does not print.
Independent of the model.
-/
namespace Msat.MtpHeaderSpec
open Msat Spec

/-- The types of the members: bytes, integers of two and four bytes in two's complement, floating point numbers of four
and eight bytes; most significant byte first. -/
inductive Kind where
  | byte
  | i2
  | i4
  | f4
  | f8
deriving DecidableEq, Repr

/-- Number of bytes. -/
def Kind.width : Kind → Nat
  | .byte => 1
  | .i2 => 2
  | .i4 => 4
  | .f4 => 4
  | .f8 => 8

/-- A member: `count` values of the same type. -/
structure Member where
  name : String
  kind : Kind
  count : Nat
deriving DecidableEq, Repr

/-- Number of bytes. -/
def Member.size (m : Member) : Nat := m.count * m.kind.width

/-- The first section, 5175 bytes. -/
def first : List Member :=
  [⟨"Product Type", .byte, 8⟩, ⟨"Year", .i4, 1⟩, ⟨"Jday", .i4, 1⟩, ⟨"Slot", .i4, 1⟩, ⟨"Dtype", .i4, 1⟩,
   ⟨"Date", .i4, 1⟩, ⟨"Time", .i4, 1⟩, ⟨"Satellite Name", .byte, 2⟩, ⟨"spare 1", .byte, 2⟩, ⟨"Proc", .i4, 1⟩,
   ⟨"Chan", .i4, 1⟩, ⟨"CalC0", .byte, 5⟩, ⟨"Space", .byte, 3⟩, ⟨"Calctim", .byte, 5⟩, ⟨"spare 2", .byte, 3⟩,
   ⟨"Rec2siz", .i4, 1⟩, ⟨"Lrecsize", .i4, 1⟩, ⟨"Loffset", .i4, 1⟩, ⟨"Rtmet", .byte, 15⟩, ⟨"Dmmod", .i4, 1⟩,
   ⟨"Rsmet", .i4, 1⟩, ⟨"Ssp", .f4, 1⟩, ⟨"spare 3", .byte, 12⟩, ⟨"Origin", .i4, 1⟩, ⟨"Idx", .byte, 8⟩,
   ⟨"Line1", .i4, 1⟩, ⟨"Pixel1", .i4, 1⟩, ⟨"Nlines", .i4, 1⟩, ⟨"Npixels", .i4, 1⟩, ⟨"spare 4", .byte, 16⟩,
   ⟨"Mlt1", .byte, 2500⟩, ⟨"Mlt2", .byte, 2500⟩, ⟨"Imgqua", .i4, 1⟩, ⟨"spare 5", .byte, 16⟩]

/-- The second section, 2636 bytes. -/
def second : List Member :=
  [⟨"Int", .i4, 1⟩, ⟨"Imp", .i4, 1⟩, ⟨"Spr", .i4, 1⟩, ⟨"Rpr", .i4, 1⟩, ⟨"Lre", .i4, 1⟩, ⟨"Lb0", .i2, 1⟩,
   ⟨"Nsi", .i2, 1⟩, ⟨"Fls", .i2, 20⟩, ⟨"Nsl", .i2, 20⟩, ⟨"Rdpsim", .i2, 20⟩, ⟨"Hist1", .i4, 256⟩,
   ⟨"Hist2", .i4, 256⟩, ⟨"Timef", .f8, 1⟩, ⟨"Timel", .f8, 1⟩, ⟨"Orbf", .f8, 6⟩, ⟨"Orbl", .f8, 6⟩, ⟨"Attf", .f4, 3⟩,
   ⟨"Attl", .f4, 3⟩, ⟨"Earco", .i2, 12⟩, ⟨"Htime", .f8, 1⟩, ⟨"spare 8", .byte, 24⟩, ⟨"Status", .byte, 16⟩, ⟨"Irchan", .i2, 1⟩,
   ⟨"Lstart", .i2, 1⟩, ⟨"Horlim", .i2, 12⟩, ⟨"Hortim", .f8, 2⟩, ⟨"Ls", .i2, 1⟩, ⟨"Ln", .i2, 1⟩, ⟨"Rmid", .f4, 1⟩,
   ⟨"Tmid", .f8, 1⟩, ⟨"Distan", .f8, 1⟩, ⟨"Betaso", .f8, 1⟩, ⟨"Betano", .f8, 1⟩, ⟨"Betase", .f8, 1⟩,
   ⟨"Betane", .f8, 1⟩, ⟨"Etas", .f8, 1⟩, ⟨"Etan", .f8, 1⟩, ⟨"Betasn", .f8, 1⟩, ⟨"Betann", .f8, 1⟩,
   ⟨"F0old", .f8, 1⟩, ⟨"F1old", .f8, 1⟩, ⟨"F0new", .f8, 1⟩, ⟨"F1new", .f8, 1⟩, ⟨"spare 6", .byte, 16⟩,
   ⟨"S0", .f8, 1⟩, ⟨"S1", .f8, 1⟩, ⟨"S2", .f8, 1⟩, ⟨"Sigmas", .f8, 1⟩, ⟨"Maxdev", .f8, 1⟩, ⟨"spare 7", .byte, 16⟩]

/-- The third section, 136704 bytes. -/
def third : List Member :=
  [⟨"Ndgrp", .i4, 1⟩, ⟨"Dmstrt", .i4, 1⟩, ⟨"Dmend", .i4, 1⟩, ⟨"Dmstep", .i4, 1⟩, ⟨"Defmax", .f4, 105 * 105⟩,
   ⟨"Defmay", .f4, 105 * 105⟩, ⟨"Ncor", .i4, 1⟩, ⟨"Chid1", .i4, 1⟩, ⟨"Ewgeo1", .f4, 3030⟩, ⟨"Nsgeo1", .f4, 3030⟩,
   ⟨"Roff1", .f4, 3030⟩, ⟨"Rgain1", .f4, 3030⟩]

/-- What follows in the third section of a composite of both visible channels, 48484 bytes. -/
def composite : List Member :=
  [⟨"Chid2", .i4, 1⟩, ⟨"Ewgeo2", .f4, 3030⟩, ⟨"Nsgeo2", .f4, 3030⟩, ⟨"Roff2", .f4, 3030⟩, ⟨"Rgain2", .f4, 3030⟩]

/-- The values of all members, by name and index; a floating point number is its bit pattern. -/
abbrev Content := String → Nat → Int

/-- A value of a type. -/
def Kind.Fits : Kind → Int → Prop
  | .byte, v => 0 ≤ v ∧ v < 2 ^ 8
  | .i2, v => -2 ^ 15 ≤ v ∧ v < 2 ^ 15
  | .i4, v => -2 ^ 31 ≤ v ∧ v < 2 ^ 31
  | .f4, v => 0 ≤ v ∧ v < 2 ^ 32
  | .f8, v => 0 ≤ v ∧ v < 2 ^ 64

/-- The members of a header with given values: only composites have the last part of the third section. -/
def members (c : Content) : List Member :=
  first ++ second ++ third ++ (if c "Chan" 0 = 3 then composite else [])

/-- All values fit the types of their members. -/
def Fits (c : Content) : Prop := ∀ m ∈ members c, ∀ i < m.count, m.kind.Fits (c m.name i)

/-- The bytes of a member. -/
def Member.encode (m : Member) (c : Content) : Bytes :=
  (List.range m.count).flatMap fun i => encBE m.kind.width (pattern (8 * m.kind.width) (c m.name i))

/-- The bytes of members one after the other. -/
def encode (ms : List Member) (c : Content) : Bytes := ms.flatMap fun m => m.encode c

/-- The bytes of the binary header with given values, as they are in the file. -/
def headerBytes (c : Content) : Bytes := encode (members c) c

/-- A product is rectified. -/
def Rectified (c : Content) : Prop := 3 < c "Proc" 0

/-- What a reader keeps: nothing of the second section of rectified products, whose content has no meaning, and zeros for
what a header does not have. -/
def kept (c : Content) : Content := fun name i =>
  if 3 < c "Proc" 0 ∧ name ∈ second.map (·.name) then 0
  else if c "Chan" 0 ≠ 3 ∧ name ∈ composite.map (·.name) then 0
  else c name i

/-- Which member an accessor that gives a number is about. -/
def numberOf : List (String × String) :=
  [("year", "Year"), ("jday", "Jday"), ("slot", "Slot"), ("dtype", "Dtype"), ("date", "Date"), ("time", "Time"),
   ("proc", "Proc"), ("chan", "Chan"), ("header_2_record_size", "Rec2siz"), ("image_line_record_size", "Lrecsize"),
   ("offset_first_pixel_in_line", "Loffset"), ("deformation_model", "Dmmod"), ("resampling_method", "Rsmet"),
   ("subsatellite_point", "Ssp"), ("origin", "Origin"), ("first_line", "Line1"), ("first_pixel", "Pixel1"),
   ("nlines", "Nlines"), ("npixels", "Npixels"), ("image_quality", "Imgqua"), ("urect_nominal_end_time", "Int"),
   ("urect_processing_performed", "Imp"), ("urect_special_output", "Spr"), ("urect_radiometer_refpos", "Rpr"),
   ("urect_refpos_line_number", "Lre"), ("urect_scanning_law", "Lb0"), ("urect_number_of_received_subimage", "Nsi"),
   ("urec_start_image", "Timef"), ("urec_end_image", "Timel"), ("urec_time_of_first_pixel", "Htime"),
   ("urec_ir_channel_in_use", "Irchan"), ("urec_radiometer_step_offset_start", "Lstart"),
   ("urec_radiometer_step_south", "Ls"), ("urec_radiometer_step_north", "Ln"), ("urec_rmid", "Rmid"),
   ("urec_tmid", "Tmid"), ("urec_distance_es", "Distan"), ("urec_cone_angle_beta_south_obs", "Betaso"),
   ("urec_cone_angle_beta_north_obs", "Betano"), ("urec_cone_angle_beta_south_exp", "Betase"),
   ("urec_cone_angle_beta_north_exp", "Betane"), ("urec_etas", "Etas"), ("urec_etan", "Etan"),
   ("urec_betasn", "Betasn"), ("urec_betann", "Betann"), ("urec_step_parameter_F0_old", "F0old"),
   ("urec_step_parameter_F1_old", "F1old"), ("urec_step_parameter_F0_new", "F0new"),
   ("urec_step_parameter_F1_new", "F1new"), ("urec_spin_deviation_fit_const", "S0"),
   ("urec_spin_deviation_fit_linear", "S1"), ("urec_spin_deviation_fit_quad", "S2"),
   ("urec_standard_deviation_spin_fit", "Sigmas"), ("urec_maximum_deviation_spin_fit", "Maxdev"),
   ("ngridpoints_deformation_matrix", "Ndgrp"), ("grid_deformation_start", "Dmstrt"), ("grid_deformation_end", "Dmend"),
   ("grid_deformation_step", "Dmstep"), ("number_corrected_channels", "Ncor"), ("chid_first_corrected", "Chid1"),
   ("chid_second_corrected", "Chid2")]

/-- Which member an accessor that gives an array is about. -/
def arrayOf : List (String × String) :=
  [("urect_first_line_in_subimage", "Fls"), ("urect_nlines_in_subimage", "Nsl"),
   ("urect_curr_decoded_rad_pos_of_first_line_in_subimage", "Rdpsim"), ("urect_raw_image_histogram", "Hist1"),
   ("urect_raw_image_histogram_VISn", "Hist2"), ("urec_orbit_coord_in_geoframe_start", "Orbf"),
   ("urec_orbit_coord_in_geoframe_end", "Orbl"), ("urec_cartesian_attitude_start", "Attf"),
   ("urec_cartesian_attitude_end", "Attl"), ("urec_horizon_information", "Earco"), ("urec_status_flags", "Status"),
   ("urec_horizon_limit_information", "Horlim"), ("urec_times_of_horizon_scan_lines", "Hortim"),
   ("deformation_matrix_x", "Defmax"), ("deformation_matrix_y", "Defmay"), ("line_geometric_correction_EW_1", "Ewgeo1"),
   ("line_geometric_correction_NS_1", "Nsgeo1"), ("line_radiometric_correction_offset_1", "Roff1"),
   ("line_radiometric_correction_gain_1", "Rgain1"), ("line_geometric_correction_EW_2", "Ewgeo2"),
   ("line_geometric_correction_NS_2", "Nsgeo2"), ("line_radiometric_correction_offset_2", "Roff2"),
   ("line_radiometric_correction_gain_2", "Rgain2")]

/-- What an array shows of a value: the status bytes are shown as flags. -/
def shown (name : String) (v : Int) : Int := if name = "Status" then (if v ≠ 0 then 1 else 0) else v

/-- Which member an accessor that gives a text is about. -/
def textOf : List (String × String) :=
  [("field_name", "Product Type"), ("satellite_name", "Satellite Name"), ("rectification_method_name", "Rtmet"),
   ("phenomena_index", "Idx"), ("missing_line_table", "Mlt1"), ("missing_line_table_VISn", "Mlt2")]

/-- Which member a test is about and which of its values passes. -/
def codeOf : List (String × String × Int) :=
  [("is_no_data_slot", "Slot", 0), ("is_normal_slot", "Slot", 1), ("is_special_slot", "Slot", 2),
   ("is_raw_data", "Proc", 0), ("is_ir_processed", "Proc", 1), ("is_vis_processed", "Proc", 2),
   ("is_wv_processed", "Proc", 3), ("is_rectified_to_next_neighbour", "Proc", 5), ("is_no_data", "Chan", 0),
   ("is_VISs_data", "Chan", 1), ("is_VISn_data", "Chan", 2), ("is_visible_composite", "Chan", 3),
   ("is_ir1_data", "Chan", 4), ("is_ir2_data", "Chan", 5), ("is_wv1_data", "Chan", 6), ("is_wv2_data", "Chan", 7),
   ("is_deformation_none", "Dmmod", 0), ("is_deformation_batch", "Dmmod", 1), ("is_deformation_realtime", "Dmmod", 2),
   ("is_resampling_none", "Rsmet", 0), ("is_resampling_nearest_neighbour", "Rsmet", 1),
   ("is_resampling_splines_4x4", "Rsmet", 2), ("is_south_east", "Origin", 0), ("is_north_east", "Origin", 1),
   ("is_north_west", "Origin", 2), ("is_south_west", "Origin", 3), ("is_image_quality_nominal", "Imgqua", 0),
   ("is_image_attitude_unknown", "Imgqua", 1), ("is_image_orbit_unknown", "Imgqua", 2),
   ("is_image_horizon_incomplete", "Imgqua", 3), ("is_image_deformation_not_calculated", "Imgqua", 4),
   ("is_image_RADOPOS_LID_inconsistent", "Imgqua", 5), ("is_image_HR_not_interpreted", "Imgqua", 6),
   ("is_urect_raw_data", "Imp", 0), ("is_urect_preprocessed_data", "Imp", 1),
   ("is_urect_special_output_no_data", "Spr", 0), ("is_urect_special_output_VISs_IR_WV", "Spr", 1),
   ("is_urect_special_output_VISn", "Spr", 2), ("is_urect_special_output_VISs_VISn", "Spr", 3)]

/-- The flags of `Status` by their index. -/
def statusOf : List (String × Nat) :=
  [("is_urec_horizon_analysis_ok", 0), ("is_urec_spin_speed_fit_ok", 1), ("is_urec_orbit_offset_vector_fit_ok", 2),
   ("is_urec_pixel_resampling_rate_fit_ok", 3), ("is_urec_attitude_refinement_ok", 4),
   ("is_urec_automatic_landmark_ok", 5), ("is_urec_actual_image_movement_fit_ok", 6),
   ("is_urec_calculation_of_deformation_ok", 7), ("is_urec_geometrical_LPEF_ok", 8),
   ("is_urec_rectification_segmentation_ok", 9), ("is_urec_amplitude_processing_ok", 10)]

end Msat.MtpHeaderSpec
