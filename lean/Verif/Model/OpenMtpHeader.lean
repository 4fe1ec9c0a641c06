import Verif.Model.OpenMTP

/-
The members of the binary header of OpenMTP files, msat/openmtp/OpenMTP_binary_header.cpp:100-809.

The accessors all have one of a few shapes, and are modelled as tables with one entry per function; the comment of an
entry gives its lines.  Simplifications: floating point numbers are their bit patterns; the texts of the calibration
(244-259) are in Model/OpenMTP.lean, the disjunctions `is_vis_data`, `is_ir_data`, `is_wv_data` and `is_line_present`
too; a char is a number from 0 to 255.
-/
namespace Msat.MtpHeader
open Msat Machine

/-- How a member is decoded. -/
inductive Get where
  | byte
  | flag
  | int2
  | int4
  | float4
  | float8
deriving DecidableEq, Repr

/-- msat/openmtp/OpenMTP_machine.cpp:48-57 `int2` -/
def int2 (header : Bytes) (off : Nat) : Int := getI2 .little false (header.getD off 0) (header.getD (off + 1) 0)

/-- msat/openmtp/OpenMTP_machine.cpp:89-100 `float4`, as a bit pattern -/
def float4 (header : Bytes) (off : Nat) : Int :=
  getUI4 .little false (header.getD off 0) (header.getD (off + 1) 0) (header.getD (off + 2) 0) (header.getD (off + 3) 0)

/-- msat/openmtp/OpenMTP_machine.cpp:72-87 `float8`, as a bit pattern -/
def float8 (header : Bytes) (off : Nat) : Int :=
  getUI8 .little false (header.getD off 0) (header.getD (off + 1) 0) (header.getD (off + 2) 0) (header.getD (off + 3) 0)
    (header.getD (off + 4) 0) (header.getD (off + 5) 0) (header.getD (off + 6) 0) (header.getD (off + 7) 0)

/-- What is read at an offset: `*(header+off)`, the same as a `bool`, or one of the functions of
msat/openmtp/OpenMTP_machine.cpp:48-100. -/
def Get.value (g : Get) (header : Bytes) (off : Nat) : Int :=
  match g with
  | .byte => (header.getD off 0).toNat
  | .flag => if (header.getD off 0).toNat ≠ 0 then 1 else 0
  | .int2 => MtpHeader.int2 header off
  | .int4 => Mtp.int4 header off
  | .float4 => MtpHeader.float4 header off
  | .float8 => MtpHeader.float8 header off

/-- An accessor `return m.get(header+off);` -/
structure Value where
  name : String
  get : Get
  off : Nat
deriving DecidableEq, Repr

/-- An accessor `static T tmp[len]; for (int i = 0; i < read; i ++) tmp[i] = m.get(header+off+i*step); return tmp;` -/
structure Array where
  name : String
  get : Get
  off : Nat
  step : Nat
  len : Nat
  read : Nat
deriving DecidableEq, Repr

/-- An accessor `static char tmp[n+1]; memcpy(tmp, header+off, n); tmp[n] = 0; return tmp;` -/
structure Text where
  name : String
  off : Nat
  n : Nat
deriving DecidableEq, Repr

/-- The comparison of a test. -/
inductive Cmp where
  | eq (k : Int)
  | gt (k : Int)
deriving DecidableEq, Repr

/-- A test `return (m.get(header+off) == k);` or `> k`. -/
structure Test where
  name : String
  get : Get
  off : Nat
  cmp : Cmp
deriving DecidableEq, Repr

/-- The accessors of msat/openmtp/OpenMTP_binary_header.cpp that give a number. -/
def values : List Value :=
  [⟨"year", .int4, 8⟩,  -- 131-134
   ⟨"jday", .int4, 12⟩,  -- 135-138
   ⟨"slot", .int4, 16⟩,  -- 139-142
   ⟨"dtype", .int4, 20⟩,  -- 155-158
   ⟨"date", .int4, 24⟩,  -- 159-162
   ⟨"time", .int4, 28⟩,  -- 163-166
   ⟨"proc", .int4, 36⟩,  -- 167-170
   ⟨"chan", .int4, 40⟩,  -- 195-198
   ⟨"header_2_record_size", .int4, 60⟩,  -- 260-263
   ⟨"image_line_record_size", .int4, 64⟩,  -- 264-267
   ⟨"offset_first_pixel_in_line", .int4, 68⟩,  -- 268-271
   ⟨"deformation_model", .int4, 87⟩,  -- 272-275
   ⟨"resampling_method", .int4, 91⟩,  -- 288-291
   ⟨"subsatellite_point", .float4, 95⟩,  -- 304-307
   ⟨"origin", .int4, 111⟩,  -- 308-311
   ⟨"first_line", .int4, 123⟩,  -- 328-331
   ⟨"first_pixel", .int4, 127⟩,  -- 332-335
   ⟨"nlines", .int4, 131⟩,  -- 336-339
   ⟨"npixels", .int4, 135⟩,  -- 340-343
   ⟨"image_quality", .int4, 5155⟩,  -- 344-347
   ⟨"urect_nominal_end_time", .int4, 5175⟩,  -- 398-401
   ⟨"urect_processing_performed", .int4, 5179⟩,  -- 402-405
   ⟨"urect_special_output", .int4, 5183⟩,  -- 414-417
   ⟨"urect_radiometer_refpos", .int4, 5187⟩,  -- 434-437
   ⟨"urect_refpos_line_number", .int4, 5191⟩,  -- 438-441
   ⟨"urect_scanning_law", .int2, 5195⟩,  -- 442-445
   ⟨"urect_number_of_received_subimage", .int2, 5197⟩,  -- 446-449
   ⟨"urec_start_image", .float8, 7367⟩,  -- 490-493
   ⟨"urec_end_image", .float8, 7375⟩,  -- 494-497
   ⟨"urec_time_of_first_pixel", .float8, 7527⟩,  -- 537-540
   ⟨"urec_ir_channel_in_use", .int2, 7575⟩,  -- 592-595
   ⟨"urec_radiometer_step_offset_start", .int2, 7577⟩,  -- 596-599
   ⟨"urec_radiometer_step_south", .int2, 7619⟩,  -- 614-617
   ⟨"urec_radiometer_step_north", .int2, 7621⟩,  -- 618-621
   ⟨"urec_rmid", .float4, 7623⟩,  -- 622-625
   ⟨"urec_tmid", .float8, 7627⟩,  -- 626-629
   ⟨"urec_distance_es", .float8, 7635⟩,  -- 630-633
   ⟨"urec_cone_angle_beta_south_obs", .float8, 7643⟩,  -- 634-637
   ⟨"urec_cone_angle_beta_north_obs", .float8, 7651⟩,  -- 638-641
   ⟨"urec_cone_angle_beta_south_exp", .float8, 7659⟩,  -- 642-645
   ⟨"urec_cone_angle_beta_north_exp", .float8, 7667⟩,  -- 646-649
   ⟨"urec_etas", .float8, 7675⟩,  -- 650-653
   ⟨"urec_etan", .float8, 7683⟩,  -- 654-657
   ⟨"urec_betasn", .float8, 7691⟩,  -- 658-661
   ⟨"urec_betann", .float8, 7699⟩,  -- 662-665
   ⟨"urec_step_parameter_F0_old", .float8, 7707⟩,  -- 666-669
   ⟨"urec_step_parameter_F1_old", .float8, 7715⟩,  -- 670-673
   ⟨"urec_step_parameter_F0_new", .float8, 7723⟩,  -- 674-677
   ⟨"urec_step_parameter_F1_new", .float8, 7731⟩,  -- 678-681
   ⟨"urec_spin_deviation_fit_const", .float8, 7755⟩,  -- 682-685
   ⟨"urec_spin_deviation_fit_linear", .float8, 7763⟩,  -- 686-689
   ⟨"urec_spin_deviation_fit_quad", .float8, 7771⟩,  -- 690-693
   ⟨"urec_standard_deviation_spin_fit", .float8, 7779⟩,  -- 694-697
   ⟨"urec_maximum_deviation_spin_fit", .float8, 7787⟩,  -- 698-701
   ⟨"ngridpoints_deformation_matrix", .int4, 7811⟩,  -- 702-705
   ⟨"grid_deformation_start", .int4, 7815⟩,  -- 706-709
   ⟨"grid_deformation_end", .int4, 7819⟩,  -- 710-713
   ⟨"grid_deformation_step", .int4, 7823⟩,  -- 714-717
   ⟨"number_corrected_channels", .int4, 96027⟩,  -- 734-737
   ⟨"chid_first_corrected", .int4, 96031⟩,  -- 738-741
   ⟨"chid_second_corrected", .int4, 144515⟩]  -- 774-777

/-- The accessors of msat/openmtp/OpenMTP_binary_header.cpp that give an array.  Those that assign the elements one by
one (512-529, 607-613) do what the loop does. -/
def arrays : List Array :=
  [⟨"urect_first_line_in_subimage", .int2, 5199, 2, 20, 20⟩,  -- 450-457
   ⟨"urect_nlines_in_subimage", .int2, 5239, 2, 20, 20⟩,  -- 458-465
   ⟨"urect_curr_decoded_rad_pos_of_first_line_in_subimage", .int2, 5279, 2, 20, 20⟩,  -- 466-473
   ⟨"urect_raw_image_histogram", .int4, 5319, 4, 256, 20⟩,  -- 474-481
   ⟨"urect_raw_image_histogram_VISn", .int4, 6343, 4, 256, 20⟩,  -- 482-489
   ⟨"urec_orbit_coord_in_geoframe_start", .float8, 7383, 8, 6, 6⟩,  -- 498-504
   ⟨"urec_orbit_coord_in_geoframe_end", .float8, 7431, 8, 6, 6⟩,  -- 505-511
   ⟨"urec_cartesian_attitude_start", .float4, 7479, 4, 4, 4⟩,  -- 512-520
   ⟨"urec_cartesian_attitude_end", .float4, 7491, 4, 4, 4⟩,  -- 521-529
   ⟨"urec_horizon_information", .int2, 7503, 2, 12, 12⟩,  -- 530-536
   ⟨"urec_status_flags", .flag, 7559, 1, 16, 16⟩,  -- 541-547
   ⟨"urec_horizon_limit_information", .int2, 7579, 2, 12, 12⟩,  -- 600-606
   ⟨"urec_times_of_horizon_scan_lines", .float8, 7579, 8, 2, 2⟩,  -- 607-613
   ⟨"deformation_matrix_x", .float4, 7827, 4, 11025, 11025⟩,  -- 718-725
   ⟨"deformation_matrix_y", .float4, 51927, 4, 11025, 11025⟩,  -- 726-733
   ⟨"line_geometric_correction_EW_1", .float4, 96035, 4, 3030, 3030⟩,  -- 742-749
   ⟨"line_geometric_correction_NS_1", .float4, 108155, 4, 3030, 3030⟩,  -- 750-757
   ⟨"line_radiometric_correction_offset_1", .float4, 120275, 4, 3030, 3030⟩,  -- 758-765
   ⟨"line_radiometric_correction_gain_1", .float4, 132395, 4, 3030, 3030⟩,  -- 766-773
   ⟨"line_geometric_correction_EW_2", .float4, 144519, 4, 3030, 3030⟩,  -- 778-785
   ⟨"line_geometric_correction_NS_2", .float4, 156639, 4, 3030, 3030⟩,  -- 786-793
   ⟨"line_radiometric_correction_offset_2", .float4, 168759, 4, 3030, 3030⟩,  -- 794-801
   ⟨"line_radiometric_correction_gain_2", .float4, 180879, 4, 3030, 3030⟩]  -- 802-809

/-- The accessors of msat/openmtp/OpenMTP_binary_header.cpp that give a text. -/
def texts : List Text :=
  [⟨"field_name", 0, 8⟩,  -- 100-106
   ⟨"satellite_name", 32, 2⟩,  -- 108-114
   ⟨"rectification_method_name", 72, 15⟩,  -- 116-122
   ⟨"phenomena_index", 115, 8⟩,  -- 124-130
   ⟨"missing_line_table", 155, 2500⟩,  -- 376-382
   ⟨"missing_line_table_VISn", 2655, 2500⟩]  -- 383-389

/-- The tests of msat/openmtp/OpenMTP_binary_header.cpp. -/
def tests : List Test :=
  [⟨"is_no_data_slot", .int4, 16, .eq 0⟩,  -- 143-146
   ⟨"is_normal_slot", .int4, 16, .eq 1⟩,  -- 147-150
   ⟨"is_special_slot", .int4, 16, .eq 2⟩,  -- 151-154
   ⟨"is_raw_data", .int4, 36, .eq 0⟩,  -- 171-174
   ⟨"is_ir_processed", .int4, 36, .eq 1⟩,  -- 175-178
   ⟨"is_vis_processed", .int4, 36, .eq 2⟩,  -- 179-182
   ⟨"is_wv_processed", .int4, 36, .eq 3⟩,  -- 183-186
   ⟨"is_rectified_to_next_neighbour", .int4, 36, .eq 5⟩,  -- 187-190
   ⟨"is_rectified", .int4, 36, .gt 3⟩,  -- 191-194
   ⟨"is_no_data", .int4, 40, .eq 0⟩,  -- 199-202
   ⟨"is_VISs_data", .int4, 40, .eq 1⟩,  -- 203-206
   ⟨"is_VISn_data", .int4, 40, .eq 2⟩,  -- 207-210
   ⟨"is_visible_composite", .int4, 40, .eq 3⟩,  -- 211-214
   ⟨"is_ir1_data", .int4, 40, .eq 4⟩,  -- 220-223
   ⟨"is_ir2_data", .int4, 40, .eq 5⟩,  -- 224-227
   ⟨"is_wv1_data", .int4, 40, .eq 6⟩,  -- 232-235
   ⟨"is_wv2_data", .int4, 40, .eq 7⟩,  -- 236-239
   ⟨"is_deformation_none", .int4, 87, .eq 0⟩,  -- 276-279
   ⟨"is_deformation_batch", .int4, 87, .eq 1⟩,  -- 280-283
   ⟨"is_deformation_realtime", .int4, 87, .eq 2⟩,  -- 284-287
   ⟨"is_resampling_none", .int4, 91, .eq 0⟩,  -- 292-295
   ⟨"is_resampling_nearest_neighbour", .int4, 91, .eq 1⟩,  -- 296-299
   ⟨"is_resampling_splines_4x4", .int4, 91, .eq 2⟩,  -- 300-303
   ⟨"is_south_east", .int4, 111, .eq 0⟩,  -- 312-315
   ⟨"is_north_east", .int4, 111, .eq 1⟩,  -- 316-319
   ⟨"is_north_west", .int4, 111, .eq 2⟩,  -- 320-323
   ⟨"is_south_west", .int4, 111, .eq 3⟩,  -- 324-327
   ⟨"is_image_quality_nominal", .int4, 5155, .eq 0⟩,  -- 348-351
   ⟨"is_image_attitude_unknown", .int4, 5155, .eq 1⟩,  -- 352-355
   ⟨"is_image_orbit_unknown", .int4, 5155, .eq 2⟩,  -- 356-359
   ⟨"is_image_horizon_incomplete", .int4, 5155, .eq 3⟩,  -- 360-363
   ⟨"is_image_deformation_not_calculated", .int4, 5155, .eq 4⟩,  -- 364-367
   ⟨"is_image_RADOPOS_LID_inconsistent", .int4, 5155, .eq 5⟩,  -- 368-371
   ⟨"is_image_HR_not_interpreted", .int4, 5155, .eq 6⟩,  -- 372-375
   ⟨"is_urect_raw_data", .int4, 5179, .eq 0⟩,  -- 406-409
   ⟨"is_urect_preprocessed_data", .int4, 5179, .eq 1⟩,  -- 410-413
   ⟨"is_urect_special_output_no_data", .int4, 5183, .eq 0⟩,  -- 418-421
   ⟨"is_urect_special_output_VISs_IR_WV", .int4, 5183, .eq 1⟩,  -- 422-425
   ⟨"is_urect_special_output_VISn", .int4, 5183, .eq 2⟩,  -- 426-429
   ⟨"is_urect_special_output_VISs_VISn", .int4, 5183, .eq 3⟩,  -- 430-433
   ⟨"is_urec_horizon_analysis_ok", .byte, 7559, .gt 0⟩,  -- 548-551
   ⟨"is_urec_spin_speed_fit_ok", .byte, 7560, .gt 0⟩,  -- 552-555
   ⟨"is_urec_orbit_offset_vector_fit_ok", .byte, 7561, .gt 0⟩,  -- 556-559
   ⟨"is_urec_pixel_resampling_rate_fit_ok", .byte, 7562, .gt 0⟩,  -- 560-563
   ⟨"is_urec_attitude_refinement_ok", .byte, 7563, .gt 0⟩,  -- 564-567
   ⟨"is_urec_automatic_landmark_ok", .byte, 7564, .gt 0⟩,  -- 568-571
   ⟨"is_urec_actual_image_movement_fit_ok", .byte, 7565, .gt 0⟩,  -- 572-575
   ⟨"is_urec_calculation_of_deformation_ok", .byte, 7566, .gt 0⟩,  -- 576-579
   ⟨"is_urec_geometrical_LPEF_ok", .byte, 7567, .gt 0⟩,  -- 580-583
   ⟨"is_urec_rectification_segmentation_ok", .byte, 7568, .gt 0⟩,  -- 584-587
   ⟨"is_urec_amplitude_processing_ok", .byte, 7569, .gt 0⟩]  -- 588-591

/-- Calling an accessor of `values`. -/
def Value.call (a : Value) (header : Bytes) : Int := a.get.value header a.off

/-- Calling a test. -/
def Test.call (t : Test) (header : Bytes) : Bool :=
  match t.cmp with
  | .eq k => t.get.value header t.off == k
  | .gt k => decide (t.get.value header t.off > k)

/-- msat/openmtp/OpenMTP_binary_header.cpp:394-397 `is_line_present_VISn`: the index is not checked. -/
def isLinePresentVISn (header : Bytes) (index : Int) : Outcome Bool :=
  if 0 ≤ 2655 + index ∧ 2655 + index < header.length then .ok ((header.getD (2655 + index).toNat 0).toNat > 0) else .ub

/-- The static arrays of the functions, by the name of the function; they are zero when the program starts and there is
one for all headers. -/
abbrev Statics := String → Nat → Int

/-- The static arrays when the program starts. -/
def Statics.start : Statics := fun _ _ => 0

/-- Calling an accessor of `arrays`: what it leaves in the static arrays.  It returns the address of its own. -/
def Array.call (a : Array) (header : Bytes) (s : Statics) : Statics := fun name i =>
  if name = a.name ∧ i < a.read then a.get.value header (a.off + i * a.step) else s name i

/-- Calling an accessor of `texts`. -/
def Text.call (t : Text) (header : Bytes) (s : Statics) : Statics := fun name i =>
  if name = t.name ∧ i < t.n then Get.byte.value header (t.off + i)
  else if name = t.name ∧ i = t.n then 0
  else s name i

/-- `p[i]` for the address `p` that an accessor of `arrays` has returned. -/
def Array.element (a : Array) (s : Statics) (i : Nat) : Outcome Int := if i < a.len then .ok (s a.name i) else .ub

/-- `p[i]` for the address `p` that an accessor of `texts` has returned. -/
def Text.element (t : Text) (s : Statics) (i : Nat) : Outcome Int := if i < t.n + 1 then .ok (s t.name i) else .ub

/-- A call of an accessor that has a static array, on some header. -/
inductive Call where
  | array (a : Array) (header : Bytes)
  | text (t : Text) (header : Bytes)

/-- The static arrays after one call. -/
def Call.run (s : Statics) : Call → Statics
  | .array a header => a.call header s
  | .text t header => t.call header s

/-- The static arrays after the calls of a program, in order. -/
def history (calls : List Call) : Statics := calls.foldl Call.run Statics.start

end Msat.MtpHeader
