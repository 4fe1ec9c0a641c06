import Verif.Model.RecordTexts

/-
The codes in the records of prologues and epilogues: the constants declared for them in the headers of msat/hrit, the words to be shown for them, and
the members declared to hold them.
-/
namespace Msat.RecordTextsSpec
open Msat Layout RecordTexts

/-- A code, the constant declared for it, and the words shown for it. -/
structure Code where
  code : Nat
  constant : String
  words : String
deriving DecidableEq, Repr

/-- msat/hrit/MSG_data_SatelliteStatus.h:39-47 `t_enum_MSG_SatelliteStatus` -/
def satelliteStatusCodes : List Code := [
  ⟨1, "MSG_SATELLITE_STATUS_OPERATIONAL", "Operational"⟩,
  ⟨2, "MSG_SATELLITE_STATUS_STANDBY", "Standby"⟩,
  ⟨3, "MSG_SATELLITE_STATUS_COMMISSIONING_TEST", "Commissioning or test"⟩,
  ⟨4, "MSG_SATELLITE_STATUS_MANOUVRE", "Manouvre"⟩,
  ⟨5, "MSG_SATELLITE_STATUS_DECONTAMINATION", "Decontamination"⟩,
  ⟨6, "MSG_SATELLITE_STATUS_SAFE_MODE", "Safe Mode"⟩,
  ⟨7, "MSG_SATELLITE_STATUS_DISSEMINATION_ONLY", "Dissemination Only"⟩]

/-- msat/hrit/MSG_data_SatelliteStatus.h:51-58 `t_enum_MSG_ManouvreType` -/
def manouvreTypeCodes : List Code := [
  ⟨0, "MSG_SATELLITE_MANOUVRE_SPIN_UP", "Spin Up"⟩,
  ⟨1, "MSG_SATELLITE_MANOUVRE_SPIN_DOWN", "Spin Down"⟩,
  ⟨2, "MSG_SATELLITE_MANOUVRE_ATTITUDE_SLEW", "Attitude Slew"⟩,
  ⟨3, "MSG_SATELLITE_MANOUVRE_N_S_STATION_KEEPING", "N/S Station Keeping"⟩,
  ⟨4, "MSG_SATELLITE_MANOUVRE_E_W_STATION_KEEPING", "E/W Station Keeping"⟩,
  ⟨5, "MSG_SATELLITE_MANOUVRE_STATION_RELOCATION", "Station Relocation"⟩]

/-- msat/hrit/MSG_data_ImageAcquisition.h:40-43 `t_enum_MSG_boolean_status` -/
def boolean_statusCodes : List Code := [
  ⟨0, "MSG_BOOLEAN_STATUS_OFF", "Off"⟩,
  ⟨1, "MSG_BOOLEAN_STATUS_ON", "On"⟩]

/-- msat/hrit/MSG_data_ImageAcquisition.h:47-51 `t_enum_MSG_DHS_Sync` -/
def dHS_SyncCodes : List Code := [
  ⟨0, "MSG_DHS_SYNC_SUN", "Sun"⟩,
  ⟨1, "MSG_DHS_SYNC_EARTH_NORTH", "Earth/North"⟩,
  ⟨2, "MSG_DHS_SYNC_EARTH_SOUTH", "Earth/South"⟩]

/-- msat/hrit/MSG_data_ImageAcquisition.h:55-60 `t_enum_MSG_DeepSpace_Window_Position` -/
def deepSpace_Window_PositionCodes : List Code := [
  ⟨0, "MSG_DEEP_SPACE_WINDOW_NO_DELAY", "No Delay"⟩,
  ⟨1, "MSG_DEEP_SPACE_WINDOW_DELAY_1", "Predefined Delay 1"⟩,
  ⟨2, "MSG_DEEP_SPACE_WINDOW_DELAY_2", "Predefined Delay 2"⟩,
  ⟨3, "MSG_DEEP_SPACE_WINDOW_DELAY_3", "Predefined delay 3"⟩]

/-- msat/hrit/MSG_data_ImageAcquisition.h:65-68 `t_enum_MSG_Refocusing_Direction` -/
def refocusing_DirectionCodes : List Code := [
  ⟨0, "MSG_REFOCUSING_DIRECTION_UP", "Up"⟩,
  ⟨1, "MSG_REFOCUSING_DIRECTION_DOWN", "Down"⟩]

/-- msat/hrit/MSG_data_ImageAcquisition.h:72-76 `t_enum_MSG_BB_Calibration` -/
def bB_CalibrationCodes : List Code := [
  ⟨0, "MSG_BB_CALIBRATION_HOT", "Hot"⟩,
  ⟨1, "MSG_BB_CALIBRATION_AMBIENT", "Ambient"⟩,
  ⟨2, "MSG_BB_CALIBRATION_INDETERMINATE", "Indeterminate"⟩]

/-- msat/hrit/MSG_data_CelestialEvents.h:39-43 `t_enum_MSG_Eclypse` -/
def eclypseCodes : List Code := [
  ⟨0, "MSG_ECLYPSE_NONE", "None"⟩,
  ⟨1, "MSG_ECLYPSE_SUN", "Sun"⟩,
  ⟨2, "MSG_ECLYPSE_MOON", "Moon"⟩]

/-- msat/hrit/MSG_data_CelestialEvents.h:47-52 `t_enum_MSG_Body` -/
def bodyCodes : List Code := [
  ⟨0, "MSG_BODY_NONE", "None"⟩,
  ⟨1, "MSG_BODY_SUN", "Sun"⟩,
  ⟨2, "MSG_BODY_MOON", "Moon"⟩,
  ⟨3, "MSG_BODY_SUN_AND_MOON", "Sun and Moon"⟩]

/-- msat/hrit/MSG_data_CelestialEvents.h:56-60 `t_enum_MSG_quality_impact` -/
def quality_impactCodes : List Code := [
  ⟨0, "MSG_QUALITY_IMPACT_NONE", "None"⟩,
  ⟨1, "MSG_QUALITY_IMPACT_RADIOMETRIC", "Radiometric"⟩,
  ⟨2, "MSG_QUALITY_IMPACT_GEOMETRIC", "Geometric"⟩]

/-- msat/hrit/MSG_data_ImageDescription.h:39-42 `t_enum_MSG_projection_type` -/
def projection_typeCodes : List Code := [
  ⟨0, "MSG_PROJECTION_TYPE_UNDEFINED", "Unknown"⟩,
  ⟨1, "MSG_PROJECTION_TYPE_GEOSTATIONARY", "Geostationary, Earth Centered in grid"⟩]

/-- msat/hrit/MSG_data_ImageDescription.h:46-51 `t_enum_MSG_grid_origin` -/
def grid_originCodes : List Code := [
  ⟨0, "MSG_ORIGIN_CORNER_NW", "Grid corner North-West"⟩,
  ⟨1, "MSG_ORIGIN_CORNER_SW", "Grid corner South-West"⟩,
  ⟨2, "MSG_ORIGIN_CORNER_SE", "Grid corner South-East"⟩,
  ⟨3, "MSG_ORIGIN_CORNER_NE", "Grid corner North-East"⟩]

/-- msat/hrit/MSG_data_ImageDescription.h:55-58 `t_enum_MSG_direction_line` -/
def direction_lineCodes : List Code := [
  ⟨0, "MSG_DIRECTION_LINE_NS", "Direction North-South"⟩,
  ⟨1, "MSG_DIRECTION_LINE_SN", "Direction South-North"⟩]

/-- msat/hrit/MSG_data_ImageDescription.h:62-65 `t_enum_MSG_direction_column` -/
def direction_columnCodes : List Code := [
  ⟨0, "MSG_DIRECTION_COLUMN_EW", "Direction East-West"⟩,
  ⟨1, "MSG_DIRECTION_COLUMN_WE", "Direction West-East"⟩]

/-- msat/hrit/MSG_data_RadiometricProc.h:64-68 `t_enum_MSG_image_quality_flag` -/
def image_quality_flagCodes : List Code := [
  ⟨0, "MSG_IMPF_CAL_OK", "IMPF Calibration OK"⟩,
  ⟨1, "MSG_IMPF_CAL_DUBIOUS", "IMPF Calibration Dubious"⟩,
  ⟨2, "MSH_IMPF_CAL_USE_MPEF_CAL", "Use MPEF calibration"⟩]

/-- msat/hrit/MSG_data_RadiometricProc.h:72-77 `t_enum_MSG_reference_data_flag` -/
def reference_data_flagCodes : List Code := [
  ⟨0, "MSG_REFERENCE_DATA_NOT_CALCULATED", "Not calculated"⟩,
  ⟨1, "MSG_REFERENCE_DATA_MET_DATA", "Meteorological data"⟩,
  ⟨2, "MSG_REFERENCE_DATA_FSD", "Foreign satellite data"⟩,
  ⟨3, "MSG_REFERENCE_DATA_MIXED_MET_FSD", "Both meteo and foreign satellite"⟩]

/-- msat/hrit/MSG_data_RadiometricProc.h:81-87 `t_enum_MSG_absolute_calibration_method` -/
def absolute_calibration_methodCodes : List Code := [
  ⟨0, "MSG_ABSOLUTE_CALIBRATION_NOT_CHANGED", "Not changed"⟩,
  ⟨1, "MSG_ABSOLUTE_CALIBRATION_EXTERNAL", "External"⟩,
  ⟨2, "MSG_ABSOLUTE_CALIBRATION_VICARIOUS", "Vicarious"⟩,
  ⟨3, "MSG_ABSOLUTE_CALIBRATION_CROSS_SATELLITE", "Cross satellite"⟩,
  ⟨4, "MSG_ABSOLUTE_CALIBRATION_MIXED_VIC_XSAT", "Mixed vicarious and cross satellite"⟩]

/-- msat/hrit/MSG_data_GeometricProc.h:39-42 `t_enum_MSG_type_of_earth_model` -/
def type_of_earth_modelCodes : List Code := [
  ⟨0, "MSG_TYPE_OF_EARTH_NONE", "Unknown"⟩,
  ⟨1, "MSG_TYPE_OF_EARTH_ELLIPSOID_WITH_RPN_RPS_REQ", "Ellipsoid with RPN RPS REQ"⟩]

/-- msat/hrit/MSG_data_GeometricProc.h:46-50 `t_enum_MSG_resampling_function` -/
def resampling_functionCodes : List Code := [
  ⟨1, "MSG_RESAMPLING_FUNCTION_WINDOWED_SHANNON", "Windowed Shannon"⟩,
  ⟨2, "MSG_RESAMPLING_FUNCTION_BICUBIC_SPLINES", "Bicubic Splines"⟩,
  ⟨3, "MSG_RESAMPLING_FUNCTION_NEAREST_NEIGHBOUR", "Nearest neighbour"⟩]

/-- msat/hrit/MSG_data_IMPFConfiguration.h:40-70 `t_enum_MSG_SU_instance` -/
def sU_instanceCodes : List Code := [
  ⟨1, "MSG_SU_SW_INSTANCE_M_C", "SW Instance M&C"⟩,
  ⟨2, "MSG_SU_ACCEPT_DATA_SEVIRI", "Accept Data Seviri"⟩,
  ⟨3, "MSG_SU_ACCEPT_DATA_HKTM", "Accept Data HKTM"⟩,
  ⟨4, "MSG_SU_ACCEPT_DATA_GERB", "Accept Data GERB"⟩,
  ⟨5, "MSG_SU_ACCEPT_DATA_FTP_SERVER", "Accept Data FTP Server"⟩,
  ⟨6, "MSG_SU_RCAL_GCAL", "Rcal/Gcal"⟩,
  ⟨7, "MSG_SU_RQA", "RQA"⟩,
  ⟨8, "MSG_SU_GQA", "GQA"⟩,
  ⟨9, "MSG_SU_REQUANTIZE_RESAMPLE_VIS06", "Requantize/Resample Visible Channel 0.6"⟩,
  ⟨10, "MSG_SU_REQUANTIZE_RESAMPLE_VIS08", "Requantize/Resample Visible Channel 0.8"⟩,
  ⟨11, "MSG_SU_REQUANTIZE_RESAMPLE_IR16", "Requantize/Resample Infrared Channel 1.6"⟩,
  ⟨12, "MSG_SU_REQUANTIZE_RESAMPLE_IR38", "Requantize/Resample Infrared Channel 3.8"⟩,
  ⟨13, "MSG_SU_REQUANTIZE_RESAMPLE_WV62", "Requantize/Resample Water Vapour Channel 6.2"⟩,
  ⟨14, "MSG_SU_REQUANTIZE_RESAMPLE_WV73", "Requantize/Resample Water Vapour Channel 7.3"⟩,
  ⟨15, "MSG_SU_REQUANTIZE_RESAMPLE_IR87", "Requantize/Resample Infrared Channel 8.7"⟩,
  ⟨16, "MSG_SU_REQUANTIZE_RESAMPLE_IR97", "Requantize/Resample Infrared Channel 9.7"⟩,
  ⟨17, "MSG_SU_REQUANTIZE_RESAMPLE_IR108", "Requantize/Resample Infrared Channel 10.8"⟩,
  ⟨18, "MSG_SU_REQUANTIZE_RESAMPLE_IR120", "Requantize/Resample Infrared Channel 12.0"⟩,
  ⟨19, "MSG_SU_REQUANTIZE_RESAMPLE_IR134", "Requantize/Resample Infrared Channel 13.4"⟩,
  ⟨20, "MSG_SU_REQUANTIZE_RESAMPLE_HRV", "Requantize/Resample HRV Channel"⟩,
  ⟨21, "MSG_SU_PRODUCE_QUICKLOOK_DATA", "Produce Quicklook Data"⟩,
  ⟨22, "MSG_SU_SEND_DATA_SEVIRI_LPT0", "Send Seviri Data LPT0"⟩,
  ⟨23, "MSG_SU_SEND_DATA_SEVIRI_LPT5", "Send Seviri Data LPT5"⟩,
  ⟨24, "MSG_SU_SEND_DATA_HKTM", "Send Data HKTM"⟩,
  ⟨25, "MSG_SU_SEND_DATA_RAW_GERB", "Send Data Raw GERB"⟩,
  ⟨26, "MSG_SU_SEND_DATA_VALIDATED_GERB", "Send Data Validated GERB"⟩,
  ⟨27, "MSG_SU_SEND_DATA_GENERATED_FD", "Send Data Generated FD"⟩,
  ⟨28, "MSG_SU_SEND_FTP_CLIENT_PUT", "Send Data FTP Client PUT"⟩,
  ⟨29, "MSG_SU_OBJECT_STORE_SERVER", "Object Store Server"⟩]

/-- msat/hrit/MSG_data_IMPFConfiguration.h:75-80 `t_enum_MSG_SUMode` -/
def sUModeCodes : List Code := [
  ⟨0, "MSG_SU_MODE_OFF", "Off"⟩,
  ⟨1, "MSG_SU_MODE_ON_NON_PROCESSING", "Non Processing"⟩,
  ⟨2, "MSG_SU_MODE_ON_REAL_TIME_PROCESSING", "On - Real Time Processing"⟩,
  ⟨3, "MSG_SU_MODE_ON_ANALYSIS_MODE", "On - Analysis Mode"⟩]

/-- msat/hrit/MSG_data_IMPFConfiguration.h:84-88 `t_enum_MSG_SUState` -/
def sUStateCodes : List Code := [
  ⟨0, "MSG_SU_STATE_ERROR", "Error"⟩,
  ⟨1, "MSG_SU_STATE_NOMINAL", "Nominal"⟩,
  ⟨2, "MSG_SU_STATE_DEGRADED", "Degraded"⟩]

/-- msat/hrit/MSG_data_NavigExtrResult.h:40-45 `t_enum_MSG_horizon_id` -/
def horizon_idCodes : List Code := [
  ⟨0, "MSG_HORIZON_ID_SOUTH", "South"⟩,
  ⟨1, "MSG_HORIZON_ID_NORTH", "North"⟩,
  ⟨2, "MSG_HORIZON_ID_EAST", "East"⟩,
  ⟨3, "MSG_HORIZON_ID_WEST", "West"⟩]

/-- msat/hrit/MSG_data_GeometricQuality.h:39-44 `t_enum_MSG_quality_info_validity` -/
def quality_info_validityCodes : List Code := [
  ⟨0, "MSG_QUALITY_INFO_VALIDITY_NOT_DERIVED", "Not Derived"⟩,
  ⟨1, "MSG_QUALITY_INFO_VALIDITY_DERIVED_AND_VALID", "Derived and Valid"⟩,
  ⟨2, "MSG_QUALITY_INFO_VALIDITY_DERIVED_AND_INVALID", "Derived and Invalid"⟩,
  ⟨3, "MSG_QUALITY_INFO_VALIDITY_ESTIMATED", "Estimated"⟩]

/-- The members that hold codes: the last part of their names, and what they are declared to hold in msat/hrit/MSG_data_*.h. -/
def memberCodes : List (String × List Code) := [
  ("TypeofEclypse", eclypseCodes),
  ("VisibleBodiesInImage", bodyCodes),
  ("BodiesClosesttoFOV", bodyCodes),
  ("ImpactOnImageQuality", quality_impactCodes),
  ("TypeofEarthModel", type_of_earth_modelCodes),
  ("ResamplingFunction", resampling_functionCodes),
  ("QualityInfoValidity", quality_info_validityCodes),
  ("SUIdInstance", sU_instanceCodes),
  ("SUMode", sUModeCodes),
  ("SUState", sUStateCodes),
  ("ChannelStatus", boolean_statusCodes),
  ("DetectorStatus", boolean_statusCodes),
  ("DHSSyncSelection", dHS_SyncCodes),
  ("X_DeepSpaceWindowPosition", deepSpace_Window_PositionCodes),
  ("RefocusingDirection", refocusing_DirectionCodes),
  ("BBCalibrationType", bB_CalibrationCodes),
  ("GridOrigin", grid_originCodes),
  ("TypeOfProjection", projection_typeCodes),
  ("ImageProcDirection", direction_lineCodes),
  ("PixelGenDirection", direction_columnCodes),
  ("HorizonId", horizon_idCodes),
  ("ImageQualityFlag", image_quality_flagCodes),
  ("ReferenceDataFlag", reference_data_flagCodes),
  ("AbsCalMethod", absolute_calibration_methodCodes),
  ("XDeepSpaceWindowPosition", deepSpace_Window_PositionCodes),
  ("SatelliteStatus", satelliteStatusCodes),
  ("LastManouvreType", manouvreTypeCodes),
  ("NextManouvreType", manouvreTypeCodes)]

/-- The words shown for a number: those of the constant, or "Unknown". -/
def meaning (codes : List Code) (n : Nat) : String :=
  match codes.find? fun c => c.code == n with
  | some c => c.words
  | none => "Unknown"

/-- The last part of the name of a member that is not an index. -/
def lastName (p : Path) : String :=
  match (p.filterMap fun | .f s => some s | .i _ => none).getLast? with
  | some s => s
  | none => ""

/-! ### Optional parts -/

/-- In the record of operations: what is said of a manoeuvre is there if its own flag is not zero. -/
def manoeuvrePart : Path → List Path
  | [.f s] => if ["LastManoeuvreFlag", "LastManouvreStartTime", "LastManouvreEndTime", "LastManouvreType"].elem s then [[.f "LastManoeuvreFlag"]]
    else if ["NextManoeuvreFlag", "NextManouvreStartTime", "NextManouvreEndTime", "NextManouvreType"].elem s then [[.f "NextManoeuvreFlag"]]
    else []
  | _ => []

/-- Element `i` of array `name` is there if the day of its own start time is not zero. -/
def elementPart (name : String) : Path → List Path
  | .f s :: .i i :: _ => if s = name then [[.f s, .i i, .f "StartTime"]] else []
  | _ => []

/-- Element `i` is there if the day of its own start time is not zero. -/
def starPart : Path → List Path
  | .i i :: _ => [[.i i, .f "StartTime"]]
  | _ => []

/-- All of the record is there if member `name` is not zero. -/
def wholePart (name : String) (_ : Path) : List Path := [[.f name]]

/-- All of the record but for `name` is there if that is not zero. -/
def restPart (name : String) (p : Path) : List Path := if p = [.f name] then [] else [[.f name]]

/-- All of the record is there. -/
def alwaysPart (_ : Path) : List Path := []

/-! ### Numbers of elements -/

/-- After each number `i` (from zero, shown as `i + 1`) the next value is one of element `i`. -/
def numbered : Option Nat → RecordTexts.Text → Bool
  | _, [] => true
  | pending, ⟨_, .index _ _ i⟩ :: rest => pending.isNone && numbered (some i) rest
  | pending, ⟨_, .value p f _ _ _⟩ :: rest =>
    (match pending, f with
      | none, _ => true
      | some i, .byte j => i == j
      | some i, .dcr j => i == j
      | some i, _ => p.elem (.i i)) && numbered none rest
  | pending, ⟨_, .bar _ _ j⟩ :: rest => (match pending with | none => true | some i => i == j) && numbered none rest
  | pending, _ :: rest => numbered pending rest

end Msat.RecordTextsSpec
