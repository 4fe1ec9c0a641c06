import Verif.Model.RecordTexts

/-
The texts of the records of the prologue and of the epilogue: the `operator<<` of msat/hrit/MSG_data_*.cpp and the functions
that name codes, item by item (see Model/RecordTexts.lean).  The default name of a code is "Unknown".
-/
namespace Msat.RecordTexts
open Msat Layout

/-! ### msat/hrit/MSG_data_SatelliteStatus.cpp -/

/-- msat/hrit/MSG_data_SatelliteStatus.cpp:266-297 `MSG_satellite_status` -/
def satellite_statusNames : List (Nat × String) := [
  (1, "Operational"),
  (2, "Standby"),
  (3, "Commissioning or test"),
  (4, "Manouvre"),
  (5, "Decontamination"),
  (6, "Safe Mode"),
  (7, "Dissemination Only")]

/-- msat/hrit/MSG_data_SatelliteStatus.cpp:299-327 `MSG_satellite_manouvre` -/
def satellite_manouvreNames : List (Nat × String) := [
  (0, "Spin Up"),
  (1, "Spin Down"),
  (2, "Attitude Slew"),
  (3, "N/S Station Keeping"),
  (4, "E/W Station Keeping"),
  (5, "Station Relocation")]

/-- msat/hrit/MSG_data_SatelliteStatus.cpp:341-349 `operator<<` of `MSG_SatelliteDefinition` -/
def satelliteDefinitionText : Text :=
  [lit "Satellite           : ", val [.f "SatelliteId"] .dec, lit " (", again [.f "SatelliteId"] .spacecraft, lit ")", endl,
   lit "Nominal Longitude   : ", val [.f "NominalLongitude"] .r4, endl,
   lit "Satellite Status    : ", val [.f "SatelliteStatus"] (.name satellite_statusNames), endl]

/-- msat/hrit/MSG_data_SatelliteStatus.cpp:369-392 `operator<<` of `MSG_SatelliteOperations` -/
def satelliteOperationsText : Text :=
  when [.f "LastManoeuvreFlag"] (
    [lit "Last Man. Flag      : ", val [.f "LastManoeuvreFlag"] .dec, endl, lit "Last Man. Start     : ", val [.f "LastManouvreStartTime"] .t6, endl,
     lit "Last Man. End       : ", val [.f "LastManouvreEndTime"] .t6, endl,
     lit "Last Man. Type      : ", val [.f "LastManouvreType"] (.name satellite_manouvreNames), endl]) ++
  when [.f "NextManoeuvreFlag"] (
    [lit "Next Man. Flag      : ", val [.f "NextManoeuvreFlag"] .dec, endl, lit "Next Man. Start     : ", val [.f "NextManouvreStartTime"] .t6, endl,
     lit "Next Man. End       : ", val [.f "NextManouvreEndTime"] .t6, endl,
     lit "Next Man. Type      : ", val [.f "NextManouvreType"] (.name satellite_manouvreNames), endl])

/-- msat/hrit/MSG_data_SatelliteStatus.cpp:184-198 `operator<<` of `MSG_orbit_coefficient` -/
def orbit_coefficientText : Text :=
  [lit "COEFFICIENT:", endl] ++
  [lit "Start Time          : ", val [.f "StartTime"] .t6, endl, lit "End Time            : ", val [.f "EndTime"] .t6, endl] ++
  each 8 (fun i =>
    [lit "X : ", wide [.f "X", .i i] .r8, lit " ", lit "Y : ", wide [.f "Y", .i i] .r8, lit " ", lit "Z : ", wide [.f "Z", .i i] .r8, endl]) ++
  each 8 (fun i =>
    [lit "VX: ", wide [.f "VX", .i i] .r8, lit " ", lit "VY: ", wide [.f "VY", .i i] .r8, lit " ", lit "VZ: ", wide [.f "VZ", .i i] .r8, endl])

/-- msat/hrit/MSG_data_SatelliteStatus.cpp:200-213 `operator<<` of `MSG_Orbit` -/
def orbitText : Text :=
  [lit "ORBIT RECORD", endl] ++
  [lit "Period Start Time   : ", val [.f "PeriodStartTime"] .t6, endl, lit "Period End Time     : ", val [.f "PeriodEndTime"] .t6, endl] ++
  [lit "ORBIT Polinomial:", endl] ++
  each 100 (fun i =>
    when [.f "OrbitPoliniomal", .i i, .f "StartTime"] (
      sub [.f "OrbitPoliniomal", .i i] orbit_coefficientText)) ++
  [lit "END ORBIT RECORD", endl]

/-- msat/hrit/MSG_data_SatelliteStatus.cpp:215-228 `operator<<` of `MSG_AttitudeCoeff` -/
def attitudeCoeffText : Text :=
  [lit "COEFFICIENT:", endl] ++
  [lit "Start Time          : ", val [.f "StartTime"] .t6, endl, lit "End Time            : ", val [.f "EndTime"] .t6, endl] ++
  each 8 (fun i =>
    [lit "XSA : ", wide [.f "XOfSpinAxis", .i i] .r8, lit " ", lit "YSA : ", wide [.f "YOfSpinAxis", .i i] .r8, lit " ",
     lit "ZSA : ", wide [.f "ZOfSpinAxis", .i i] .r8, endl])

/-- msat/hrit/MSG_data_SatelliteStatus.cpp:230-245 `operator<<` of `MSG_Attitude` -/
def attitudeText : Text :=
  [lit "ATTITUDE RECORD", endl] ++
  [lit "Period Start Time   : ", val [.f "PeriodStartTime"] .t6, endl, lit "Period End Time     : ", val [.f "PeriodEndTime"] .t6, endl,
   lit "Princ. Axis Off. An.: ", val [.f "PrincipalAxisOffsetAngle"] .r8, endl] ++
  [lit "ATTITUDE Polinomial:", endl] ++
  each 100 (fun i =>
    when [.f "AttitudePolynomial", .i i, .f "StartTime"] (
      sub [.f "AttitudePolynomial", .i i] attitudeCoeffText)) ++
  [lit "END ATTITUDE RECORD", endl]

/-- msat/hrit/MSG_data_SatelliteStatus.cpp:247-264 `operator<<` of `MSG_UTCCorrelation` -/
def uTCCorrelationText : Text :=
  [lit "UTC CORRELATION RECORD", endl, lit "Period Start Time   : ", val [.f "PeriodStartTime"] .t6, endl,
   lit "Period End Time     : ", val [.f "PeriodEndTime"] .t6, endl,
   lit "On board Time       : ", val [.f "OnBoardTimeStart"] .cucCoarse, lit " ", again [.f "OnBoardTimeStart"] .cucFine,
   lit " (", again [.f "OnBoardTimeStart"] .cucReal, lit ")", endl,
   lit "On board Time Var.  : ", val [.f "VarOnBoardTimeStart"] .r8, endl, lit "A1 time             : ", val [.f "A1"] .r8, endl,
   lit "A1 time Variance    : ", val [.f "VarA1"] .r8, endl, lit "A2 time             : ", val [.f "A2"] .r8, endl,
   lit "A2 time Variance    : ", val [.f "VarA2"] .r8, endl, lit "END UTC CORRELATION RECORD", endl]

/-- msat/hrit/MSG_data_SatelliteStatus.cpp:170-182 `operator<<` of `MSG_data_SatelliteStatus` -/
def satelliteStatusText : Text :=
  [lit "------------------------------------------------------", endl, lit "-           MSG DATA SATELLITE STATUS                -", endl,
   lit "------------------------------------------------------", endl] ++
  sub [.f "SatelliteDefinition"] satelliteDefinitionText ++
  sub [.f "SatelliteOperations"] satelliteOperationsText ++
  sub [.f "Orbit"] orbitText ++
  sub [.f "Attitude"] attitudeText ++
  [lit "Spin Rate at Start  : ", val [.f "SpinRateatRCStart"] .r8, endl] ++
  sub [.f "UTCCorrelation"] uTCCorrelationText

/-! ### msat/hrit/MSG_data_ImageAcquisition.cpp -/

/-- msat/hrit/MSG_data_ImageAcquisition.cpp:272-288 `MSG_boolean_status` -/
def boolean_statusNames : List (Nat × String) := [
  (0, "Off"),
  (1, "On")]

/-- msat/hrit/MSG_data_ImageAcquisition.cpp:290-309 `MSG_DHS_Sync` -/
def dHS_SyncNames : List (Nat × String) := [
  (0, "Sun"),
  (1, "Earth/North"),
  (2, "Earth/South")]

/-- msat/hrit/MSG_data_ImageAcquisition.cpp:311-334 `MSG_DeepSpace_Window_Position` -/
def deepSpace_Window_PositionNames : List (Nat × String) := [
  (0, "No Delay"),
  (1, "Predefined Delay 1"),
  (2, "Predefined Delay 2"),
  (3, "Predefined delay 3")]

/-- msat/hrit/MSG_data_ImageAcquisition.cpp:336-352 `MSG_Refocusing_Direction` -/
def refocusing_DirectionNames : List (Nat × String) := [
  (0, "Up"),
  (1, "Down")]

/-- msat/hrit/MSG_data_ImageAcquisition.cpp:354-373 `MSG_BB_Calibration` -/
def bB_CalibrationNames : List (Nat × String) := [
  (0, "Hot"),
  (1, "Ambient"),
  (2, "Indeterminate")]

/-- msat/hrit/MSG_data_ImageAcquisition.cpp:43-52 `operator<<` of `MSG_PlannedAquisitionTime` -/
def plannedAquisitionTimeText : Text :=
  [lit "True Rep. Cycle St. : ", val [.f "TrueRepeatCycleStart"] .t10, endl,
   lit "Pl. Fw. Scan End    : ", val [.f "PlannedForwardScanEnd"] .t10, endl,
   lit "Pl. Rp. Cycle End   : ", val [.f "PlannedRepeatCycleEnd"] .t10, endl]

/-- msat/hrit/MSG_data_ImageAcquisition.cpp:63-76 `operator<<` of `MSG_RadiometerStatus` -/
def radiometerStatusText : Text :=
  each 12 (fun i =>
    [lit "Channel ", index 2 i, lit " Status   : ", val [.f "ChannelStatus", .i i] (.name boolean_statusNames), endl]) ++
  each 42 (fun i =>
    [lit "Detector ", index 2 i, lit " Status  : ", val [.f "DetectorStatus", .i i] (.name boolean_statusNames), endl])

/-- msat/hrit/MSG_data_ImageAcquisition.cpp:149-203 `operator<<` of `MSG_RadiometerSettings` -/
def radiometerSettingsText : Text :=
  each 42 (fun i =>
    [lit "MDU Sampling delay", index 2 i, lit ": ", val [.f "MDUSamplingDelays", .i i] .dec, endl]) ++
  [lit "MDU Nom. HRV Dly 1  : ", val [.f "MDUNomHRVDelay1"] .dec, endl, lit "MDU Nom. HRV Dly 2  : ", val [.f "MDUNomHRVDelay2"] .dec, endl,
   lit "MDU Nom. HRV Brkl   : ", val [.f "MDUNomHRVBreakline"] .dec, endl,
   lit "DHS Sync Selection  : ", val [.f "DHSSyncSelection"] (.name dHS_SyncNames), endl] ++
  each 42 (fun i =>
    [lit "MDU Out Gain ", index 2 i, lit "     : ", val [.f "MDUOutGain", .i i] .dec, endl,
     lit "MDU Coarse Gain ", index 2 i, lit "  : ", val [.f "MDUCoarseGain"] (.byte i), endl,
     lit "MDU Fine Gain ", index 2 i, lit "    : ", val [.f "MDUFineGain", .i i] .dec, endl,
     lit "MDU Num. Offset ", index 2 i, lit "  : ", val [.f "MDUNumericalOffset", .i i] .dec, endl,
     lit "PU Gain ", index 2 i, lit "          : ", val [.f "PUGain", .i i] .dec, endl]) ++
  each 27 (fun i =>
    [lit "PU Offset ", index 2 i, lit "        : ", val [.f "PUOffset", .i i] .dec, endl]) ++
  each 15 (fun i =>
    [lit "PU BIAS ", index 2 i, lit "          : ", val [.f "PUBias", .i i] .dec, endl]) ++
  [lit "L0 Line Counter     : ", val [.f "L0_LineCounter"] .dec, endl, lit "K1 Retrace Lines    : ", val [.f "K1_RetraceLines"] .dec, endl,
   lit "K2 Pause Deciseconds: ", val [.f "K2_PauseDeciseconds"] .dec, endl, lit "K3 Retrace Lines    : ", val [.f "K3_RetraceLines"] .dec, endl,
   lit "K4 Pause Deciseconds: ", val [.f "K4_PauseDeciseconds"] .dec, endl, lit "K5 Retrace Lines    : ", val [.f "K5_RetraceLines"] .dec, endl,
   lit "Deep Spc. Wnd. Pos. : ", val [.f "X_DeepSpaceWindowPosition"] (.name deepSpace_Window_PositionNames), endl,
   lit "Refocusing Lines    : ", val [.f "RefocusingLines"] .dec, endl,
   lit "Refocusing Dir.     : ", val [.f "RefocusingDirection"] (.name refocusing_DirectionNames), endl,
   lit "Refocusing Position : ", val [.f "RefocusingPosition"] .dec, endl, lit "Scan Ref Pos Flag   : ", val [.f "ScanRefPosFlag"] .dec, endl,
   lit "Scan Ref Pos Num    : ", val [.f "ScanRefPosNumber"] .dec, endl, lit "Scan Ref. Pot. Val  : ", val [.f "ScanRefPotVal"] .r4, endl,
   lit "Scan First Line     : ", val [.f "ScanFirstLine"] .dec, endl, lit "Scan Last Line      : ", val [.f "ScanLastLine"] .dec, endl,
   lit "Retrace Start Line  : ", val [.f "RetraceStartLine"] .dec, endl]

/-- msat/hrit/MSG_data_ImageAcquisition.cpp:230-248 `operator<<` of `MSG_RadiometerOperations` -/
def radiometerOperationsText : Text :=
  [lit "Last Gain Ch. Flag  : ", val [.f "LastGainChangeFlag"] .dec, endl, lit "Last Gain Change    : ", val [.f "LastGainChangeTime"] .t6, endl,
   lit "Decontamination Now : ", val [.f "DecontaminationNow"] .dec, endl, lit "Decont. Start       : ", val [.f "DecontaminationStart"] .t6, endl,
   lit "Decont. End         : ", val [.f "DecontaminationEnd"] .t6, endl, lit "BB Cal. Scheduled   : ", val [.f "BBCalScheduled"] .dec, endl,
   lit "BB Calib. Type      : ", val [.f "BBCalibrationType"] (.name bB_CalibrationNames), endl,
   lit "BB First Line       : ", val [.f "BBFirstLine"] .dec, endl, lit "BB Last Line        : ", val [.f "BBLastLine"] .dec, endl,
   lit "Cold Plane Temp.    : ", val [.f "ColdFocalPlaneOpTemp"] .dec, endl,
   lit "Warm Plane Temp.    : ", val [.f "WarmFocalPlaneOpTemp"] .dec, endl]

/-- msat/hrit/MSG_data_ImageAcquisition.cpp:375-386 `operator<<` of `MSG_data_ImageAcquisition` -/
def imageAcquisitionText : Text :=
  [lit "------------------------------------------------------", endl, lit "-           MSG IMAGE ACQUISITION RECORD             -", endl,
   lit "------------------------------------------------------", endl] ++
  sub [.f "PlannedAquisitionTime"] plannedAquisitionTimeText ++
  sub [.f "RadiometerStatus"] radiometerStatusText ++
  sub [.f "RadiometerSettings"] radiometerSettingsText ++
  sub [.f "RadiometerOperations"] radiometerOperationsText

/-! ### msat/hrit/MSG_data_CelestialEvents.cpp -/

/-- msat/hrit/MSG_data_CelestialEvents.cpp:107-126 `MSG_Eclypse` -/
def eclypseNames : List (Nat × String) := [
  (0, "None"),
  (1, "Sun"),
  (2, "Moon")]

/-- msat/hrit/MSG_data_CelestialEvents.cpp:128-150 `MSG_Body` -/
def bodyNames : List (Nat × String) := [
  (0, "None"),
  (1, "Sun"),
  (2, "Moon"),
  (3, "Sun and Moon")]

/-- msat/hrit/MSG_data_CelestialEvents.cpp:152-171 `MSG_quality_impact` -/
def quality_impactNames : List (Nat × String) := [
  (0, "None"),
  (1, "Radiometric"),
  (2, "Geometric")]

/-- msat/hrit/MSG_data_CelestialEvents.cpp:222-237 `operator<<` of `MSG_Earth_Moon_Sun_Coefficient` -/
def earth_Moon_Sun_CoefficientText : Text :=
  when [.f "StartTime"] (
    [lit "COEFFICIENT", endl, lit "Start Time          : ", val [.f "StartTime"] .t6, endl,
     lit "End Time            : ", val [.f "EndTime"] .t6, endl] ++
    each 8 (fun i =>
      [lit "ALPHA : ", wide [.f "AlphaCoef", .i i] .r8, lit " ", lit " BETA : ", wide [.f "BetaCoef", .i i] .r8, endl]))

/-- msat/hrit/MSG_data_CelestialEvents.cpp:188-209 `operator<<` of `MSG_Star_Coefficient` -/
def star_CoefficientText : Text :=
  each 20 (fun i =>
    when [.i i, .f "StartTime"] (
      [lit "********** ", index 0 i, endl, lit "Star Id             : ", val [.i i, .f "StarId"] .dec, endl,
       lit "Start Time          : ", val [.i i, .f "StartTime"] .t6, endl, lit "End Time            : ", val [.i i, .f "EndTime"] .t6, endl] ++
      each 8 (fun j =>
        [lit "ALPHA : ", wide [.i i, .f "AlphaCoef", .i j] .r8, lit " ", lit " BETA : ", wide [.i i, .f "BetaCoef", .i j] .r8, endl])))

/-- msat/hrit/MSG_data_CelestialEvents.cpp:260-285 `operator<<` of `MSG_Ephemeris` -/
def ephemerisText : Text :=
  [lit "EPHEMERIS", endl, lit "Period Start Time   : ", val [.f "PeriodStartTime"] .t6, endl,
   lit "Period End Time     : ", val [.f "PeriodEndTime"] .t6, endl, lit "Rel. Orbitfile Time : ", val [.f "RelatedOrbitFileTime"] .gtime, endl,
   lit "Rel. Attitude Time  : ", val [.f "RelatedAttitudeFileTime"] .gtime, endl] ++
  [lit "EARTH EPHEMERIS", endl] ++
  each 100 (fun i =>
    sub [.f "EarthEphemeris", .i i] earth_Moon_Sun_CoefficientText) ++
  [lit "MOON EPHEMERIS", endl] ++
  each 100 (fun i =>
    sub [.f "MoonEphemeris", .i i] earth_Moon_Sun_CoefficientText) ++
  [lit "SUN EPHEMERIS", endl] ++
  each 100 (fun i =>
    sub [.f "SunEphemeris", .i i] earth_Moon_Sun_CoefficientText) ++
  [lit "STAR EPHEMERIS", endl] ++
  each 100 (fun i =>
    sub [.f "StarEphemeris", .i i] star_CoefficientText) ++
  [lit "END EPHEMERIS", endl]

/-- msat/hrit/MSG_data_CelestialEvents.cpp:40-44 `operator<<` of `MSG_CelestialBodiesPosition` -/
def celestialBodiesPositionText : Text :=
  sub [.f "Ephemeris"] ephemerisText

/-- msat/hrit/MSG_data_CelestialEvents.cpp:64-78 `operator<<` of `MSG_RelationToImage` -/
def relationToImageText : Text :=
  [lit "Type of Eclypse     : ", val [.f "TypeofEclypse"] (.name eclypseNames), endl,
   lit "Eclypse Start       : ", val [.f "EclipseStartTime"] .t6, endl, lit "Eclypse End         : ", val [.f "EclipseEndTime"] .t6, endl,
   lit "Visible Body        : ", val [.f "VisibleBodiesInImage"] (.name bodyNames), endl,
   lit "Body Closest to FOV : ", val [.f "BodiesClosesttoFOV"] (.name bodyNames), endl,
   lit "Image Qualuty Impact: ", val [.f "ImpactOnImageQuality"] (.name quality_impactNames), endl]

/-- msat/hrit/MSG_data_CelestialEvents.cpp:97-105 `operator<<` of `MSG_data_CelestialEvents` -/
def celestialEventsText : Text :=
  [lit "------------------------------------------------------", endl, lit "-           MSG CELESTIAL EVENTS RECORD              -", endl,
   lit "------------------------------------------------------", endl] ++
  sub [.f "CelestialBodiesPosition"] celestialBodiesPositionText ++
  sub [.f "RelationToImage"] relationToImageText

/-! ### msat/hrit/MSG_data_ImageDescription.cpp -/

/-- msat/hrit/MSG_data_ImageDescription.cpp:35-48 `MSG_projection_type` -/
def projection_typeNames : List (Nat × String) := [
  (1, "Geostationary, Earth Centered in grid")]

/-- msat/hrit/MSG_data_ImageDescription.cpp:50-72 `MSG_grid_origin` -/
def grid_originNames : List (Nat × String) := [
  (0, "Grid corner North-West"),
  (1, "Grid corner South-West"),
  (2, "Grid corner South-East"),
  (3, "Grid corner North-East")]

/-- msat/hrit/MSG_data_ImageDescription.cpp:74-90 `MSG_direction_line` -/
def direction_lineNames : List (Nat × String) := [
  (0, "Direction North-South"),
  (1, "Direction South-North")]

/-- msat/hrit/MSG_data_ImageDescription.cpp:92-108 `MSG_direction_column` -/
def direction_columnNames : List (Nat × String) := [
  (0, "Direction East-West"),
  (1, "Direction West-East")]

/-- msat/hrit/MSG_data_ImageDescription.cpp:120-128 `operator<<` of `MSG_grid` -/
def gridText : Text :=
  [lit "Number Of Lines     : ", val [.f "NumberofLines"] .dec, endl, lit "Number of Columns   : ", val [.f "NumberofColumns"] .dec, endl,
   lit "Grid Step SSP line  : ", val [.f "LineDirGridStep"] .r4, endl, lit "Grid Step SSP col.  : ", val [.f "ColumnDirGridStep"] .r4, endl,
   lit "Grid Origin         : ", val [.f "GridOrigin"] (.name grid_originNames), endl]

/-- msat/hrit/MSG_data_ImageDescription.cpp:139-146 `operator<<` of `MSG_coverage_IR` -/
def coverage_IRText : Text :=
  [lit "Southern line Plan. : ", val [.f "SouthernLinePlanned"] .dec, endl, lit "Northern line Plan. : ", val [.f "NorthernLinePlanned"] .dec, endl,
   lit "Eastern col. Plan.  : ", val [.f "EasternColumnPlanned"] .dec, endl,
   lit "Western col. Plan.  : ", val [.f "WesternColumnPlanned"] .dec, endl]

/-- msat/hrit/MSG_data_ImageDescription.cpp:161-172 `operator<<` of `MSG_coverage_HRV` -/
def coverage_HRVText : Text :=
  [lit "Low South line Plan.: ", val [.f "LowerSouthLinePlanned"] .dec, endl,
   lit "Low North line Plan.: ", val [.f "LowerNorthLinePlanned"] .dec, endl,
   lit "Low East col. Plan. : ", val [.f "LowerEastColumnPlanned"] .dec, endl,
   lit "Low West col. Plan. : ", val [.f "LowerWestColumnPlanned"] .dec, endl,
   lit "Up South line Plan. : ", val [.f "UpperSouthLinePlanned"] .dec, endl,
   lit "Up North line Plan. : ", val [.f "UpperNorthLinePlanned"] .dec, endl,
   lit "Up East col. Plan.  : ", val [.f "UpperEastColumnPlanned"] .dec, endl,
   lit "Up West col. Plan.  : ", val [.f "UpperWestColumnPlanned"] .dec, endl]

/-- msat/hrit/MSG_data_ImageDescription.cpp:181-187 `operator<<` of `MSG_ProjectionDescription` -/
def projectionDescriptionText : Text :=
  [lit "Type of Projection  : ", val [.f "TypeOfProjection"] (.name projection_typeNames), endl,
   lit "SSP Longitude       : ", val [.f "LongitudeOfSSP"] .r4, endl]

/-- msat/hrit/MSG_data_ImageDescription.cpp:198-210 `operator<<` of `MSG_Level1_5ImageProduction` -/
def level1_5ImageProductionText : Text :=
  [lit "Image Processing Dir: ", val [.f "ImageProcDirection"] (.name direction_lineNames), endl,
   lit "Pixel Processing Dir: ", val [.f "PixelGenDirection"] (.name direction_columnNames), endl] ++
  each 12 (fun i =>
    [lit "Channel ", index 2 i, lit " is plan. : ", val [.f "PlannedChanProcessing", .i i] .dec, endl])

/-- msat/hrit/MSG_data_ImageDescription.cpp:234-246 `operator<<` of `MSG_data_ImageDescription` -/
def imageDescriptionText : Text :=
  [lit "------------------------------------------------------", endl, lit "-           MSG IMAGE DESCRIPTION RECORD             -", endl,
   lit "------------------------------------------------------", endl] ++
  sub [.f "ProjectionDescription"] projectionDescriptionText ++
  [lit "VIS-IR REFERENCE GRID", endl] ++
  sub [.f "ReferenceGridVIS_IR"] gridText ++
  [lit "HRV REFERENCE GRID", endl] ++
  sub [.f "ReferenceGridHRV"] gridText ++
  [lit "VIS-IR PLANNED COVERAGE", endl] ++
  sub [.f "PlannedCoverageVIS_IR"] coverage_IRText ++
  [lit "HRV PLANNED COVERAGE", endl] ++
  sub [.f "PlannedCoverageHRV"] coverage_HRVText ++
  sub [.f "Level1_5ImageProduction"] level1_5ImageProductionText

/-! ### msat/hrit/MSG_data_RadiometricProc.cpp -/

/-- msat/hrit/MSG_data_RadiometricProc.cpp:37-56 `MSG_image_quality_flag` -/
def image_quality_flagNames : List (Nat × String) := [
  (0, "IMPF Calibration OK"),
  (1, "IMPF Calibration Dubious"),
  (2, "Use MPEF calibration")]

/-- msat/hrit/MSG_data_RadiometricProc.cpp:58-80 `MSG_reference_data_flag` -/
def reference_data_flagNames : List (Nat × String) := [
  (0, "Not calculated"),
  (1, "Meteorological data"),
  (2, "Foreign satellite data"),
  (3, "Both meteo and foreign satellite")]

/-- msat/hrit/MSG_data_RadiometricProc.cpp:82-108 `MSG_absolute_calibration_method` -/
def absolute_calibration_methodNames : List (Nat × String) := [
  (0, "Not changed"),
  (1, "External"),
  (2, "Vicarious"),
  (3, "Cross satellite"),
  (4, "Mixed vicarious and cross satellite")]

/-- msat/hrit/MSG_data_RadiometricProc.cpp:117-122 `operator<<` of `MSG_Image_Calibration` -/
def image_CalibrationText : Text :=
  [lit "Calibration Slope   : ", val [.f "Cal_Slope"] .r8, endl, lit "Calibration Offset  : ", val [.f "Cal_Offset"] .r8, endl]

/-- msat/hrit/MSG_data_RadiometricProc.cpp:136-146 `operator<<` of `MSG_ExtractedBBData` -/
def extractedBBDataText : Text :=
  [lit "Number of Pix. Used : ", val [.f "NumberOfPixelsUsed"] .dec, endl, lit "Mean Count          : ", val [.f "MeanCount"] .r4, endl,
   lit "RMS                 : ", val [.f "RMS"] .r4, endl, lit "Max Count           : ", val [.f "MaxCount"] .dec, endl,
   lit "Min Count           : ", val [.f "MinCount"] .dec, endl, lit "Processing Slope    : ", val [.f "BB_Processing_Slope"] .r8, endl,
   lit "Processing Offset   : ", val [.f "BB_Processing_Offset"] .r8, endl]

/-- msat/hrit/MSG_data_RadiometricProc.cpp:181-207 `operator<<` of `MSG_RPSummary` -/
def rPSummaryText : Text :=
  [lit "Radiance Lin.       : "] ++
  each 12 (fun i =>
    [val [.f "RadianceLinearization", .i i] .dec, lit " "]) ++
  [endl, lit "Detector Eq.        : "] ++
  each 12 (fun i =>
    [val [.f "DetectorEqualization", .i i] .dec, lit " "]) ++
  [endl, lit "OnBoard Cal. Result : "] ++
  each 12 (fun i =>
    [val [.f "OnboardCalibrationResult", .i i] .dec, lit " "]) ++
  [endl, lit "MPEF Cal. Feedback  : "] ++
  each 12 (fun i =>
    [val [.f "MPEFCalFeedBack", .i i] .dec, lit " "]) ++
  [endl, lit "MTF Adaptation      : "] ++
  each 12 (fun i =>
    [val [.f "MTFAdaptation", .i i] .dec, lit " "]) ++
  [endl, lit "Straylight Correct. : "] ++
  each 12 (fun i =>
    [val [.f "StraylightCorrectionFlag", .i i] .dec, lit " "])

/-- msat/hrit/MSG_data_RadiometricProc.cpp:231-302 `operator<<` of `MSG_RadProcMTFAdaptation` -/
def radProcMTFAdaptationText : Text :=
  each 33 (fun i =>
    [lit "VIS IR MTF E/W ", index 2 i, lit "   : ", endl] ++
    each 4 (fun j =>
      row [.f "VIS_IRMTFCorrectionE_W", .i i] (4 * j) 4 .r4)) ++
  each 33 (fun i =>
    [lit "VIS IR MTF N/S ", index 2 i, lit "   : ", endl] ++
    each 4 (fun j =>
      row [.f "VIS_IRMTFCorrectionN_S", .i i] (4 * j) 4 .r4)) ++
  each 9 (fun i =>
    [lit "HRV MTF E/W ", index 2 i, lit "      : ", endl] ++
    each 4 (fun j =>
      row [.f "HRVIRMTFCorrectionE_W", .i i] (4 * j) 4 .r4)) ++
  each 9 (fun i =>
    [lit "HRV MTF N/S ", index 2 i, lit "      : ", endl] ++
    each 4 (fun j =>
      row [.f "HRVIRMTFCorrectionN_S", .i i] (4 * j) 4 .r4))

/-- msat/hrit/MSG_data_RadiometricProc.cpp:320-336 `operator<<` of `MSG_IMPF_CAL_Data` -/
def iMPF_CAL_DataText : Text :=
  [lit "Image Quality       : ", val [.f "ImageQualityFlag"] (.name image_quality_flagNames), endl,
   lit "Reference data      : ", val [.f "ReferenceDataFlag"] (.name reference_data_flagNames), endl,
   lit "Absolute Cal. Meth. : ", val [.f "AbsCalMethod"] (.name absolute_calibration_methodNames), endl,
   lit "Abs Cal Weight Vic. : ", val [.f "AbsCalWeightVic"] .r4, endl, lit "Abs Cal Weight Xsat.: ", val [.f "AbsCalWeightXsat"] .r4, endl,
   lit "Abs Cal Coefficient : ", val [.f "AbsCalCoeff"] .r4, endl, lit "Abs Cal Error       : ", val [.f "AbsCalError"] .r4, endl,
   lit "Cal Mon Bias        : ", val [.f "CalMonBias"] .r4, endl, lit "Cal Mon RMS         : ", val [.f "CalMonRms"] .r4, endl,
   lit "Offset Count        : ", val [.f "OffsetCount"] .r4, endl]

/-- msat/hrit/MSG_data_RadiometricProc.cpp:312-318 `operator<<` of `MSG_MPEFCalFeedback` -/
def mPEFCalFeedbackText : Text :=
  each 12 (fun i =>
    [lit "CHANNEL ", index 2 i, endl] ++
    sub [.f "IMPF_CAL_Data", .i i] iMPF_CAL_DataText)

/-- msat/hrit/MSG_data_RadiometricProc.cpp:418-495 `operator<<` of `MSG_BlackBodyDataUsed` -/
def blackBodyDataUsedText : Text :=
  [lit "BB Observation UTC  : ", val [.f "BBObservationUTC"] .t10, endl, lit "On Board Time       : ", val [.f "OnBoardBBTime"] .cucReal, endl] ++
  each 42 (fun i =>
    [lit "MDU Out Gain ", index 2 i, lit "     : ", val [.f "MDUOutGain", .i i] .dec, endl]) ++
  each 42 (fun i =>
    [lit "MDU Coarse Gain ", index 2 i, lit "  : ", val [.f "MDUCoarseGain", .i i] .dec, endl]) ++
  each 42 (fun i =>
    [lit "MDU Fine Gain ", index 2 i, lit "    : ", val [.f "MDUFineGain", .i i] .dec, endl]) ++
  each 42 (fun i =>
    [lit "MDU Num. Offset ", index 2 i, lit "  : ", val [.f "MDUNumerical_Offset", .i i] .dec, endl]) ++
  each 42 (fun i =>
    [lit "PU Gain ", index 2 i, lit "          : ", val [.f "PUGain", .i i] .dec, endl]) ++
  each 27 (fun i =>
    [lit "PU Offset ", index 2 i, lit "       : ", val [.f "PUOffset", .i i] .dec, endl]) ++
  each 15 (fun i =>
    [lit "PU Bias ", index 2 i, lit "         : ", val [.f "PUBias", .i i] .dec, endl]) ++
  each 12 (fun i =>
    [lit "DCR Values ", index 2 i, lit "       : ", wide3 [.f "DCRValues"] (.dcr i), endl]) ++
  [lit "Deep Space Win      : ", val [.f "XDeepSpaceWindowPosition"] (.name deepSpace_Window_PositionNames), endl,
   lit "FCU Nom. CF Temp    : ", val [.f "FCUNominalColdFocalPlaneTemp"] .dec, endl,
   lit "FCU Red. CF Temp    : ", val [.f "FCURedundantColdFocalPlaneTemp"] .dec, endl,
   lit "FCU Nom. WF Temp    : ", val [.f "FCUNominalWarmFocalPlaneVHROTemp"] .dec, endl,
   lit "FCU Red. WF Temp    : ", val [.f "FCURedundantWarmFocalPlaneVHROTemp"] .dec, endl,
   lit "FCU Nom. SM S1 Temp : ", val [.f "FCUNominalScanMirrorSensor1Temp"] .dec, endl,
   lit "FCU Red. SM S1 Temp : ", val [.f "FCURedundantScanMirrorSensor1Temp"] .dec, endl,
   lit "FCU Nom. SM S2 Temp : ", val [.f "FCUNominalScanMirrorSensor2Temp"] .dec, endl,
   lit "FCU Red. SM S2 Temp : ", val [.f "FCURedundantScanMirrorSensor2Temp"] .dec, endl,
   lit "FCU Nom. M1 S1 Temp : ", val [.f "FCUNominalM1MirrorSensor1Temp"] .dec, endl,
   lit "FCU Red. M1 S1 Temp : ", val [.f "FCURedundantM1MirrorSensor1Temp"] .dec, endl,
   lit "FCU Nom. M1 S2 Temp : ", val [.f "FCUNominalM1MirrorSensor2Temp"] .dec, endl,
   lit "FCU Red. M1 S2 Temp : ", val [.f "FCURedundantM1MirrorSensor2Temp"] .dec, endl,
   lit "FCU Nom. M23 S1 T   : ", val [.f "FCUNominalM23AssemblySensor1Temp"] .dec, endl,
   lit "FCU Red. M23 S1 T   : ", val [.f "FCURedundantM23AssemblySensor1Temp"] .dec, endl,
   lit "FCU Nom. M23 S2 T   : ", val [.f "FCUNominalM23AssemblySensor2Temp"] .dec, endl,
   lit "FCU Red. M23 S2 T   : ", val [.f "FCURedundantM23AssemblySensor2Temp"] .dec, endl,
   lit "FCU Nom. M1 Baffle T: ", val [.f "FCUNominalM1BaffleTemp"] .dec, endl,
   lit "FCU Red. M1 Baffle T: ", val [.f "FCURedundantM1BaffleTemp"] .dec, endl,
   lit "FCU Nom. BB Sensor T: ", val [.f "FCUNominalBlackBodySensorTemp"] .dec, endl,
   lit "FCU Red. BB Sensor T: ", val [.f "FCURedundantBlackBodySensorTemp"] .dec, endl,
   lit "FCU Nom. SMM Status : ", val [.f "FCUNominalSMMStatus"] .status, endl,
   lit "FCU Red. SMM Status : ", val [.f "FCURedundantSMMStatus"] .status, endl] ++
  each 12 (fun i =>
    [lit "CHANNEL ", index 2 i, endl] ++
    sub [.f "ExtractedBBData", .i i] extractedBBDataText)

/-- msat/hrit/MSG_data_RadiometricProc.cpp:527-574 `operator<<` of `MSG_data_RadiometricProc` -/
def radiometricProcText : Text :=
  [lit "------------------------------------------------------", endl, lit "-          MSG DATA RADIOMETRIC PROCESSING           -", endl,
   lit "------------------------------------------------------", endl] ++
  sub [.f "RPSummary"] rPSummaryText ++
  [endl, lit "IMAGE CALIBRATION", endl] ++
  each 12 (fun i =>
    [lit "CHANNEL ", index 2 i, endl] ++
    sub [.f "ImageCalibration", .i i] image_CalibrationText) ++
  [lit "END CALIBRATION", endl] ++
  sub [.f "BlackBodyDataUsed"] blackBodyDataUsedText ++
  sub [.f "MPEFCalFeedback"] mPEFCalFeedbackText ++
  each 42 (fun i =>
    [lit "Rad Transform ", index 2 i, lit "    : ", endl] ++
    each 16 (fun j =>
      row [.f "RadTransform", .i i] (4 * j) 4 .r4)) ++
  sub [.f "RadProcMTFAdaptation"] radProcMTFAdaptationText ++
  each 12 (fun i =>
    [lit "Straylight Corr. ", index 2 i, lit " : ", endl] ++
    each 8 (fun j =>
      each 1 (fun k =>
        row [.f "StraylightCorrection", .i i, .i j] (8 * k) 4 .r4)))

/-! ### msat/hrit/MSG_data_GeometricProc.cpp -/

/-- msat/hrit/MSG_data_GeometricProc.cpp:35-48 `MSG_type_of_earth_model` -/
def type_of_earth_modelNames : List (Nat × String) := [
  (1, "Ellipsoid with RPN RPS REQ")]

/-- msat/hrit/MSG_data_GeometricProc.cpp:50-69 `MSG_resampling_function` -/
def resampling_functionNames : List (Nat × String) := [
  (1, "Windowed Shannon"),
  (2, "Bicubic Splines"),
  (3, "Nearest neighbour")]

/-- msat/hrit/MSG_data_GeometricProc.cpp:80-89 `operator<<` of `MSG_OptAxisDistances` -/
def optAxisDistancesText : Text :=
  each 42 (fun i =>
    [lit "E/W Focal plane ", index 2 i, lit "   : ", val [.f "E_W_FocalPlane", .i i] .r4, endl]) ++
  each 42 (fun i =>
    [lit "N/S Focal plane ", index 2 i, lit "   : ", val [.f "N_S_FocalPlane", .i i] .r4, endl])

/-- msat/hrit/MSG_data_GeometricProc.cpp:100-108 `operator<<` of `MSG_EarthModel` -/
def earthModelText : Text :=
  [lit "Type of Earth Model : ", val [.f "TypeofEarthModel"] (.name type_of_earth_modelNames), endl,
   lit "Equatorial Radius   : ", val [.f "EquatorialRadius"] .r8, lit " Km", endl,
   lit "North Polar Radius  : ", val [.f "NorthPolarRadius"] .r8, lit " Km", endl,
   lit "South Polar Radius  : ", val [.f "SouthPolarRadius"] .r8, lit " Km", endl]

/-- msat/hrit/MSG_data_GeometricProc.cpp:134-165 `operator<<` of `MSG_data_GeometricProc` -/
def geometricProcText : Text :=
  [lit "------------------------------------------------------", endl, lit "-           MSG GEOMETRIC PROCESSING DATA            -", endl,
   lit "------------------------------------------------------", endl] ++
  sub [.f "OptAxisDistances"] optAxisDistancesText ++
  sub [.f "EarthModel"] earthModelText ++
  each 12 (fun i =>
    [lit "Atmospheric Model CHANNEL ", index 2 i, endl] ++
    each 90 (fun j =>
      row [.f "AtmosphericModel", .i i] (4 * j) 4 .r4)) ++
  each 12 (fun i =>
    [lit "Resampl Function ", index 2 i, lit " : ", val [.f "ResamplingFunction", .i i] (.name resampling_functionNames), endl])

/-! ### msat/hrit/MSG_data_IMPFConfiguration.cpp -/

/-- msat/hrit/MSG_data_IMPFConfiguration.cpp:35-132 `MSG_SU_Instance` -/
def sU_InstanceNames : List (Nat × String) := [
  (1, "SW Instance M&C"),
  (2, "Accept Data Seviri"),
  (3, "Accept Data HKTM"),
  (4, "Accept Data GERB"),
  (5, "Accept Data FTP Server"),
  (6, "Rcal/Gcal"),
  (7, "RQA"),
  (8, "GQA"),
  (9, "Requantize/Resample Visible Channel 0.6"),
  (10, "Requantize/Resample Visible Channel 0.8"),
  (11, "Requantize/Resample Infrared Channel 1.6"),
  (12, "Requantize/Resample Infrared Channel 3.8"),
  (13, "Requantize/Resample Water Vapour Channel 6.2"),
  (14, "Requantize/Resample Water Vapour Channel 7.3"),
  (15, "Requantize/Resample Infrared Channel 8.7"),
  (16, "Requantize/Resample Infrared Channel 9.7"),
  (17, "Requantize/Resample Infrared Channel 10.8"),
  (18, "Requantize/Resample Infrared Channel 12.0"),
  (19, "Requantize/Resample Infrared Channel 13.4"),
  (20, "Requantize/Resample HRV Channel"),
  (21, "Produce Quicklook Data"),
  (22, "Send Seviri Data LPT0"),
  (23, "Send Seviri Data LPT5"),
  (24, "Send Data HKTM"),
  (25, "Send Data Raw GERB"),
  (26, "Send Data Validated GERB"),
  (27, "Send Data Generated FD"),
  (28, "Send Data FTP Client PUT"),
  (29, "Object Store Server")]

/-- msat/hrit/MSG_data_IMPFConfiguration.cpp:153-175 `MSG_SUMode` -/
def sUModeNames : List (Nat × String) := [
  (0, "Off"),
  (1, "Non Processing"),
  (2, "On - Real Time Processing"),
  (3, "On - Analysis Mode")]

/-- msat/hrit/MSG_data_IMPFConfiguration.cpp:177-196 `MSG_SUState` -/
def sUStateNames : List (Nat × String) := [
  (0, "Error"),
  (1, "Nominal"),
  (2, "Degraded")]

/-- msat/hrit/MSG_data_IMPFConfiguration.cpp:205-210 `operator<<` of `MSG_GPConfigItemVersion` -/
def gPConfigItemVersionText : Text :=
  [lit "Issue               : ", val [.f "Issue"] .dec, endl, lit "Revision            : ", val [.f "Revision"] .dec, endl]

/-- msat/hrit/MSG_data_IMPFConfiguration.cpp:220-226 `operator<<` of `MSG_MirrorParameters` -/
def mirrorParametersText : Text :=
  [lit "Max Feedback Voltage: ", val [.f "MaxFeedbackVoltage"] .r8, endl, lit "Min Feedback Voltage: ", val [.f "MinFeedbackVoltage"] .r8, endl,
   lit "Mirror Slip Estimate: ", val [.f "MirrorSlipEstimate"] .r8, endl]

/-- msat/hrit/MSG_data_IMPFConfiguration.cpp:245-261 `operator<<` of `MSG_HKTMParameters` -/
def hKTMParametersText : Text :=
  [lit "Time S0 Packet      : ", val [.f "TimeS0Packet"] .t6, endl, lit "Time S1 Packet      : ", val [.f "TimeS1Packet"] .t6, endl,
   lit "Time S2 Packet      : ", val [.f "TimeS2Packet"] .t6, endl, lit "Time S3 Packet      : ", val [.f "TimeS3Packet"] .t6, endl,
   lit "Time S4 Packet      : ", val [.f "TimeS4Packet"] .t6, endl, lit "Time S5 Packet      : ", val [.f "TimeS5Packet"] .t6, endl,
   lit "Time S6 Packet      : ", val [.f "TimeS6Packet"] .t6, endl, lit "Time S7 Packet      : ", val [.f "TimeS7Packet"] .t6, endl,
   lit "Time S8 Packet      : ", val [.f "TimeS8Packet"] .t6, endl, lit "Time S9 Packet      : ", val [.f "TimeS9Packet"] .t6, endl,
   lit "Time SY Packet      : ", val [.f "TimeSYPacket"] .t6, endl, lit "Time PS Packet      : ", val [.f "TimePSPacket"] .t6, endl]

/-- msat/hrit/MSG_data_IMPFConfiguration.cpp:272-280 `operator<<` of `MSG_SUConfiguration` -/
def sUConfigurationText : Text :=
  [lit "SW VERSION", endl] ++
  sub [.f "SWVersion"] gPConfigItemVersionText ++
  [lit "INFO BASE VERSION", endl] ++
  each 10 (fun i =>
    sub [.f "InfoBaseVersion", .i i] gPConfigItemVersionText)

/-- msat/hrit/MSG_data_IMPFConfiguration.cpp:291-301 `operator<<` of `MSG_SUDetail` -/
def sUDetailText : Text :=
  [lit "Software Unit ID    : ", val [.f "SoftwareUnitId"] .dec, lit " (", again [.f "SoftwareUnitId"] .unit, lit ")", endl,
   lit "Software Unit Inst. : ", val [.f "SUIdInstance"] (.name sU_InstanceNames), endl,
   lit "Software Unit Mode  : ", val [.f "SUMode"] (.name sUModeNames), endl,
   lit "Software Unit State : ", val [.f "SUState"] (.name sUStateNames), endl] ++
  sub [.f "SUConfiguration"] sUConfigurationText

/-- msat/hrit/MSG_data_IMPFConfiguration.cpp:311-317 `operator<<` of `MSG_EqualisationParms` -/
def equalisationParmsText : Text :=
  [lit "Constant Coefficient: ", val [.f "ConstCoef"] .r4, endl, lit "Linear Coefficient  : ", val [.f "LinearCoef"] .r4, endl,
   lit "Quadratic Coeff.    : ", val [.f "QuadraticCoef"] .r4, endl]

/-- msat/hrit/MSG_data_IMPFConfiguration.cpp:373-462 `operator<<` of `MSG_BlackBodyDataWarmStart` -/
def blackBodyDataWarmStartText : Text :=
  [lit "Gain for Method 1   : ", endl] ++
  each 3 (fun i =>
    row [.f "GTotalForMethod1"] (4 * i) 4 .r8) ++
  [lit "Gain for Method 2   : ", endl] ++
  each 3 (fun i =>
    row [.f "GTotalForMethod2"] (4 * i) 4 .r8) ++
  [lit "Gain for Method 3   : ", endl] ++
  each 3 (fun i =>
    row [.f "GTotalForMethod3"] (4 * i) 4 .r8) ++
  [lit "Gain BB for Method 1: ", endl] ++
  each 3 (fun i =>
    row [.f "GBackForMethod1"] (4 * i) 4 .r8) ++
  [lit "Gain BB for Method 2: ", endl] ++
  each 3 (fun i =>
    row [.f "GBackForMethod2"] (4 * i) 4 .r8) ++
  [lit "Gain BB for Method 3: ", endl] ++
  each 3 (fun i =>
    row [.f "GBackForMethod3"] (4 * i) 4 .r8) ++
  [lit "Gain Ratio          : ", endl] ++
  each 3 (fun i =>
    row [.f "RatioGTotalToGBack"] (4 * i) 4 .r8) ++
  [lit "Gain Front Optics   : ", endl] ++
  each 3 (fun i =>
    row [.f "GainInFrontOpticsCont"] (4 * i) 4 .r8) ++
  [lit "Calibration Const.  : ", endl] ++
  each 3 (fun i =>
    row [.f "CalibrationConstants"] (4 * i) 4 .r4) ++
  [lit "Time Cold Obs Secs  : ", val [.f "TimeOfColdObsSeconds"] .r8, endl,
   lit "Time Cold Obs NanoS.: ", val [.f "TimeOfColdObsNanoSecs"] .r8, endl] ++
  [lit "Incident Radiance   : ", endl] ++
  each 3 (fun i =>
    row [.f "IncidentRadiance"] (4 * i) 4 .r8) ++
  [lit "Temp. BB cold read. : ", val [.f "TempCal"] .r8, endl, lit "Temp. M1 cold read. : ", val [.f "TempM1"] .r8, endl,
   lit "Temp. SC cold read. : ", val [.f "TempScan"] .r8, endl, lit "Temp. BF cold read. : ", val [.f "TempM1Baf"] .r8, endl,
   lit "Temp. Surround      : ", val [.f "TempCalSurround"] .r8, endl] ++
  sub [.f "MirrorParameters"] mirrorParametersText ++
  [lit "Last Spin Period    : ", val [.f "LastSpinPeriod"] .r8, endl] ++
  sub [.f "HKTMParameters"] hKTMParametersText

/-- msat/hrit/MSG_data_IMPFConfiguration.cpp:482-504 `operator<<` of `MSG_WarmStartParms` -/
def warmStartParmsText : Text :=
  [lit "Scanning Law        : ", endl] ++
  each 509 (fun i =>
    row [.f "ScanningLaw"] (3 * i) 3 .r8) ++
  [lit "Rad. Frames Align.  : ", endl] ++
  row [.f "RadFramesAlignment"] 0 3 .r8 ++
  [lit "Scanning Law Variat.: ", endl] ++
  row [.f "ScanningLawVariation"] 0 2 .r4 ++
  [lit "Equalisation Params.: ", endl] ++
  each 42 (fun i =>
    sub [.f "EqualisationParms", .i i] equalisationParmsText) ++
  sub [.f "BlackBodyDataWarmStart"] blackBodyDataWarmStartText

/-- msat/hrit/MSG_data_IMPFConfiguration.cpp:526-536 `operator<<` of `MSG_data_IMPFConfiguration` -/
def iMPFConfigurationText : Text :=
  [lit "------------------------------------------------------", endl, lit "-           MSG IMPF CONFIGURATION RECORD            -", endl,
   lit "------------------------------------------------------", endl] ++
  sub [.f "GPConfigItemVersion"] gPConfigItemVersionText ++
  each 50 (fun i =>
    sub [.f "SuDetails", .i i] sUDetailText) ++
  sub [.f "WarmStartParms"] warmStartParmsText

/-! ### msat/hrit/MSG_data_ImageProdStats.cpp -/

/-- msat/hrit/MSG_data_ImageProdStats.cpp:44-53 `operator<<` of `MSG_ActualScanningSummary` -/
def actualScanningSummaryText : Text :=
  [lit "Nominal Image Scan. : ", val [.f "NominalImageScanning"] .dec, endl, lit "Reduced Scan        : ", val [.f "ReducedScan"] .dec, endl,
   lit "Forw. Scan Start    : ", val [.f "ForwardScanStart"] .t6, endl, lit "Forw. Scan End      : ", val [.f "ForwardScanEnd"] .t6, endl]

/-- msat/hrit/MSG_data_ImageProdStats.cpp:72-92 `operator<<` of `MSG_RadiometerBehaviour` -/
def radiometerBehaviourText : Text :=
  [lit "Nominal Behaviour   : ", val [.f "NominalBehaviour"] .dec, endl, lit "Rad Scan Irregular. : ", val [.f "RadScanIrregularity"] .dec, endl,
   lit "Rad Stoppage        : ", val [.f "RadStoppage"] .dec, endl, lit "Repeat not complete : ", val [.f "RepeatCycleNotCompleted"] .dec, endl,
   lit "Gain change         : ", val [.f "GainChangeTookPlace"] .dec, endl,
   lit "Decontamination     : ", val [.f "DecontaminationTookPlace"] .dec, endl,
   lit "No BB Calibration   : ", val [.f "NoBBCalibrationAchieved"] .dec, endl,
   lit "Incorrect Temp.     : ", val [.f "IncorrectTemperature"] .dec, endl, lit "Invalid BB data     : ", val [.f "InvalidBBData"] .dec, endl,
   lit "Invalid Aux HKTM    : ", val [.f "InvalidAuxOrHKTMData"] .dec, endl,
   lit "Refocusing actuated : ", val [.f "RefocusingMechanismActuated"] .dec, endl,
   lit "Mirror back ref.    : ", val [.f "MirrorBackToReferencePos"] .dec, endl]

/-- msat/hrit/MSG_data_ImageProdStats.cpp:107-119 `operator<<` of `MSG_ReceptionSummaryStats` -/
def receptionSummaryStatsText : Text :=
  each 12 (fun i =>
    [lit "Channel ", index 2 i, endl, lit "Planned L10 lines   : ", val [.f "PlannedNumberOfL10Lines", .i i] .dec, endl,
     lit "Missing L10 lines   : ", val [.f "NumberOfMissingL10Lines", .i i] .dec, endl,
     lit "Corrupted L10 lines : ", val [.f "NumberOfCorruptedL10Lines", .i i] .dec, endl,
     lit "Replaced L10 lines  : ", val [.f "NumberOfReplacedL10Lines", .i i] .dec, endl])

/-- msat/hrit/MSG_data_ImageProdStats.cpp:132-143 `operator<<` of `MSG_L15ImageValidity` -/
def l15ImageValidityText : Text :=
  [lit "Nominal Image       : ", val [.f "NominalImage"] .dec, endl, lit "Incomplete Image    : ", val [.f "NonNominalBecauseIncomplete"] .dec, endl,
   lit "Non Radiometric OK  : ", val [.f "NonNominalRadiometricQuality"] .dec, endl,
   lit "Non Geometric OK    : ", val [.f "NonNominalGeometricQuality"] .dec, endl,
   lit "Incomplete L 1.5    : ", val [.f "IncompleteL15"] .dec, endl]

/-- msat/hrit/MSG_data_ImageProdStats.cpp:154-161 `operator<<` of `MSG_ActualL15CoverageVIS_IR` -/
def actualL15CoverageVIS_IRText : Text :=
  [lit "Southern Line IR    : ", val [.f "SouthernLineActual"] .dec, endl, lit "Northern Line IR    : ", val [.f "NorthernLineActual"] .dec, endl,
   lit "Eastern Column IR   : ", val [.f "EasternColumnActual"] .dec, endl, lit "Western Column IR   : ", val [.f "WesternColumnActual"] .dec, endl]

/-- msat/hrit/MSG_data_ImageProdStats.cpp:176-187 `operator<<` of `MSG_ActualL15CoverageHRV` -/
def actualL15CoverageHRVText : Text :=
  [lit "Low South Line HRV  : ", val [.f "LowerSouthLineActual"] .dec, endl,
   lit "Low North Line HRV  : ", val [.f "LowerNorthLineActual"] .dec, endl,
   lit "Low East Column HRV : ", val [.f "LowerEastColumnActual"] .dec, endl,
   lit "Low West Column HRV : ", val [.f "LowerWestColumnActual"] .dec, endl,
   lit "Up South Line HRV   : ", val [.f "UpperSouthLineActual"] .dec, endl,
   lit "Up North Line HRV   : ", val [.f "UpperNorthLineActual"] .dec, endl,
   lit "Up East Column HRV  : ", val [.f "UpperEastColumnActual"] .dec, endl,
   lit "Up West Column HRV  : ", val [.f "UpperWestColumnActual"] .dec, endl]

/-- msat/hrit/MSG_data_ImageProdStats.cpp:213-229 `operator<<` of `MSG_data_ImageProdStats` -/
def imageProdStatsText : Text :=
  [lit "------------------------------------------------------", endl, lit "-         MSG IMAGE PRODUCTION STATISTICS            -", endl,
   lit "------------------------------------------------------", endl, lit "Satellite Id        : ", val [.f "SatelliteId"] .spacecraft, endl] ++
  sub [.f "ActualScanningSummary"] actualScanningSummaryText ++
  sub [.f "RadiometerBehaviour"] radiometerBehaviourText ++
  sub [.f "ReceptionSummaryStats"] receptionSummaryStatsText ++
  each 12 (fun i =>
    [lit "Channel ", index 2 i, endl] ++
    sub [.f "L15ImageValidity", .i i] l15ImageValidityText) ++
  sub [.f "ActualL15CoverageVIS_IR"] actualL15CoverageVIS_IRText ++
  sub [.f "ActualL15CoverageHRV"] actualL15CoverageHRVText

/-! ### msat/hrit/MSG_data_NavigExtrResult.cpp -/

/-- msat/hrit/MSG_data_NavigExtrResult.cpp:34-56 `MSG_horizon_id` -/
def horizon_idNames : List (Nat × String) := [
  (0, "South"),
  (1, "North"),
  (2, "East"),
  (3, "West")]

/-- msat/hrit/MSG_data_NavigExtrResult.cpp:72-85 `operator<<` of `MSG_HorizonObservation` -/
def horizonObservationText : Text :=
  [lit "Horizon Id          : ", val [.f "HorizonId"] (.name horizon_idNames), endl, lit "Alpha               : ", val [.f "Alpha"] .r8, endl,
   lit "Alpha Confidence    : ", val [.f "AlphaConfidence"] .r8, endl, lit "Beta                : ", val [.f "Beta"] .r8, endl,
   lit "Beta Confidence     : ", val [.f "BetaConfidence"] .r8, endl, lit "Observation Time    : ", val [.f "ObservationTime"] .t8, endl,
   lit "Spin Rate           : ", val [.f "SpinRate"] .r8, endl, lit "Alpha Deviation     : ", val [.f "AlphaDeviation"] .r8, endl,
   lit "Beta Deviation      : ", val [.f "BetaDeviation"] .r8, endl]

/-- msat/hrit/MSG_data_NavigExtrResult.cpp:101-115 `operator<<` of `MSG_StarObservation` -/
def starObservationText : Text :=
  when [.f "StarId"] (
    [lit "Star Id             : ", val [.f "StarId"] .dec, endl, lit "Alpha               : ", val [.f "Alpha"] .r8, endl,
     lit "Alpha Confidence    : ", val [.f "AlphaConfidence"] .r8, endl, lit "Beta                : ", val [.f "Beta"] .r8, endl,
     lit "Beta Confidence     : ", val [.f "BetaConfidence"] .r8, endl, lit "Observation Time    : ", val [.f "ObservationTime"] .t8, endl,
     lit "Spin Rate           : ", val [.f "SpinRate"] .r8, endl, lit "Alpha Deviation     : ", val [.f "AlphaDeviation"] .r8, endl,
     lit "Beta Deviation      : ", val [.f "BetaDeviation"] .r8, endl])

/-- msat/hrit/MSG_data_NavigExtrResult.cpp:133-149 `operator<<` of `MSG_LandmarkObservation` -/
def landmarkObservationText : Text :=
  when [.f "LandmarkId"] (
    [lit "Landmark Id         : ", val [.f "LandmarkId"] .dec, endl, lit "Longitude           : ", val [.f "LandmarkLongitude"] .r8, endl,
     lit "Latitude            : ", val [.f "LandmarkLatitude"] .r8, endl, lit "Alpha               : ", val [.f "Alpha"] .r8, endl,
     lit "Alpha Confidence    : ", val [.f "AlphaConfidence"] .r8, endl, lit "Beta                : ", val [.f "Beta"] .r8, endl,
     lit "Beta Confidence     : ", val [.f "BetaConfidence"] .r8, endl, lit "Observation Time    : ", val [.f "ObservationTime"] .t8, endl,
     lit "Spin Rate           : ", val [.f "SpinRate"] .r8, endl, lit "Alpha Deviation     : ", val [.f "AlphaDeviation"] .r8, endl,
     lit "Beta Deviation      : ", val [.f "BetaDeviation"] .r8, endl])

/-- msat/hrit/MSG_data_NavigExtrResult.cpp:173-185 `operator<<` of `MSG_data_NavigExtrResult` -/
def navigExtrResultText : Text :=
  [lit "------------------------------------------------------", endl, lit "-         MSG NAVIGATION EXTRACTION RESULT           -", endl,
   lit "------------------------------------------------------", endl] ++
  each 4 (fun i =>
    sub [.f "ExtractedHorizons", .i i] horizonObservationText) ++
  each 20 (fun i =>
    sub [.f "ExtractedStars", .i i] starObservationText) ++
  each 50 (fun i =>
    sub [.f "ExtractedLandmarks", .i i] landmarkObservationText)

/-! ### msat/hrit/MSG_data_RadiometricQuality.cpp -/

/-- msat/hrit/MSG_data_RadiometricQuality.cpp:146-310 `operator<<` of `MSG_L10RadQuality` -/
def l10RadQualityText : Text :=
  [lit "Full Image Min Count: ", val [.f "FullImageMinimumCount"] .dec, endl,
   lit "Full Image Max Count: ", val [.f "FullImageMaximumCount"] .dec, endl,
   lit "Earth Disk Min Count: ", val [.f "EarthDiskMinimumCount"] .dec, endl,
   lit "Earth Disk Max Count: ", val [.f "EarthDiskMaximumCount"] .dec, endl, lit "Moon Min Count      : ", val [.f "MoonMinimumCount"] .dec, endl,
   lit "Moon Max Count      : ", val [.f "MoonMaximumCount"] .dec, endl, lit "Full Mean Count     : ", val [.f "FullImageMeanCount"] .r4, endl,
   lit "Full Std. Deviation : ", val [.f "FullImageStandardDeviation"] .r4, endl,
   lit "Earth Mean Count    : ", val [.f "EarthDiskMeanCount"] .r4, endl,
   lit "Earth Std. Deviation: ", val [.f "EarthDiskStandardDeviation"] .r4, endl, lit "Moon Mean Count     : ", val [.f "MoonMeanCount"] .r4, endl,
   lit "Moon Std. Deviation : ", val [.f "MoonStandardDeviation"] .r4, endl, lit "Space Mean Count    : ", val [.f "SpaceMeanCount"] .r4, endl,
   lit "Space Std. Deviation: ", val [.f "SpaceStandardDeviation"] .r4, endl,
   lit "SE Corner Mean      : ", val [.f "SESpaceCornerMeanCount"] .r4, endl,
   lit "SE Corner Std. Dev. : ", val [.f "SESpaceCornerStandardDeviation"] .r4, endl,
   lit "SW Corner Mean      : ", val [.f "SWSpaceCornerMeanCount"] .r4, endl,
   lit "SW Corner Std. Dev. : ", val [.f "SWSpaceCornerStandardDeviation"] .r4, endl,
   lit "NE Corner Mean      : ", val [.f "NESpaceCornerMeanCount"] .r4, endl,
   lit "NE Corner Std. Dev. : ", val [.f "NESpaceCornerStandardDeviation"] .r4, endl,
   lit "NW Corner Mean      : ", val [.f "NWSpaceCornerMeanCount"] .r4, endl,
   lit "NW Corner Std. Dev. : ", val [.f "NWSpaceCornerStandardDeviation"] .r4, endl,
   lit "4 Space Corner Mean : ", val [.f "FourSpaceCornersMeanCount"] .r4, endl,
   lit "4 Space Corner Std. : ", val [.f "FourSpaceCornersStandardDeviation"] .r4, endl] ++
  [lit "Full Image Istogram : ", endl] ++
  each 256 (fun i => [index3 i, lit " ", bar [.f "FullImageIstogram"] 256 i, endl]) ++
  [lit "Earth Disk Istogram : ", endl] ++
  each 256 (fun i => [index3 i, lit " ", bar [.f "EarthDiskIstogram"] 256 i, endl]) ++
  [lit "Image Centre Ist.   : ", endl] ++
  each 256 (fun i => [index3 i, lit " ", bar [.f "ImageCentreSquareIstogram"] 256 i, endl]) ++
  [lit "SE Corner Istogram  : ", endl] ++
  each 128 (fun i => [index3 i, lit " ", bar [.f "SESpaceCornerIstogram"] 128 i, endl]) ++
  [lit "SW Corner Istogram  : ", endl] ++
  each 128 (fun i => [index3 i, lit " ", bar [.f "SWSpaceCornerIstogram"] 128 i, endl]) ++
  [lit "NE Corner Istogram  : ", endl] ++
  each 128 (fun i => [index3 i, lit " ", bar [.f "NESpaceCornerIstogram"] 128 i, endl]) ++
  [lit "NW Corner Istogram  : ", endl] ++
  each 128 (fun i => [index3 i, lit " ", bar [.f "NWSpaceCornerIstogram"] 128 i, endl]) ++
  lit "Full Image Entropy  : " :: row [.f "FullImageEntropy"] 0 3 .r4 ++
  lit "Earth Disk Entropy  : " :: row [.f "EarthDiskEntropy"] 0 3 .r4 ++
  lit "Image Square Entropy: " :: row [.f "ImageCentreSquareEntropy"] 0 3 .r4 ++
  lit "SE Spc Corner Entr. : " :: row [.f "SESpaceCornerEntropy"] 0 3 .r4 ++
  lit "SW Spc Corner Entr. : " :: row [.f "SWSpaceCornerEntropy"] 0 3 .r4 ++
  lit "NE Spc Corner Entr. : " :: row [.f "NESpaceCornerEntropy"] 0 3 .r4 ++
  lit "NW Spc Corner Entr. : " :: row [.f "NWSpaceCornerEntropy"] 0 3 .r4 ++
  lit "4 Spc Corners Entr. : " :: row [.f "FourSpaceCornersEntropy"] 0 3 .r4 ++
  [lit "Image Squ. PSD E/W  :", endl] ++
  each 32 (fun i =>
    row [.f "ImageCentreSquarePSD_EW"] (4 * i) 4 .r4) ++
  [lit "Full Image PSD E/W  :", endl] ++
  each 32 (fun i =>
    row [.f "FullImagePSD_EW"] (4 * i) 4 .r4) ++
  [lit "Image Squ. PSD N/S  :", endl] ++
  each 32 (fun i =>
    row [.f "ImageCentreSquarePSD_NS"] (4 * i) 4 .r4) ++
  [lit "Full Image PSD N/S  :", endl] ++
  each 32 (fun i =>
    row [.f "FullImagePSD_NS"] (4 * i) 4 .r4)

/-- msat/hrit/MSG_data_RadiometricQuality.cpp:384-476 `operator<<` of `MSG_L15RadQuality` -/
def l15RadQualityText : Text :=
  [lit "Full Image Min Count: ", val [.f "FullImageMinimumCount"] .dec, endl,
   lit "Full Image Max Count: ", val [.f "FullImageMaximumCount"] .dec, endl,
   lit "Earth Disk Min Count: ", val [.f "EarthDiskMinimumCount"] .dec, endl,
   lit "Earth Disk Max Count: ", val [.f "EarthDiskMaximumCount"] .dec, endl, lit "Full Mean Count     : ", val [.f "FullImageMeanCount"] .r4, endl,
   lit "Full Std. Deviation : ", val [.f "FullImageStandardDeviation"] .r4, endl,
   lit "Earth Mean Count    : ", val [.f "EarthDiskMeanCount"] .r4, endl,
   lit "Earth Std. Deviation: ", val [.f "EarthDiskStandardDeviation"] .r4, endl, lit "Space Mean Count    : ", val [.f "SpaceMeanCount"] .r4, endl,
   lit "Space Std. Deviation: ", val [.f "SpaceStandardDeviation"] .r4, endl] ++
  [lit "Full Image Istogram : ", endl] ++
  each 256 (fun i => [index3 i, lit " ", bar [.f "FullImageIstogram"] 256 i, endl]) ++
  [lit "Earth Disk Istogram : ", endl] ++
  each 256 (fun i => [index3 i, lit " ", bar [.f "EarthDiskIstogram"] 256 i, endl]) ++
  [lit "Image Centre Ist.   : ", endl] ++
  each 256 (fun i => [index3 i, lit " ", bar [.f "ImageCentreSquareIstogram"] 256 i, endl]) ++
  lit "Full Image Entropy  : " :: row [.f "FullImageEntropy"] 0 3 .r4 ++
  lit "Earth Disk Entropy  : " :: row [.f "EarthDiskEntropy"] 0 3 .r4 ++
  lit "Image Square Entropy: " :: row [.f "ImageCentreSquareEntropy"] 0 3 .r4 ++
  [lit "Image Squ. PSD E/W  :", endl] ++
  each 32 (fun i =>
    row [.f "ImageCentreSquarePSD_EW"] (4 * i) 4 .r4) ++
  [lit "Full Image PSD E/W  :", endl] ++
  each 32 (fun i =>
    row [.f "FullImagePSD_EW"] (4 * i) 4 .r4) ++
  [lit "Image Squ. PSD N/S  :", endl] ++
  each 32 (fun i =>
    row [.f "ImageCentreSquarePSD_NS"] (4 * i) 4 .r4) ++
  [lit "Full Image PSD N/S  :", endl] ++
  each 32 (fun i =>
    row [.f "FullImagePSD_NS"] (4 * i) 4 .r4) ++
  [lit "SE Space Corner RMS : ", val [.f "SESpaceCornerL15_RMS"] .r4, endl, lit "SE Space Corner Mean: ", val [.f "SESpaceCornerL15_Mean"] .r4, endl,
   lit "SW Space Corner RMS : ", val [.f "SWSpaceCornerL15_RMS"] .r4, endl, lit "SW Space Corner Mean: ", val [.f "SWSpaceCornerL15_Mean"] .r4, endl,
   lit "NE Space Corner RMS : ", val [.f "NESpaceCornerL15_RMS"] .r4, endl, lit "NE Space Corner Mean: ", val [.f "NESpaceCornerL15_Mean"] .r4, endl,
   lit "NW Space Corner RMS : ", val [.f "NWSpaceCornerL15_RMS"] .r4, endl,
   lit "NW Space Corner Mean: ", val [.f "NWSpaceCornerL15_Mean"] .r4, endl]

/-- msat/hrit/MSG_data_RadiometricQuality.cpp:498-508 `operator<<` of `MSG_data_RadiometricQuality` -/
def radiometricQualityText : Text :=
  [lit "------------------------------------------------------", endl, lit "-         MSG IMAGE RADIOMETRIC QUALITY RECORD       -", endl,
   lit "------------------------------------------------------", endl] ++
  each 42 (fun i =>
    sub [.f "L10RadQuality", .i i] l10RadQualityText) ++
  each 12 (fun i =>
    sub [.f "L15RadQuality", .i i] l15RadQualityText)

/-! ### msat/hrit/MSG_data_GeometricQuality.cpp -/

/-- msat/hrit/MSG_data_GeometricQuality.cpp:34-56 `MSG_quality_info_validity` -/
def quality_info_validityNames : List (Nat × String) := [
  (0, "Not Derived"),
  (1, "Derived and Valid"),
  (2, "Derived and Invalid"),
  (3, "Estimated")]

/-- msat/hrit/MSG_data_GeometricQuality.cpp:76-94 `operator<<` of `MSG_Accuracy` -/
def accuracyText : Text :=
  [lit "Quality Info Valid. : ", val [.f "QualityInfoValidity"] (.name quality_info_validityNames), endl] ++
  when [.f "QualityInfoValidity"] (
    [lit "E/W Accuracy RMS    : ", val [.f "EastWestAccuracyRMS"] .r4, endl,
     lit "N/S Accuracy RMS    : ", val [.f "NorthSouthAccuracyRMS"] .r4, endl, lit "Magnitude RMS       : ", val [.f "MagnitudeRMS"] .r4, endl,
     lit "E/W Uncert. RMS     : ", val [.f "EastWestUncertaintyRMS"] .r4, endl,
     lit "N/S Uncert. RMS     : ", val [.f "NorthSouthUncertaintyRMS"] .r4, endl,
     lit "Magnitude Unc. RMS  : ", val [.f "MagnitudeUncertaintyRMS"] .r4, endl,
     lit "E/W Max Deviation   : ", val [.f "EastWestMaxDeviation"] .r4, endl,
     lit "N/S Max Deviation   : ", val [.f "NorthSouthMaxDeviation"] .r4, endl,
     lit "Magnitude Deviation : ", val [.f "MagnitudeMaxDeviation"] .r4, endl,
     lit "E/W Uncert. Max     : ", val [.f "EastWestUncertaintyMax"] .r4, endl,
     lit "N/S Uncert. Max     : ", val [.f "NorthSouthUncertaintyMax"] .r4, endl,
     lit "Magnitude Unc. Max  : ", val [.f "MagnitudeUncertaintyMax"] .r4, endl])

/-- msat/hrit/MSG_data_GeometricQuality.cpp:112-130 `operator<<` of `MSG_Residuals` -/
def residualsText : Text :=
  [lit "Quality Info Valid. : ", val [.f "QualityInfoValidity"] (.name quality_info_validityNames), endl] ++
  when [.f "QualityInfoValidity"] (
    [lit "E/W Residuals       : ", val [.f "EastWestResiduals"] .r4, endl, lit "N/S Residuals       : ", val [.f "NorthSouthResiduals"] .r4, endl,
     lit "E/W Uncertainty     : ", val [.f "EastWestUncertainty"] .r4, endl,
     lit "N/S Uncertainty     : ", val [.f "NorthSouthUncertainty"] .r4, endl, lit "E/W RMS             : ", val [.f "EastWestRMS"] .r4, endl,
     lit "N/S RMS             : ", val [.f "NorthSouthRMS"] .r4, endl, lit "E/W Magnitude       : ", val [.f "EastWestMagnitude"] .r4, endl,
     lit "N/S Magnitude       : ", val [.f "NorthSouthMagnitude"] .r4, endl,
     lit "E/W Magnitude Unce. : ", val [.f "EastWestMagnitudeUncertainty"] .r4, endl,
     lit "N/S Magnitude Unce. : ", val [.f "NorthSouthMagnitudeUncertainty"] .r4, endl])

/-- msat/hrit/MSG_data_GeometricQuality.cpp:143-153 `operator<<` of `MSG_GeometricQualityStatus` -/
def geometricQualityStatusText : Text :=
  [lit "Quality Nominal     : ", val [.f "QualityNominal"] .dec, endl, lit "Nominal Absolute    : ", val [.f "NominalAbsolute"] .dec, endl,
   lit "Nominal Rel. Prev.  : ", val [.f "NominalRelativeToPreviousImage"] .dec, endl,
   lit "Nominal Rel. 500    : ", val [.f "NominalForREL500"] .dec, endl, lit "Nominal Rel. 16     : ", val [.f "NominalForREL16"] .dec, endl,
   lit "Nominal Rel. Misreg : ", val [.f "NominalForResMisreg"] .dec, endl]

/-- msat/hrit/MSG_data_GeometricQuality.cpp:184-204 `operator<<` of `MSG_data_GeometricQuality` -/
def geometricQualityText : Text :=
  [lit "------------------------------------------------------", endl, lit "-         MSG IMAGE GEOMETRIC QUALITY RESULTS        -", endl,
   lit "------------------------------------------------------", endl] ++
  each 12 (fun i =>
    [lit "Channel ", index 2 i, endl, lit "ABSOLUTE ACCURACY", endl] ++
    sub [.f "AbsoluteAccuracy", .i i] accuracyText ++
    [lit "RELATIVE ACCURACY", endl] ++
    sub [.f "RelativeAccuracy", .i i] accuracyText ++
    [lit "N 500 PIXELS ACCURACY", endl] ++
    sub [.f "N500PixelsRelativeAccuracy", .i i] accuracyText ++
    [lit "N 16 PIXELS ACCURACY", endl] ++
    sub [.f "N16PixelsRelativeAccuracy", .i i] accuracyText ++
    [lit "MISREGISTRATION RESIDUALS", endl] ++
    sub [.f "MisregistrationResiduals", .i i] residualsText ++
    [lit "GEOMETRIC QUALITY", endl] ++
    sub [.f "GeometricQualityStatus", .i i] geometricQualityStatusText)

/-! ### msat/hrit/MSG_data_TimelinComple.cpp -/

/-- msat/hrit/MSG_data_TimelinComple.cpp:42-48 `operator<<` of `MSG_Timeliness` -/
def timelinessText : Text :=
  [lit "Max Delay           : ", val [.f "MaxDelay"] .r4, endl, lit "Min Delay           : ", val [.f "MinDelay"] .r4, endl,
   lit "Mean Delay          : ", val [.f "MeanDelay"] .r4, endl]

/-- msat/hrit/MSG_data_TimelinComple.cpp:60-68 `operator<<` of `MSG_Completeness` -/
def completenessText : Text :=
  [lit "Planned Image Lines : ", val [.f "PlannedL15ImageLines"] .dec, endl,
   lit "Generated Lines     : ", val [.f "GeneratedL15ImageLines"] .dec, endl,
   lit "Valid Lines         : ", val [.f "ValidL15ImageLines"] .dec, endl, lit "Dummy Lines         : ", val [.f "DummyL15ImageLines"] .dec, endl,
   lit "Corrupted Lines     : ", val [.f "CorruptedL15ImageLines"] .dec, endl]

/-- msat/hrit/MSG_data_TimelinComple.cpp:88-98 `operator<<` of `MSG_data_TimelinComple` -/
def timelinCompleText : Text :=
  [lit "------------------------------------------------------", endl, lit "-         MSG IMAGE PRODUCTION STATISTICS            -", endl,
   lit "------------------------------------------------------", endl] ++
  sub [.f "Timeliness"] timelinessText ++
  each 12 (fun i =>
    [lit "Channel ", index 2 i, endl] ++
    sub [.f "Completeness", .i i] completenessText)


/-! ### msat/hrit/MSG_data.cpp -/

/-- msat/hrit/MSG_data.cpp:34-44 `operator<<` of `MSG_data_level_15_header` -/
def headerText : Text :=
  sub [.f "sat_status"] satelliteStatusText ++
  sub [.f "image_acquisition"] imageAcquisitionText ++
  sub [.f "celestial_events"] celestialEventsText ++
  sub [.f "image_description"] imageDescriptionText ++
  sub [.f "radiometric_proc"] radiometricProcText ++
  sub [.f "geometric_proc"] geometricProcText ++
  sub [.f "IMPF_config"] iMPFConfigurationText

/-- msat/hrit/MSG_data.cpp:46-54 `operator<<` of `MSG_data_level_15_trailer` -/
def trailerText : Text :=
  sub [.f "product_stats"] imageProdStatsText ++
  sub [.f "navig_result"] navigExtrResultText ++
  sub [.f "radiometric_qlty"] radiometricQualityText ++
  sub [.f "geometric_qlty"] geometricQualityText ++
  sub [.f "timelin_comple"] timelinCompleText

end Msat.RecordTexts
