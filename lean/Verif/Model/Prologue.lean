import Verif.Model.Layout

/-
The `read_from` members of the HRIT prologue and epilogue, transcribed statement by statement from
msat/hrit/MSG_data_*.cpp.  Offsets are the expressions of the source.  The derived flag `present` of
the orbit and attitude coefficients is modelled at the end of the file.
-/
namespace Msat.Layout

/-! ### msat/hrit/MSG_data_SatelliteStatus.cpp -/

/-- msat/hrit/MSG_data_SatelliteStatus.cpp:329-339 `MSG_SatelliteDefinition::read_from` -/
def satelliteDefinition : ReadFrom := body [
    get [.f "SatelliteId"] .u2 0,
    adv 2,
    get [.f "NominalLongitude"] .r4 0,
    adv 4,
    get [.f "SatelliteStatus"] .u1 0,
    adv 1]

/-- msat/hrit/MSG_data_SatelliteStatus.cpp:351-367 `MSG_SatelliteOperations::read_from` -/
def satelliteOperations : ReadFrom := body [
    get [.f "LastManoeuvreFlag"] .flag 0,
    adv 1,
    get [.f "LastManouvreStartTime"] .t6 0,
    adv 6,
    get [.f "LastManouvreEndTime"] .t6 0,
    adv 6,
    get [.f "LastManouvreType"] .u1 0,
    adv 1,
    get [.f "NextManoeuvreFlag"] .flag 0,
    adv 1,
    get [.f "NextManouvreStartTime"] .t6 0,
    adv 6,
    get [.f "NextManouvreEndTime"] .t6 0,
    adv 6,
    get [.f "NextManouvreType"] .u1 0,
    adv 1]

/-- msat/hrit/MSG_data_SatelliteStatus.cpp:90-116 `MSG_orbit_coefficient::read_from` -/
def orbit_coefficient : ReadFrom := body [
    get [.f "StartTime"] .t6 0,
    adv 6,
    get [.f "EndTime"] .t6 0,
    adv 6,
    loop 8 fun i => get [.f "X", .i i] .r8 (i * 8),
    adv 64,
    loop 8 fun i => get [.f "Y", .i i] .r8 (i * 8),
    adv 64,
    loop 8 fun i => get [.f "Z", .i i] .r8 (i * 8),
    adv 64,
    loop 8 fun i => get [.f "VX", .i i] .r8 (i * 8),
    adv 64,
    loop 8 fun i => get [.f "VY", .i i] .r8 (i * 8),
    adv 64,
    loop 8 fun i => get [.f "VZ", .i i] .r8 (i * 8),
    adv 64]

/-- msat/hrit/MSG_data_SatelliteStatus.cpp:128-136 `MSG_Orbit::read_from` -/
def orbit : ReadFrom := body [
    get [.f "PeriodStartTime"] .t6 0,
    adv 6,
    get [.f "PeriodEndTime"] .t6 0,
    adv 6,
    loop 100 fun i => call [.f "OrbitPoliniomal", .i i] orbit_coefficient]

/-- msat/hrit/MSG_data_SatelliteStatus.cpp:71-88 `MSG_AttitudeCoeff::read_from` -/
def attitudeCoeff : ReadFrom := body [
    get [.f "StartTime"] .t6 0,
    adv 6,
    get [.f "EndTime"] .t6 0,
    adv 6,
    loop 8 fun i => get [.f "XOfSpinAxis", .i i] .r8 (i * 8),
    adv 64,
    loop 8 fun i => get [.f "YOfSpinAxis", .i i] .r8 (i * 8),
    adv 64,
    loop 8 fun i => get [.f "ZOfSpinAxis", .i i] .r8 (i * 8),
    adv 64]

/-- msat/hrit/MSG_data_SatelliteStatus.cpp:138-148 `MSG_Attitude::read_from` -/
def attitude : ReadFrom := body [
    get [.f "PeriodStartTime"] .t6 0,
    adv 6,
    get [.f "PeriodEndTime"] .t6 0,
    adv 6,
    get [.f "PrincipalAxisOffsetAngle"] .r8 0,
    adv 8,
    loop 100 fun i => call [.f "AttitudePolynomial", .i i] attitudeCoeff]

/-- msat/hrit/MSG_data_SatelliteStatus.cpp:150-168 `MSG_UTCCorrelation::read_from` -/
def uTCCorrelation : ReadFrom := body [
    get [.f "PeriodStartTime"] .t6 0,
    adv 6,
    get [.f "PeriodEndTime"] .t6 0,
    adv 6,
    get [.f "OnBoardTimeStart"] .cuc 0,
    adv 7,
    get [.f "VarOnBoardTimeStart"] .r8 0,
    adv 8,
    get [.f "A1"] .r8 0,
    adv 8,
    get [.f "VarA1"] .r8 0,
    adv 8,
    get [.f "A2"] .r8 0,
    adv 8,
    get [.f "VarA2"] .r8 0,
    adv 8]

/-- msat/hrit/MSG_data_SatelliteStatus.cpp:48-59 `MSG_data_SatelliteStatus::read_from` -/
def satelliteStatus : ReadFrom := body [
    call [.f "SatelliteDefinition"] satelliteDefinition,
    call [.f "SatelliteOperations"] satelliteOperations,
    call [.f "Orbit"] orbit,
    call [.f "Attitude"] attitude,
    get [.f "SpinRateatRCStart"] .r8 0,
    adv 8,
    call [.f "UTCCorrelation"] uTCCorrelation]

/-! ### msat/hrit/MSG_data_ImageAcquisition.cpp -/

/-- msat/hrit/MSG_data_ImageAcquisition.cpp:35-41 `MSG_PlannedAquisitionTime::read_from` -/
def plannedAquisitionTime : ReadFrom := bodyRet [
    get [.f "TrueRepeatCycleStart"] .t10 0,
    get [.f "PlannedForwardScanEnd"] .t10 10,
    get [.f "PlannedRepeatCycleEnd"] .t10 20] 30

/-- msat/hrit/MSG_data_ImageAcquisition.cpp:54-61 `MSG_RadiometerStatus::read_from` -/
def radiometerStatus : ReadFrom := bodyRet [
    loop 12 fun i => get [.f "ChannelStatus", .i i] .u1 i,
    loop 42 fun i => get [.f "DetectorStatus", .i i] .u1 (12 + i)] 54

/-- msat/hrit/MSG_data_ImageAcquisition.cpp:78-147 `MSG_RadiometerSettings::read_from` -/
def radiometerSettings : ReadFrom := body [
    loop 42 fun i => get [.f "MDUSamplingDelays", .i i] .u2 (i * 2),
    adv 84,
    get [.f "MDUNomHRVDelay1"] .u2 0,
    adv 2,
    get [.f "MDUNomHRVDelay2"] .u2 0,
    adv 2,
    adv 2,
    get [.f "MDUNomHRVBreakline"] .u2 0,
    adv 2,
    get [.f "DHSSyncSelection"] .u1 0,
    adv 1,
    loop 42 fun i => get [.f "MDUOutGain", .i i] .u2 (i * 2),
    adv 84,
    get [.f "MDUCoarseGain"] (.mem 42 42) 0,
    adv 42,
    loop 42 fun i => get [.f "MDUFineGain", .i i] .u2 (i * 2),
    adv 84,
    loop 42 fun i => get [.f "MDUNumericalOffset", .i i] .u2 (i * 2),
    adv 84,
    loop 42 fun i => get [.f "PUGain", .i i] .u2 (i * 2),
    adv 84,
    loop 27 fun i => get [.f "PUOffset", .i i] .u2 (i * 2),
    adv 54,
    loop 15 fun i => get [.f "PUBias", .i i] .u2 (i * 2),
    adv 30,
    get [.f "L0_LineCounter"] .u2 0,
    adv 2,
    get [.f "K1_RetraceLines"] .u2 0,
    adv 2,
    get [.f "K2_PauseDeciseconds"] .u2 0,
    adv 2,
    get [.f "K3_RetraceLines"] .u2 0,
    adv 2,
    get [.f "K4_PauseDeciseconds"] .u2 0,
    adv 2,
    get [.f "K5_RetraceLines"] .u2 0,
    adv 2,
    get [.f "X_DeepSpaceWindowPosition"] .u1 0,
    adv 1,
    get [.f "RefocusingLines"] .u2 0,
    adv 2,
    get [.f "RefocusingDirection"] .u1 0,
    adv 1,
    get [.f "RefocusingPosition"] .u2 0,
    adv 2,
    get [.f "ScanRefPosFlag"] .flag 0,
    adv 1,
    get [.f "ScanRefPosNumber"] .u2 0,
    adv 2,
    get [.f "ScanRefPotVal"] .r4 0,
    adv 4,
    get [.f "ScanFirstLine"] .u2 0,
    adv 2,
    get [.f "ScanLastLine"] .u2 0,
    adv 2,
    get [.f "RetraceStartLine"] .u2 0,
    adv 2]

/-- msat/hrit/MSG_data_ImageAcquisition.cpp:205-228 `MSG_RadiometerOperations::read_from` -/
def radiometerOperations : ReadFrom := body [
    get [.f "LastGainChangeFlag"] .flag 0,
    adv 1,
    get [.f "LastGainChangeTime"] .t6 0,
    adv 6,
    get [.f "DecontaminationNow"] .flag 0,
    adv 1,
    get [.f "DecontaminationStart"] .t6 0,
    adv 6,
    get [.f "DecontaminationEnd"] .t6 0,
    adv 6,
    get [.f "BBCalScheduled"] .flag 0,
    adv 1,
    get [.f "BBCalibrationType"] .u1 0,
    adv 1,
    get [.f "BBFirstLine"] .u2 0,
    adv 2,
    get [.f "BBLastLine"] .u2 0,
    adv 2,
    get [.f "ColdFocalPlaneOpTemp"] .u2 0,
    adv 2,
    get [.f "WarmFocalPlaneOpTemp"] .u2 0,
    adv 2]

/-- msat/hrit/MSG_data_ImageAcquisition.cpp:260-270 `MSG_data_ImageAcquisition::read_from` -/
def imageAcquisition : ReadFrom := body [
    call [.f "PlannedAquisitionTime"] plannedAquisitionTime,
    call [.f "RadiometerStatus"] radiometerStatus,
    call [.f "RadiometerSettings"] radiometerSettings,
    call [.f "RadiometerOperations"] radiometerOperations]

/-! ### msat/hrit/MSG_data_CelestialEvents.cpp -/

/-- msat/hrit/MSG_data_CelestialEvents.cpp:211-220 `MSG_Earth_Moon_Sun_Coefficient::read_from` -/
def earth_Moon_Sun_Coefficient : ReadFrom := bodyRet [
    get [.f "StartTime"] .t6 0,
    get [.f "EndTime"] .t6 6,
    loop 8 fun i => get [.f "AlphaCoef", .i i] .r8 (12 + i * 8),
    loop 8 fun i => get [.f "BetaCoef", .i i] .r8 (76 + i * 8)] 140

/-- msat/hrit/MSG_data_CelestialEvents.cpp:173-186 `MSG_Star_Coefficient::read_from` -/
def star_Coefficient : ReadFrom := bodyRet [
    loop 20 fun i => block [
      get [.i i, .f "StarId"] .u2 (142 * i),
      get [.i i, .f "StartTime"] .t6 (142 * i + 2),
      get [.i i, .f "EndTime"] .t6 (142 * i + 8),
      loop 8 fun j => get [.i i, .f "AlphaCoef", .i j] .r8 (142 * i + 14 + j * 8),
      loop 8 fun j => get [.i i, .f "BetaCoef", .i j] .r8 (142 * i + 78 + j * 8)]] 2840

/-- msat/hrit/MSG_data_CelestialEvents.cpp:239-258 `MSG_Ephemeris::read_from` -/
def ephemeris : ReadFrom := body [
    fun b p => ([⟨[.f "PeriodStartTime"], b + 0, .t6⟩], p),
    adv 6,
    fun b p => ([⟨[.f "PeriodEndTime"], b + 6, .t6⟩], p),
    adv 6,
    fun b p => ([⟨[.f "RelatedOrbitFileTime"], b + 12, .mem 15 15⟩], p + 15),
    fun b p => ([⟨[.f "RelatedAttitudeFileTime"], b + 27, .mem 15 15⟩], p + 15),
    loop 100 fun i => call [.f "EarthEphemeris", .i i] earth_Moon_Sun_Coefficient,
    loop 100 fun i => call [.f "MoonEphemeris", .i i] earth_Moon_Sun_Coefficient,
    loop 100 fun i => call [.f "SunEphemeris", .i i] earth_Moon_Sun_Coefficient,
    loop 100 fun i => call [.f "StarEphemeris", .i i] star_Coefficient]

/-- msat/hrit/MSG_data_CelestialEvents.cpp:35-38 `MSG_CelestialBodiesPosition::read_from` -/
def celestialBodiesPosition : ReadFrom := body [
    call [.f "Ephemeris"] ephemeris]

/-- msat/hrit/MSG_data_CelestialEvents.cpp:46-62 `MSG_RelationToImage::read_from` -/
def relationToImage : ReadFrom := body [
    get [.f "TypeofEclypse"] .u1 0,
    adv 1,
    get [.f "EclipseStartTime"] .t6 0,
    adv 6,
    get [.f "EclipseEndTime"] .t6 0,
    adv 6,
    get [.f "VisibleBodiesInImage"] .u1 0,
    adv 1,
    get [.f "BodiesClosesttoFOV"] .u1 0,
    adv 1,
    get [.f "ImpactOnImageQuality"] .u1 0,
    adv 1]

/-- msat/hrit/MSG_data_CelestialEvents.cpp:89-95 `MSG_data_CelestialEvents::read_from` -/
def celestialEvents : ReadFrom := body [
    call [.f "CelestialBodiesPosition"] celestialBodiesPosition,
    call [.f "RelationToImage"] relationToImage]

/-! ### msat/hrit/MSG_data_ImageDescription.cpp -/

/-- msat/hrit/MSG_data_ImageDescription.cpp:110-118 `MSG_grid::read_from` -/
def grid : ReadFrom := bodyRet [
    get [.f "NumberofLines"] .i4 0,
    get [.f "NumberofColumns"] .i4 4,
    get [.f "LineDirGridStep"] .r4 8,
    get [.f "ColumnDirGridStep"] .r4 12,
    get [.f "GridOrigin"] .u1 16] 17

/-- msat/hrit/MSG_data_ImageDescription.cpp:130-137 `MSG_coverage_IR::read_from` -/
def coverage_IR : ReadFrom := bodyRet [
    get [.f "SouthernLinePlanned"] .i4 0,
    get [.f "NorthernLinePlanned"] .i4 4,
    get [.f "EasternColumnPlanned"] .i4 8,
    get [.f "WesternColumnPlanned"] .i4 12] 16

/-- msat/hrit/MSG_data_ImageDescription.cpp:148-159 `MSG_coverage_HRV::read_from` -/
def coverage_HRV : ReadFrom := bodyRet [
    get [.f "LowerSouthLinePlanned"] .i4 0,
    get [.f "LowerNorthLinePlanned"] .i4 4,
    get [.f "LowerEastColumnPlanned"] .i4 8,
    get [.f "LowerWestColumnPlanned"] .i4 12,
    get [.f "UpperSouthLinePlanned"] .i4 16,
    get [.f "UpperNorthLinePlanned"] .i4 20,
    get [.f "UpperEastColumnPlanned"] .i4 24,
    get [.f "UpperWestColumnPlanned"] .i4 28] 32

/-- msat/hrit/MSG_data_ImageDescription.cpp:174-179 `MSG_ProjectionDescription::read_from` -/
def projectionDescription : ReadFrom := bodyRet [
    get [.f "TypeOfProjection"] .u1 0,
    get [.f "LongitudeOfSSP"] .r4 1] 5

/-- msat/hrit/MSG_data_ImageDescription.cpp:189-196 `MSG_Level1_5ImageProduction::read_from` -/
def level1_5ImageProduction : ReadFrom := bodyRet [
    get [.f "ImageProcDirection"] .u1 0,
    get [.f "PixelGenDirection"] .u1 1,
    loop 12 fun i => get [.f "PlannedChanProcessing", .i i] .flag (2 + i)] 14

/-- msat/hrit/MSG_data_ImageDescription.cpp:222-232 `MSG_data_ImageDescription::read_from` -/
def imageDescription : ReadFrom := body [
    call [.f "ProjectionDescription"] projectionDescription,
    call [.f "ReferenceGridVIS_IR"] grid,
    call [.f "ReferenceGridHRV"] grid,
    call [.f "PlannedCoverageVIS_IR"] coverage_IR,
    call [.f "PlannedCoverageHRV"] coverage_HRV,
    call [.f "Level1_5ImageProduction"] level1_5ImageProduction]

/-! ### msat/hrit/MSG_data_RadiometricProc.cpp -/

/-- msat/hrit/MSG_data_RadiometricProc.cpp:110-115 `MSG_Image_Calibration::read_from` -/
def image_Calibration : ReadFrom := bodyRet [
    get [.f "Cal_Slope"] .r8 0,
    get [.f "Cal_Offset"] .r8 8] 16

/-- msat/hrit/MSG_data_RadiometricProc.cpp:124-134 `MSG_ExtractedBBData::read_from` -/
def extractedBBData : ReadFrom := bodyRet [
    get [.f "NumberOfPixelsUsed"] .u4 0,
    get [.f "MeanCount"] .r4 4,
    get [.f "RMS"] .r4 8,
    get [.f "MaxCount"] .u2 12,
    get [.f "MinCount"] .u2 14,
    get [.f "BB_Processing_Slope"] .r8 16,
    get [.f "BB_Processing_Offset"] .r8 24] 32

/-- msat/hrit/MSG_data_RadiometricProc.cpp:148-162 `MSG_IMPF_CAL_Data::read_from` -/
def iMPF_CAL_Data : ReadFrom := bodyRet [
    get [.f "ImageQualityFlag"] .u1 0,
    get [.f "ReferenceDataFlag"] .u1 1,
    get [.f "AbsCalMethod"] .u1 2,
    get [.f "AbsCalWeightVic"] .r4 4,
    get [.f "AbsCalWeightXsat"] .r4 8,
    get [.f "AbsCalCoeff"] .r4 12,
    get [.f "AbsCalError"] .r4 16,
    get [.f "CalMonBias"] .r4 20,
    get [.f "CalMonRms"] .r4 24,
    get [.f "OffsetCount"] .r4 28] 32

/-- msat/hrit/MSG_data_RadiometricProc.cpp:164-179 `MSG_RPSummary::read_from` -/
def rPSummary : ReadFrom := bodyRet [
    loop 12 fun i => get [.f "RadianceLinearization", .i i] .flag i,
    loop 12 fun i => get [.f "DetectorEqualization", .i i] .flag (12 + i),
    loop 12 fun i => get [.f "OnboardCalibrationResult", .i i] .flag (24 + i),
    loop 12 fun i => get [.f "MPEFCalFeedBack", .i i] .flag (36 + i),
    loop 12 fun i => get [.f "MTFAdaptation", .i i] .flag (48 + i),
    loop 12 fun i => get [.f "StraylightCorrectionFlag", .i i] .flag (60 + i)] 72

/-- msat/hrit/MSG_data_RadiometricProc.cpp:209-229 `MSG_RadProcMTFAdaptation::read_from` -/
def radProcMTFAdaptation : ReadFrom := body [
    loop 33 fun i => loop 16 fun j => get [.f "VIS_IRMTFCorrectionE_W", .i i, .i j] .r4 (i * 64 + j * 4),
    adv (33 * 16 * 4),
    loop 33 fun i => loop 16 fun j => get [.f "VIS_IRMTFCorrectionN_S", .i i, .i j] .r4 (i * 64 + j * 4),
    adv (33 * 16 * 4),
    loop 9 fun i => loop 16 fun j => get [.f "HRVIRMTFCorrectionE_W", .i i, .i j] .r4 (i * 64 + j * 4),
    adv (9 * 16 * 4),
    loop 9 fun i => loop 16 fun j => get [.f "HRVIRMTFCorrectionN_S", .i i, .i j] .r4 (i * 64 + j * 4),
    adv (9 * 16 * 4)]

/-- msat/hrit/MSG_data_RadiometricProc.cpp:304-310 `MSG_MPEFCalFeedback::read_from` -/
def mPEFCalFeedback : ReadFrom := body [
    loop 12 fun i => call [.f "IMPF_CAL_Data", .i i] iMPF_CAL_Data]

/-- msat/hrit/MSG_data_RadiometricProc.cpp:338-416 `MSG_BlackBodyDataUsed::read_from` -/
def blackBodyDataUsed : ReadFrom := body [
    get [.f "BBObservationUTC"] .t10 0,
    adv 10,
    get [.f "OnBoardBBTime"] .cuc 0,
    adv 7,
    loop 42 fun i => get [.f "MDUOutGain", .i i] .u2 (i * 2),
    adv (42 * 2),
    loop 42 fun i => get [.f "MDUCoarseGain", .i i] .u1 i,
    adv 42,
    loop 42 fun i => get [.f "MDUFineGain", .i i] .u2 (i * 2),
    adv (42 * 2),
    loop 42 fun i => get [.f "MDUNumerical_Offset", .i i] .u2 (i * 2),
    adv (42 * 2),
    loop 42 fun i => get [.f "PUGain", .i i] .u2 (i * 2),
    adv (42 * 2),
    loop 27 fun i => get [.f "PUOffset", .i i] .u2 (i * 2),
    adv (27 * 2),
    loop 15 fun i => get [.f "PUBias", .i i] .u2 (i * 2),
    adv (15 * 2),
    fun b p => ([⟨[.f "DCRValues"], b + 0, .mem 63 24⟩], p),
    adv 63,
    get [.f "XDeepSpaceWindowPosition"] .u1 0,
    adv 1,
    get [.f "FCUNominalColdFocalPlaneTemp"] .u2 0,
    adv 2,
    get [.f "FCURedundantColdFocalPlaneTemp"] .u2 0,
    adv 2,
    get [.f "FCUNominalWarmFocalPlaneVHROTemp"] .u2 0,
    adv 2,
    get [.f "FCURedundantWarmFocalPlaneVHROTemp"] .u2 0,
    adv 2,
    get [.f "FCUNominalScanMirrorSensor1Temp"] .u2 0,
    adv 2,
    get [.f "FCURedundantScanMirrorSensor1Temp"] .u2 0,
    adv 2,
    get [.f "FCUNominalScanMirrorSensor2Temp"] .u2 0,
    adv 2,
    get [.f "FCURedundantScanMirrorSensor2Temp"] .u2 0,
    adv 2,
    get [.f "FCUNominalM1MirrorSensor1Temp"] .u2 0,
    adv 2,
    get [.f "FCURedundantM1MirrorSensor1Temp"] .u2 0,
    adv 2,
    get [.f "FCUNominalM1MirrorSensor2Temp"] .u2 0,
    adv 2,
    get [.f "FCURedundantM1MirrorSensor2Temp"] .u2 0,
    adv 2,
    get [.f "FCUNominalM23AssemblySensor1Temp"] .u1 0,
    adv 1,
    get [.f "FCURedundantM23AssemblySensor1Temp"] .u1 0,
    adv 1,
    get [.f "FCUNominalM23AssemblySensor2Temp"] .u1 0,
    adv 1,
    get [.f "FCURedundantM23AssemblySensor2Temp"] .u1 0,
    adv 1,
    get [.f "FCUNominalM1BaffleTemp"] .u2 0,
    adv 2,
    get [.f "FCURedundantM1BaffleTemp"] .u2 0,
    adv 2,
    get [.f "FCUNominalBlackBodySensorTemp"] .u2 0,
    adv 2,
    get [.f "FCURedundantBlackBodySensorTemp"] .u2 0,
    adv 2,
    get [.f "FCUNominalSMMStatus"] (.mem 2 2) 0,
    adv 2,
    get [.f "FCURedundantSMMStatus"] (.mem 2 2) 0,
    adv 2,
    loop 12 fun i => call [.f "ExtractedBBData", .i i] extractedBBData]

/-- msat/hrit/MSG_data_RadiometricProc.cpp:506-525 `MSG_data_RadiometricProc::read_from` -/
def radiometricProc : ReadFrom := body [
    call [.f "RPSummary"] rPSummary,
    loop 12 fun i => call [.f "ImageCalibration", .i i] image_Calibration,
    call [.f "BlackBodyDataUsed"] blackBodyDataUsed,
    call [.f "MPEFCalFeedback"] mPEFCalFeedback,
    loop 42 fun i => loop 64 fun j => get [.f "RadTransform", .i i, .i j] .r4 (i * 256 + j * 4),
    adv (42 * 64 * 4),
    call [.f "RadProcMTFAdaptation"] radProcMTFAdaptation,
    loop 12 fun i => loop 8 fun j => loop 8 fun k => get [.f "StraylightCorrection", .i i, .i j, .i k] .r4 (i * 256 + j * 32 + k * 4),
    adv (12 * 8 * 8 * 4)]

/-! ### msat/hrit/MSG_data_GeometricProc.cpp -/

/-- msat/hrit/MSG_data_GeometricProc.cpp:71-78 `MSG_OptAxisDistances::read_from` -/
def optAxisDistances : ReadFrom := bodyRet [
    loop 42 fun i => get [.f "E_W_FocalPlane", .i i] .r4 (i * 4),
    loop 42 fun i => get [.f "N_S_FocalPlane", .i i] .r4 (168 + i * 4)] 336

/-- msat/hrit/MSG_data_GeometricProc.cpp:91-98 `MSG_EarthModel::read_from` -/
def earthModel : ReadFrom := bodyRet [
    get [.f "TypeofEarthModel"] .u1 0,
    get [.f "EquatorialRadius"] .r8 1,
    get [.f "NorthPolarRadius"] .r8 9,
    get [.f "SouthPolarRadius"] .r8 17] 25

/-- msat/hrit/MSG_data_GeometricProc.cpp:119-132 `MSG_data_GeometricProc::read_from` -/
def geometricProc : ReadFrom := body [
    call [.f "OptAxisDistances"] optAxisDistances,
    call [.f "EarthModel"] earthModel,
    loop 12 fun i => loop 360 fun j => get [.f "AtmosphericModel", .i i, .i j] .r4 ((i * 360 + j) * 4),
    adv (12 * 360 * 4),
    loop 12 fun i => get [.f "ResamplingFunction", .i i] .u1 0,
    adv 12]

/-! ### msat/hrit/MSG_data_IMPFConfiguration.cpp -/

/-- msat/hrit/MSG_data_IMPFConfiguration.cpp:198-203 `MSG_GPConfigItemVersion::read_from` -/
def gPConfigItemVersion : ReadFrom := bodyRet [
    get [.f "Issue"] .u2 0,
    get [.f "Revision"] .u2 2] 4

/-- msat/hrit/MSG_data_IMPFConfiguration.cpp:212-218 `MSG_MirrorParameters::read_from` -/
def mirrorParameters : ReadFrom := bodyRet [
    get [.f "MaxFeedbackVoltage"] .r8 0,
    get [.f "MinFeedbackVoltage"] .r8 8,
    get [.f "MirrorSlipEstimate"] .r8 16] 24

/-- msat/hrit/MSG_data_IMPFConfiguration.cpp:228-243 `MSG_HKTMParameters::read_from` -/
def hKTMParameters : ReadFrom := bodyRet [
    get [.f "TimeS0Packet"] .t6 0,
    get [.f "TimeS1Packet"] .t6 6,
    get [.f "TimeS2Packet"] .t6 12,
    get [.f "TimeS3Packet"] .t6 18,
    get [.f "TimeS4Packet"] .t6 24,
    get [.f "TimeS5Packet"] .t6 30,
    get [.f "TimeS6Packet"] .t6 36,
    get [.f "TimeS7Packet"] .t6 42,
    get [.f "TimeS8Packet"] .t6 48,
    get [.f "TimeS9Packet"] .t6 54,
    get [.f "TimeSYPacket"] .t6 60,
    get [.f "TimePSPacket"] .t6 66] 3480

/-- msat/hrit/MSG_data_IMPFConfiguration.cpp:263-270 `MSG_SUConfiguration::read_from` -/
def sUConfiguration : ReadFrom := body [
    call [.f "SWVersion"] gPConfigItemVersion,
    loop 10 fun i => call [.f "InfoBaseVersion", .i i] gPConfigItemVersion]

/-- msat/hrit/MSG_data_IMPFConfiguration.cpp:282-289 `MSG_SUDetail::read_from` -/
def sUDetail : ReadFrom := body [
    get [.f "SoftwareUnitId"] .u4 0,
    get [.f "SUIdInstance"] .u1 4,
    get [.f "SUMode"] .u1 5,
    get [.f "SUState"] .u1 6,
    adv 7,
    call [.f "SUConfiguration"] sUConfiguration]

/-- msat/hrit/MSG_data_IMPFConfiguration.cpp:303-309 `MSG_EqualisationParms::read_from` -/
def equalisationParms : ReadFrom := bodyRet [
    get [.f "ConstCoef"] .r4 0,
    get [.f "LinearCoef"] .r4 4,
    get [.f "QuadraticCoef"] .r4 8] 12

/-- msat/hrit/MSG_data_IMPFConfiguration.cpp:319-371 `MSG_BlackBodyDataWarmStart::read_from` -/
def blackBodyDataWarmStart : ReadFrom := body [
    loop 12 fun i => get [.f "GTotalForMethod1", .i i] .r8 (i * 8),
    adv 96,
    loop 12 fun i => get [.f "GTotalForMethod2", .i i] .r8 (i * 8),
    adv 96,
    loop 12 fun i => get [.f "GTotalForMethod3", .i i] .r8 (i * 8),
    adv 96,
    loop 12 fun i => get [.f "GBackForMethod1", .i i] .r8 (i * 8),
    adv 96,
    loop 12 fun i => get [.f "GBackForMethod2", .i i] .r8 (i * 8),
    adv 96,
    loop 12 fun i => get [.f "GBackForMethod3", .i i] .r8 (i * 8),
    adv 96,
    loop 12 fun i => get [.f "RatioGTotalToGBack", .i i] .r8 (i * 8),
    adv 96,
    loop 12 fun i => get [.f "GainInFrontOpticsCont", .i i] .r8 (i * 8),
    adv 96,
    loop 12 fun i => get [.f "CalibrationConstants", .i i] .r4 (i * 8),
    adv 48,
    get [.f "TimeOfColdObsSeconds"] .r8 0,
    adv 8,
    get [.f "TimeOfColdObsNanoSecs"] .r8 0,
    adv 8,
    loop 12 fun i => get [.f "IncidentRadiance", .i i] .r8 (i * 8),
    adv 96,
    get [.f "TempCal"] .r8 0,
    adv 8,
    get [.f "TempM1"] .r8 0,
    adv 8,
    get [.f "TempScan"] .r8 0,
    adv 8,
    get [.f "TempM1Baf"] .r8 0,
    adv 8,
    get [.f "TempCalSurround"] .r8 0,
    adv 8,
    call [.f "MirrorParameters"] mirrorParameters,
    get [.f "LastSpinPeriod"] .r8 0,
    adv 8,
    call [.f "HKTMParameters"] hKTMParameters]

/-- msat/hrit/MSG_data_IMPFConfiguration.cpp:464-480 `MSG_WarmStartParms::read_from` -/
def warmStartParms : ReadFrom := body [
    loop 1527 fun i => get [.f "ScanningLaw", .i i] .r8 (i * 8),
    adv (1527 * 8),
    loop 3 fun i => get [.f "RadFramesAlignment", .i i] .r8 (i * 8),
    adv 24,
    get [.f "ScanningLawVariation", .i 0] .r4 0,
    get [.f "ScanningLawVariation", .i 1] .r4 4,
    adv 8,
    loop 42 fun i => call [.f "EqualisationParms", .i i] equalisationParms,
    call [.f "BlackBodyDataWarmStart"] blackBodyDataWarmStart]

/-- msat/hrit/MSG_data_IMPFConfiguration.cpp:516-524 `MSG_data_IMPFConfiguration::read_from` -/
def iMPFConfiguration : ReadFrom := body [
    call [.f "GPConfigItemVersion"] gPConfigItemVersion,
    loop 50 fun i => call [.f "SuDetails", .i i] sUDetail,
    call [.f "WarmStartParms"] warmStartParms]

/-! ### msat/hrit/MSG_data_ImageProdStats.cpp -/

/-- msat/hrit/MSG_data_ImageProdStats.cpp:35-42 `MSG_ActualScanningSummary::read_from` -/
def actualScanningSummary : ReadFrom := bodyRet [
    get [.f "NominalImageScanning"] .u1 0,
    get [.f "ReducedScan"] .u1 1,
    get [.f "ForwardScanStart"] .t6 2,
    get [.f "ForwardScanEnd"] .t6 8] 14

/-- msat/hrit/MSG_data_ImageProdStats.cpp:55-70 `MSG_RadiometerBehaviour::read_from` -/
def radiometerBehaviour : ReadFrom := bodyRet [
    get [.f "NominalBehaviour"] .u1 0,
    get [.f "RadScanIrregularity"] .u1 1,
    get [.f "RadStoppage"] .u1 2,
    get [.f "RepeatCycleNotCompleted"] .u1 3,
    get [.f "GainChangeTookPlace"] .u1 4,
    get [.f "DecontaminationTookPlace"] .u1 5,
    get [.f "NoBBCalibrationAchieved"] .u1 6,
    get [.f "IncorrectTemperature"] .u1 7,
    get [.f "InvalidBBData"] .u1 8,
    get [.f "InvalidAuxOrHKTMData"] .u1 9,
    get [.f "RefocusingMechanismActuated"] .u1 10,
    get [.f "MirrorBackToReferencePos"] .u1 11] 12

/-- msat/hrit/MSG_data_ImageProdStats.cpp:94-105 `MSG_ReceptionSummaryStats::read_from` -/
def receptionSummaryStats : ReadFrom := bodyRet [
    loop 12 fun i => get [.f "PlannedNumberOfL10Lines", .i i] .u4 (i * 4),
    loop 12 fun i => get [.f "NumberOfMissingL10Lines", .i i] .u4 (48 + i * 4),
    loop 12 fun i => get [.f "NumberOfCorruptedL10Lines", .i i] .u4 (96 + i * 4),
    loop 12 fun i => get [.f "NumberOfReplacedL10Lines", .i i] .u4 (144 + i * 4)] 192

/-- msat/hrit/MSG_data_ImageProdStats.cpp:121-130 `MSG_L15ImageValidity::read_from` -/
def l15ImageValidity : ReadFrom := bodyRet [
    get [.f "NominalImage"] .u1 0,
    get [.f "NonNominalBecauseIncomplete"] .u1 1,
    get [.f "NonNominalRadiometricQuality"] .u1 2,
    get [.f "NonNominalGeometricQuality"] .u1 3,
    get [.f "NonNominalTimeliness"] .u1 4,
    get [.f "IncompleteL15"] .u1 5] 6

/-- msat/hrit/MSG_data_ImageProdStats.cpp:145-152 `MSG_ActualL15CoverageVIS_IR::read_from` -/
def actualL15CoverageVIS_IR : ReadFrom := bodyRet [
    get [.f "SouthernLineActual"] .i4 0,
    get [.f "NorthernLineActual"] .i4 4,
    get [.f "EasternColumnActual"] .i4 8,
    get [.f "WesternColumnActual"] .i4 12] 16

/-- msat/hrit/MSG_data_ImageProdStats.cpp:163-174 `MSG_ActualL15CoverageHRV::read_from` -/
def actualL15CoverageHRV : ReadFrom := bodyRet [
    get [.f "LowerSouthLineActual"] .i4 0,
    get [.f "LowerNorthLineActual"] .i4 4,
    get [.f "LowerEastColumnActual"] .i4 8,
    get [.f "LowerWestColumnActual"] .i4 12,
    get [.f "UpperSouthLineActual"] .i4 16,
    get [.f "UpperNorthLineActual"] .i4 20,
    get [.f "UpperEastColumnActual"] .i4 24,
    get [.f "UpperWestColumnActual"] .i4 28] 32

/-- msat/hrit/MSG_data_ImageProdStats.cpp:198-211 `MSG_data_ImageProdStats::read_from` -/
def imageProdStats : ReadFrom := body [
    get [.f "SatelliteId"] .u2 0,
    adv 2,
    call [.f "ActualScanningSummary"] actualScanningSummary,
    call [.f "RadiometerBehaviour"] radiometerBehaviour,
    call [.f "ReceptionSummaryStats"] receptionSummaryStats,
    loop 12 fun i => call [.f "L15ImageValidity", .i i] l15ImageValidity,
    call [.f "ActualL15CoverageVIS_IR"] actualL15CoverageVIS_IR,
    call [.f "ActualL15CoverageHRV"] actualL15CoverageHRV]

/-! ### msat/hrit/MSG_data_NavigExtrResult.cpp -/

/-- msat/hrit/MSG_data_NavigExtrResult.cpp:58-70 `MSG_HorizonObservation::read_from` -/
def horizonObservation : ReadFrom := bodyRet [
    get [.f "HorizonId"] .u1 0,
    get [.f "Alpha"] .r8 1,
    get [.f "AlphaConfidence"] .r8 9,
    get [.f "Beta"] .r8 17,
    get [.f "BetaConfidence"] .r8 25,
    get [.f "ObservationTime"] .t8 33,
    get [.f "SpinRate"] .r8 41,
    get [.f "AlphaDeviation"] .r8 49,
    get [.f "BetaDeviation"] .r8 57] 65

/-- msat/hrit/MSG_data_NavigExtrResult.cpp:87-99 `MSG_StarObservation::read_from` -/
def starObservation : ReadFrom := bodyRet [
    get [.f "StarId"] .u2 0,
    get [.f "Alpha"] .r8 2,
    get [.f "AlphaConfidence"] .r8 10,
    get [.f "Beta"] .r8 18,
    get [.f "BetaConfidence"] .r8 26,
    get [.f "ObservationTime"] .t8 34,
    get [.f "SpinRate"] .r8 42,
    get [.f "AlphaDeviation"] .r8 50,
    get [.f "BetaDeviation"] .r8 58] 66

/-- msat/hrit/MSG_data_NavigExtrResult.cpp:117-131 `MSG_LandmarkObservation::read_from` -/
def landmarkObservation : ReadFrom := bodyRet [
    get [.f "LandmarkId"] .u2 0,
    get [.f "LandmarkLongitude"] .r8 2,
    get [.f "LandmarkLatitude"] .r8 10,
    get [.f "Alpha"] .r8 18,
    get [.f "AlphaConfidence"] .r8 26,
    get [.f "Beta"] .r8 34,
    get [.f "BetaConfidence"] .r8 42,
    get [.f "ObservationTime"] .t8 50,
    get [.f "SpinRate"] .r8 60,
    get [.f "AlphaDeviation"] .r8 66,
    get [.f "BetaDeviation"] .r8 74] 82

/-- msat/hrit/MSG_data_NavigExtrResult.cpp:160-171 `MSG_data_NavigExtrResult::read_from` -/
def navigExtrResult : ReadFrom := body [
    loop 4 fun i => call [.f "ExtractedHorizons", .i i] horizonObservation,
    loop 20 fun i => call [.f "ExtractedStars", .i i] starObservation,
    loop 50 fun i => call [.f "ExtractedLandmarks", .i i] landmarkObservation]

/-! ### msat/hrit/MSG_data_RadiometricQuality.cpp -/

/-- msat/hrit/MSG_data_RadiometricQuality.cpp:35-144 `MSG_L10RadQuality::read_from` -/
def l10RadQuality : ReadFrom := body [
    get [.f "FullImageMinimumCount"] .u2 0,
    adv 2,
    get [.f "FullImageMaximumCount"] .u2 0,
    adv 2,
    get [.f "EarthDiskMinimumCount"] .u2 0,
    adv 2,
    get [.f "EarthDiskMaximumCount"] .u2 0,
    adv 2,
    get [.f "MoonMinimumCount"] .u2 0,
    adv 2,
    get [.f "MoonMaximumCount"] .u2 0,
    adv 2,
    get [.f "FullImageMeanCount"] .r4 0,
    adv 4,
    get [.f "FullImageStandardDeviation"] .r4 0,
    adv 4,
    get [.f "EarthDiskMeanCount"] .r4 0,
    adv 4,
    get [.f "EarthDiskStandardDeviation"] .r4 0,
    adv 4,
    get [.f "MoonMeanCount"] .r4 0,
    adv 4,
    get [.f "MoonStandardDeviation"] .r4 0,
    adv 4,
    get [.f "SpaceMeanCount"] .r4 0,
    adv 4,
    get [.f "SpaceStandardDeviation"] .r4 0,
    adv 4,
    get [.f "SESpaceCornerMeanCount"] .r4 0,
    adv 4,
    get [.f "SESpaceCornerStandardDeviation"] .r4 0,
    adv 4,
    get [.f "SWSpaceCornerMeanCount"] .r4 0,
    adv 4,
    get [.f "SWSpaceCornerStandardDeviation"] .r4 0,
    adv 4,
    get [.f "NESpaceCornerMeanCount"] .r4 0,
    adv 4,
    get [.f "NESpaceCornerStandardDeviation"] .r4 0,
    adv 4,
    get [.f "NWSpaceCornerMeanCount"] .r4 0,
    adv 4,
    get [.f "NWSpaceCornerStandardDeviation"] .r4 0,
    adv 4,
    get [.f "FourSpaceCornersMeanCount"] .r4 0,
    adv 4,
    get [.f "FourSpaceCornersStandardDeviation"] .r4 0,
    adv 4,
    loop 256 fun i => get [.f "FullImageIstogram", .i i] .u4 (i * 4),
    adv (256 * 4),
    loop 256 fun i => get [.f "EarthDiskIstogram", .i i] .u4 (i * 4),
    adv (256 * 4),
    loop 256 fun i => get [.f "ImageCentreSquareIstogram", .i i] .u4 (i * 4),
    adv (256 * 4),
    loop 128 fun i => get [.f "SESpaceCornerIstogram", .i i] .u4 (i * 4),
    adv (128 * 4),
    loop 128 fun i => get [.f "SWSpaceCornerIstogram", .i i] .u4 (i * 4),
    adv (128 * 4),
    loop 128 fun i => get [.f "NESpaceCornerIstogram", .i i] .u4 (i * 4),
    adv (128 * 4),
    loop 128 fun i => get [.f "NWSpaceCornerIstogram", .i i] .u4 (i * 4),
    adv (128 * 4),
    loop 3 fun i => get [.f "FullImageEntropy", .i i] .r4 (i * 4),
    adv 12,
    loop 3 fun i => get [.f "EarthDiskEntropy", .i i] .r4 (i * 4),
    adv 12,
    loop 3 fun i => get [.f "ImageCentreSquareEntropy", .i i] .r4 (i * 4),
    adv 12,
    loop 3 fun i => get [.f "SESpaceCornerEntropy", .i i] .r4 (i * 4),
    adv 12,
    loop 3 fun i => get [.f "SWSpaceCornerEntropy", .i i] .r4 (i * 4),
    adv 12,
    loop 3 fun i => get [.f "NESpaceCornerEntropy", .i i] .r4 (i * 4),
    adv 12,
    loop 3 fun i => get [.f "NWSpaceCornerEntropy", .i i] .r4 (i * 4),
    adv 12,
    loop 3 fun i => get [.f "FourSpaceCornersEntropy", .i i] .r4 (i * 4),
    adv 12,
    loop 128 fun i => get [.f "ImageCentreSquarePSD_EW", .i i] .r4 (i * 4),
    adv (128 * 4),
    loop 128 fun i => get [.f "FullImagePSD_EW", .i i] .r4 (i * 4),
    adv (128 * 4),
    loop 128 fun i => get [.f "ImageCentreSquarePSD_NS", .i i] .r4 (i * 4),
    adv (128 * 4),
    loop 128 fun i => get [.f "FullImagePSD_NS", .i i] .r4 (i * 4),
    adv (128 * 4)]

/-- msat/hrit/MSG_data_RadiometricQuality.cpp:312-382 `MSG_L15RadQuality::read_from` -/
def l15RadQuality : ReadFrom := body [
    get [.f "FullImageMinimumCount"] .u2 0,
    adv 2,
    get [.f "FullImageMaximumCount"] .u2 0,
    adv 2,
    get [.f "EarthDiskMinimumCount"] .u2 0,
    adv 2,
    get [.f "EarthDiskMaximumCount"] .u2 0,
    adv 2,
    get [.f "FullImageMeanCount"] .r4 0,
    adv 4,
    get [.f "FullImageStandardDeviation"] .r4 0,
    adv 4,
    get [.f "EarthDiskMeanCount"] .r4 0,
    adv 4,
    get [.f "EarthDiskStandardDeviation"] .r4 0,
    adv 4,
    get [.f "SpaceMeanCount"] .r4 0,
    adv 4,
    get [.f "SpaceStandardDeviation"] .r4 0,
    adv 4,
    loop 256 fun i => get [.f "FullImageIstogram", .i i] .u4 (i * 4),
    adv (256 * 4),
    loop 256 fun i => get [.f "EarthDiskIstogram", .i i] .u4 (i * 4),
    adv (256 * 4),
    loop 256 fun i => get [.f "ImageCentreSquareIstogram", .i i] .u4 (i * 4),
    adv (256 * 4),
    loop 3 fun i => get [.f "FullImageEntropy", .i i] .r4 (i * 4),
    adv 12,
    loop 3 fun i => get [.f "EarthDiskEntropy", .i i] .r4 (i * 4),
    adv 12,
    loop 3 fun i => get [.f "ImageCentreSquareEntropy", .i i] .r4 (i * 4),
    adv 12,
    loop 128 fun i => get [.f "ImageCentreSquarePSD_EW", .i i] .r4 (i * 4),
    adv (128 * 4),
    loop 128 fun i => get [.f "FullImagePSD_EW", .i i] .r4 (i * 4),
    adv (128 * 4),
    loop 128 fun i => get [.f "ImageCentreSquarePSD_NS", .i i] .r4 (i * 4),
    adv (128 * 4),
    loop 128 fun i => get [.f "FullImagePSD_NS", .i i] .r4 (i * 4),
    adv (128 * 4),
    get [.f "SESpaceCornerL15_RMS"] .r4 0,
    adv 4,
    get [.f "SESpaceCornerL15_Mean"] .r4 0,
    adv 4,
    get [.f "SWSpaceCornerL15_RMS"] .r4 0,
    adv 4,
    get [.f "SWSpaceCornerL15_Mean"] .r4 0,
    adv 4,
    get [.f "NESpaceCornerL15_RMS"] .r4 0,
    adv 4,
    get [.f "NESpaceCornerL15_Mean"] .r4 0,
    adv 4,
    get [.f "NWSpaceCornerL15_RMS"] .r4 0,
    adv 4,
    get [.f "NWSpaceCornerL15_Mean"] .r4 0,
    adv 4]

/-- msat/hrit/MSG_data_RadiometricQuality.cpp:488-496 `MSG_data_RadiometricQuality::read_from` -/
def radiometricQuality : ReadFrom := body [
    loop 42 fun i => call [.f "L10RadQuality", .i i] l10RadQuality,
    loop 12 fun i => call [.f "L15RadQuality", .i i] l15RadQuality]

/-! ### msat/hrit/MSG_data_GeometricQuality.cpp -/

/-- msat/hrit/MSG_data_GeometricQuality.cpp:58-74 `MSG_Accuracy::read_from` -/
def accuracy : ReadFrom := bodyRet [
    get [.f "QualityInfoValidity"] .u1 0,
    get [.f "EastWestAccuracyRMS"] .r4 1,
    get [.f "NorthSouthAccuracyRMS"] .r4 5,
    get [.f "MagnitudeRMS"] .r4 9,
    get [.f "EastWestUncertaintyRMS"] .r4 13,
    get [.f "NorthSouthUncertaintyRMS"] .r4 17,
    get [.f "MagnitudeUncertaintyRMS"] .r4 21,
    get [.f "EastWestMaxDeviation"] .r4 25,
    get [.f "NorthSouthMaxDeviation"] .r4 29,
    get [.f "MagnitudeMaxDeviation"] .r4 33,
    get [.f "EastWestUncertaintyMax"] .r4 37,
    get [.f "NorthSouthUncertaintyMax"] .r4 41,
    get [.f "MagnitudeUncertaintyMax"] .r4 45] 49

/-- msat/hrit/MSG_data_GeometricQuality.cpp:96-110 `MSG_Residuals::read_from` -/
def residuals : ReadFrom := bodyRet [
    get [.f "QualityInfoValidity"] .u1 0,
    get [.f "EastWestResiduals"] .r4 1,
    get [.f "NorthSouthResiduals"] .r4 5,
    get [.f "EastWestUncertainty"] .r4 9,
    get [.f "NorthSouthUncertainty"] .r4 13,
    get [.f "EastWestRMS"] .r4 17,
    get [.f "NorthSouthRMS"] .r4 21,
    get [.f "EastWestMagnitude"] .r4 25,
    get [.f "NorthSouthMagnitude"] .r4 29,
    get [.f "EastWestMagnitudeUncertainty"] .r4 33,
    get [.f "NorthSouthMagnitudeUncertainty"] .r4 37] 41

/-- msat/hrit/MSG_data_GeometricQuality.cpp:132-141 `MSG_GeometricQualityStatus::read_from` -/
def geometricQualityStatus : ReadFrom := bodyRet [
    get [.f "QualityNominal"] .u1 0,
    get [.f "NominalAbsolute"] .u1 1,
    get [.f "NominalRelativeToPreviousImage"] .u1 2,
    get [.f "NominalForREL500"] .u1 3,
    get [.f "NominalForREL16"] .u1 4,
    get [.f "NominalForResMisreg"] .u1 5] 6

/-- msat/hrit/MSG_data_GeometricQuality.cpp:165-182 `MSG_data_GeometricQuality::read_from` -/
def geometricQuality : ReadFrom := body [
    loop 12 fun i => call [.f "AbsoluteAccuracy", .i i] accuracy,
    loop 12 fun i => call [.f "RelativeAccuracy", .i i] accuracy,
    loop 12 fun i => call [.f "N500PixelsRelativeAccuracy", .i i] accuracy,
    loop 12 fun i => call [.f "N16PixelsRelativeAccuracy", .i i] accuracy,
    loop 12 fun i => call [.f "MisregistrationResiduals", .i i] residuals,
    loop 12 fun i => call [.f "GeometricQualityStatus", .i i] geometricQualityStatus]

/-! ### msat/hrit/MSG_data_TimelinComple.cpp -/

/-- msat/hrit/MSG_data_TimelinComple.cpp:34-40 `MSG_Timeliness::read_from` -/
def timeliness : ReadFrom := bodyRet [
    get [.f "MaxDelay"] .r4 0,
    get [.f "MinDelay"] .r4 4,
    get [.f "MeanDelay"] .r4 8] 12

/-- msat/hrit/MSG_data_TimelinComple.cpp:50-58 `MSG_Completeness::read_from` -/
def completeness : ReadFrom := bodyRet [
    get [.f "PlannedL15ImageLines"] .u2 0,
    get [.f "GeneratedL15ImageLines"] .u2 2,
    get [.f "ValidL15ImageLines"] .u2 4,
    get [.f "DummyL15ImageLines"] .u2 6,
    get [.f "CorruptedL15ImageLines"] .u2 8] 10

/-- msat/hrit/MSG_data_TimelinComple.cpp:79-86 `MSG_data_TimelinComple::read_from` -/
def timelinComple : ReadFrom := body [
    call [.f "Timeliness"] timeliness,
    loop 12 fun i => call [.f "Completeness", .i i] completeness]

/-- msat/hrit/MSG_data_SatelliteStatus.cpp:85-86 and 113-114: the `present` flag of an attitude or
orbit coefficient whose bytes start at `buff + off`. -/
def coeffPresent (buf : Bytes) (off : Nat) : Outcome Bool := do
  let b0 ← Machine.ui1 buf off
  if b0 ≠ 0 then pure true
  else do
    let b1 ← Machine.ui1 buf (off + 1)
    pure (b1 != 0)

end Msat.Layout
