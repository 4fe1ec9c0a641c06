import Verif.Spec.Layout

/-
The documented layout of the level 1.5 header (prologue) and trailer (epilogue): the order, type and
array size of the members as declared in the headers msat/hrit/MSG_data_*.h (enumerations are one byte,
except the spacecraft identifier which is two), plus the spare bytes of the format.  This file is
written from the class declarations, not from the `read_from` code.
-/
namespace Msat.Layout

def u1 : Lay := .prim .u1
def flag : Lay := .prim .flag
def u2 : Lay := .prim .u2
def u4 : Lay := .prim .u4
def i4 : Lay := .prim .i4
def r4 : Lay := .prim .r4
def r8 : Lay := .prim .r8
def t6 : Lay := .prim .t6
def t8 : Lay := .prim .t8
def t10 : Lay := .prim .t10
def cuc : Lay := .prim .cuc
def gtime : Lay := .prim (.mem 15 15)
/-- `n` raw bytes -/
def raw (n : Nat) : Lay := .prim (.mem n n)
/-- Members followed by another part of the structure. -/
def fields : List (String × Lay) → Lay → Lay
  | [], r => r
  | (nm, l) :: fs, r => .field nm l (fields fs r)

/-! ### msat/hrit/MSG_data_SatelliteStatus.h -/

/-- `MSG_orbit_coefficient`, msat/hrit/MSG_data_SatelliteStatus.h:64-81 -/
def orbit_coefficientLay : Lay := .struct [
    ("StartTime", t6),
    ("EndTime", t6),
    ("X", .arr 8 r8),
    ("Y", .arr 8 r8),
    ("Z", .arr 8 r8),
    ("VX", .arr 8 r8),
    ("VY", .arr 8 r8),
    ("VZ", .arr 8 r8)]

/-- `MSG_Orbit`, msat/hrit/MSG_data_SatelliteStatus.h:83-91 -/
def orbitLay : Lay := .struct [
    ("PeriodStartTime", t6),
    ("PeriodEndTime", t6),
    ("OrbitPoliniomal", .arr 100 orbit_coefficientLay)]

/-- `MSG_AttitudeCoeff`, msat/hrit/MSG_data_SatelliteStatus.h:93-107 -/
def attitudeCoeffLay : Lay := .struct [
    ("StartTime", t6),
    ("EndTime", t6),
    ("XOfSpinAxis", .arr 8 r8),
    ("YOfSpinAxis", .arr 8 r8),
    ("ZOfSpinAxis", .arr 8 r8)]

/-- `MSG_Attitude`, msat/hrit/MSG_data_SatelliteStatus.h:109-118 -/
def attitudeLay : Lay := .struct [
    ("PeriodStartTime", t6),
    ("PeriodEndTime", t6),
    ("PrincipalAxisOffsetAngle", r8),
    ("AttitudePolynomial", .arr 100 attitudeCoeffLay)]

/-- `MSG_UTCCorrelation`, msat/hrit/MSG_data_SatelliteStatus.h:120-133 -/
def uTCCorrelationLay : Lay := .struct [
    ("PeriodStartTime", t6),
    ("PeriodEndTime", t6),
    ("OnBoardTimeStart", cuc),
    ("VarOnBoardTimeStart", r8),
    ("A1", r8),
    ("VarA1", r8),
    ("A2", r8),
    ("VarA2", r8)]

/-- `MSG_SatelliteDefinition`, msat/hrit/MSG_data_SatelliteStatus.h:135-143 -/
def satelliteDefinitionLay : Lay := .struct [
    ("SatelliteId", u2),
    ("NominalLongitude", r4),
    ("SatelliteStatus", u1)]

/-- `MSG_SatelliteOperations`, msat/hrit/MSG_data_SatelliteStatus.h:145-158 -/
def satelliteOperationsLay : Lay := .struct [
    ("LastManoeuvreFlag", flag),
    ("LastManouvreStartTime", t6),
    ("LastManouvreEndTime", t6),
    ("LastManouvreType", u1),
    ("NextManoeuvreFlag", flag),
    ("NextManouvreStartTime", t6),
    ("NextManouvreEndTime", t6),
    ("NextManouvreType", u1)]

/-- `MSG_data_SatelliteStatus`, msat/hrit/MSG_data_SatelliteStatus.h:160-178 -/
def satelliteStatusLay : Lay := .struct [
    ("SatelliteDefinition", satelliteDefinitionLay),
    ("SatelliteOperations", satelliteOperationsLay),
    ("Orbit", orbitLay),
    ("Attitude", attitudeLay),
    ("SpinRateatRCStart", r8),
    ("UTCCorrelation", uTCCorrelationLay)]

/-! ### msat/hrit/MSG_data_ImageAcquisition.h -/

/-- `MSG_PlannedAquisitionTime`, msat/hrit/MSG_data_ImageAcquisition.h:80-89 -/
def plannedAquisitionTimeLay : Lay := .struct [
    ("TrueRepeatCycleStart", t10),
    ("PlannedForwardScanEnd", t10),
    ("PlannedRepeatCycleEnd", t10)]

/-- `MSG_RadiometerStatus`, msat/hrit/MSG_data_ImageAcquisition.h:91-98 -/
def radiometerStatusLay : Lay := .struct [
    ("ChannelStatus", .arr 12 u1),
    ("DetectorStatus", .arr 42 u1)]

/-- `MSG_RadiometerSettings`, msat/hrit/MSG_data_ImageAcquisition.h:100-133 -/
def radiometerSettingsLay : Lay := fields [
    ("MDUSamplingDelays", .arr 42 u2),
    ("MDUNomHRVDelay1", u2),
    ("MDUNomHRVDelay2", u2)] (.skip 2 (.struct [
    ("MDUNomHRVBreakline", u2),
    ("DHSSyncSelection", u1),
    ("MDUOutGain", .arr 42 u2),
    ("MDUCoarseGain", raw 42),
    ("MDUFineGain", .arr 42 u2),
    ("MDUNumericalOffset", .arr 42 u2),
    ("PUGain", .arr 42 u2),
    ("PUOffset", .arr 27 u2),
    ("PUBias", .arr 15 u2),
    ("L0_LineCounter", u2),
    ("K1_RetraceLines", u2),
    ("K2_PauseDeciseconds", u2),
    ("K3_RetraceLines", u2),
    ("K4_PauseDeciseconds", u2),
    ("K5_RetraceLines", u2),
    ("X_DeepSpaceWindowPosition", u1),
    ("RefocusingLines", u2),
    ("RefocusingDirection", u1),
    ("RefocusingPosition", u2),
    ("ScanRefPosFlag", flag),
    ("ScanRefPosNumber", u2),
    ("ScanRefPotVal", r4),
    ("ScanFirstLine", u2),
    ("ScanLastLine", u2),
    ("RetraceStartLine", u2)]))

/-- `MSG_RadiometerOperations`, msat/hrit/MSG_data_ImageAcquisition.h:135-151 -/
def radiometerOperationsLay : Lay := .struct [
    ("LastGainChangeFlag", flag),
    ("LastGainChangeTime", t6),
    ("DecontaminationNow", flag),
    ("DecontaminationStart", t6),
    ("DecontaminationEnd", t6),
    ("BBCalScheduled", flag),
    ("BBCalibrationType", u1),
    ("BBFirstLine", u2),
    ("BBLastLine", u2),
    ("ColdFocalPlaneOpTemp", u2),
    ("WarmFocalPlaneOpTemp", u2)]

/-- `MSG_data_ImageAcquisition`, msat/hrit/MSG_data_ImageAcquisition.h:153-169 -/
def imageAcquisitionLay : Lay := .struct [
    ("PlannedAquisitionTime", plannedAquisitionTimeLay),
    ("RadiometerStatus", radiometerStatusLay),
    ("RadiometerSettings", radiometerSettingsLay),
    ("RadiometerOperations", radiometerOperationsLay)]

/-! ### msat/hrit/MSG_data_CelestialEvents.h -/

/-- `MSG_Star_Coefficient`, msat/hrit/MSG_data_CelestialEvents.h:64-74: 20 stars; member `StarId[i]` is named `[i].StarId` here. -/
def star_CoefficientLay : Lay := .arr 20 (.struct [
    ("StarId", u2),
    ("StartTime", t6),
    ("EndTime", t6),
    ("AlphaCoef", .arr 8 r8),
    ("BetaCoef", .arr 8 r8)])

/-- `MSG_Earth_Moon_Sun_Coefficient`, msat/hrit/MSG_data_CelestialEvents.h:76-85 -/
def earth_Moon_Sun_CoefficientLay : Lay := .struct [
    ("StartTime", t6),
    ("EndTime", t6),
    ("AlphaCoef", .arr 8 r8),
    ("BetaCoef", .arr 8 r8)]

/-- `MSG_Ephemeris`, msat/hrit/MSG_data_CelestialEvents.h:87-99 -/
def ephemerisLay : Lay := .struct [
    ("PeriodStartTime", t6),
    ("PeriodEndTime", t6),
    ("RelatedOrbitFileTime", gtime),
    ("RelatedAttitudeFileTime", gtime),
    ("EarthEphemeris", .arr 100 earth_Moon_Sun_CoefficientLay),
    ("MoonEphemeris", .arr 100 earth_Moon_Sun_CoefficientLay),
    ("SunEphemeris", .arr 100 earth_Moon_Sun_CoefficientLay),
    ("StarEphemeris", .arr 100 star_CoefficientLay)]

/-- `MSG_CelestialBodiesPosition`, msat/hrit/MSG_data_CelestialEvents.h:101-107 -/
def celestialBodiesPositionLay : Lay := .struct [
    ("Ephemeris", ephemerisLay)]

/-- `MSG_RelationToImage`, msat/hrit/MSG_data_CelestialEvents.h:109-120 -/
def relationToImageLay : Lay := .struct [
    ("TypeofEclypse", u1),
    ("EclipseStartTime", t6),
    ("EclipseEndTime", t6),
    ("VisibleBodiesInImage", u1),
    ("BodiesClosesttoFOV", u1),
    ("ImpactOnImageQuality", u1)]

/-- `MSG_data_CelestialEvents`, msat/hrit/MSG_data_CelestialEvents.h:122-136 -/
def celestialEventsLay : Lay := .struct [
    ("CelestialBodiesPosition", celestialBodiesPositionLay),
    ("RelationToImage", relationToImageLay)]

/-! ### msat/hrit/MSG_data_ImageDescription.h -/

/-- `MSG_grid`, msat/hrit/MSG_data_ImageDescription.h:69-79 -/
def gridLay : Lay := .struct [
    ("NumberofLines", i4),
    ("NumberofColumns", i4),
    ("LineDirGridStep", r4),
    ("ColumnDirGridStep", r4),
    ("GridOrigin", u1)]

/-- `MSG_coverage_IR`, msat/hrit/MSG_data_ImageDescription.h:81-90 -/
def coverage_IRLay : Lay := .struct [
    ("SouthernLinePlanned", i4),
    ("NorthernLinePlanned", i4),
    ("EasternColumnPlanned", i4),
    ("WesternColumnPlanned", i4)]

/-- `MSG_coverage_HRV`, msat/hrit/MSG_data_ImageDescription.h:92-105 -/
def coverage_HRVLay : Lay := .struct [
    ("LowerSouthLinePlanned", i4),
    ("LowerNorthLinePlanned", i4),
    ("LowerEastColumnPlanned", i4),
    ("LowerWestColumnPlanned", i4),
    ("UpperSouthLinePlanned", i4),
    ("UpperNorthLinePlanned", i4),
    ("UpperEastColumnPlanned", i4),
    ("UpperWestColumnPlanned", i4)]

/-- `MSG_ProjectionDescription`, msat/hrit/MSG_data_ImageDescription.h:107-114 -/
def projectionDescriptionLay : Lay := .struct [
    ("TypeOfProjection", u1),
    ("LongitudeOfSSP", r4)]

/-- `MSG_Level1_5ImageProduction`, msat/hrit/MSG_data_ImageDescription.h:116-124 -/
def level1_5ImageProductionLay : Lay := .struct [
    ("ImageProcDirection", u1),
    ("PixelGenDirection", u1),
    ("PlannedChanProcessing", .arr 12 flag)]

/-- `MSG_data_ImageDescription`, msat/hrit/MSG_data_ImageDescription.h:126-144 -/
def imageDescriptionLay : Lay := .struct [
    ("ProjectionDescription", projectionDescriptionLay),
    ("ReferenceGridVIS_IR", gridLay),
    ("ReferenceGridHRV", gridLay),
    ("PlannedCoverageVIS_IR", coverage_IRLay),
    ("PlannedCoverageHRV", coverage_HRVLay),
    ("Level1_5ImageProduction", level1_5ImageProductionLay)]

/-! ### msat/hrit/MSG_data_RadiometricProc.h -/

/-- `MSG_Image_Calibration`, msat/hrit/MSG_data_RadiometricProc.h:40-47 -/
def image_CalibrationLay : Lay := .struct [
    ("Cal_Slope", r8),
    ("Cal_Offset", r8)]

/-- `MSG_ExtractedBBData`, msat/hrit/MSG_data_RadiometricProc.h:49-62 -/
def extractedBBDataLay : Lay := .struct [
    ("NumberOfPixelsUsed", u4),
    ("MeanCount", r4),
    ("RMS", r4),
    ("MaxCount", u2),
    ("MinCount", u2),
    ("BB_Processing_Slope", r8),
    ("BB_Processing_Offset", r8)]

/-- `MSG_IMPF_CAL_Data`, msat/hrit/MSG_data_RadiometricProc.h:92-109 -/
def iMPF_CAL_DataLay : Lay := fields [
    ("ImageQualityFlag", u1),
    ("ReferenceDataFlag", u1),
    ("AbsCalMethod", u1)] (.skip 1 (.struct [
    ("AbsCalWeightVic", r4),
    ("AbsCalWeightXsat", r4),
    ("AbsCalCoeff", r4),
    ("AbsCalError", r4),
    ("CalMonBias", r4),
    ("CalMonRms", r4),
    ("OffsetCount", r4)]))

/-- `MSG_BlackBodyDataUsed`, msat/hrit/MSG_data_RadiometricProc.h:119-159 -/
def blackBodyDataUsedLay : Lay := .struct [
    ("BBObservationUTC", t10),
    ("OnBoardBBTime", cuc),
    ("MDUOutGain", .arr 42 u2),
    ("MDUCoarseGain", .arr 42 u1),
    ("MDUFineGain", .arr 42 u2),
    ("MDUNumerical_Offset", .arr 42 u2),
    ("PUGain", .arr 42 u2),
    ("PUOffset", .arr 27 u2),
    ("PUBias", .arr 15 u2),
    ("DCRValues", raw 63),
    ("XDeepSpaceWindowPosition", u1),
    ("FCUNominalColdFocalPlaneTemp", u2),
    ("FCURedundantColdFocalPlaneTemp", u2),
    ("FCUNominalWarmFocalPlaneVHROTemp", u2),
    ("FCURedundantWarmFocalPlaneVHROTemp", u2),
    ("FCUNominalScanMirrorSensor1Temp", u2),
    ("FCURedundantScanMirrorSensor1Temp", u2),
    ("FCUNominalScanMirrorSensor2Temp", u2),
    ("FCURedundantScanMirrorSensor2Temp", u2),
    ("FCUNominalM1MirrorSensor1Temp", u2),
    ("FCURedundantM1MirrorSensor1Temp", u2),
    ("FCUNominalM1MirrorSensor2Temp", u2),
    ("FCURedundantM1MirrorSensor2Temp", u2),
    ("FCUNominalM23AssemblySensor1Temp", u1),
    ("FCURedundantM23AssemblySensor1Temp", u1),
    ("FCUNominalM23AssemblySensor2Temp", u1),
    ("FCURedundantM23AssemblySensor2Temp", u1),
    ("FCUNominalM1BaffleTemp", u2),
    ("FCURedundantM1BaffleTemp", u2),
    ("FCUNominalBlackBodySensorTemp", u2),
    ("FCURedundantBlackBodySensorTemp", u2),
    ("FCUNominalSMMStatus", (raw 2)),
    ("FCURedundantSMMStatus", (raw 2)),
    ("ExtractedBBData", .arr 12 extractedBBDataLay)]

/-- `MSG_RadProcMTFAdaptation`, msat/hrit/MSG_data_RadiometricProc.h:161-171 -/
def radProcMTFAdaptationLay : Lay := .struct [
    ("VIS_IRMTFCorrectionE_W", .arr 33 (.arr 16 r4)),
    ("VIS_IRMTFCorrectionN_S", .arr 33 (.arr 16 r4)),
    ("HRVIRMTFCorrectionE_W", .arr 9 (.arr 16 r4)),
    ("HRVIRMTFCorrectionN_S", .arr 9 (.arr 16 r4))]

/-- `MSG_MPEFCalFeedback`, msat/hrit/MSG_data_RadiometricProc.h:173-179 -/
def mPEFCalFeedbackLay : Lay := .struct [
    ("IMPF_CAL_Data", .arr 12 iMPF_CAL_DataLay)]

/-- `MSG_RPSummary`, msat/hrit/MSG_data_RadiometricProc.h:181-192 -/
def rPSummaryLay : Lay := .struct [
    ("RadianceLinearization", .arr 12 flag),
    ("DetectorEqualization", .arr 12 flag),
    ("OnboardCalibrationResult", .arr 12 flag),
    ("MPEFCalFeedBack", .arr 12 flag),
    ("MTFAdaptation", .arr 12 flag),
    ("StraylightCorrectionFlag", .arr 12 flag)]

/-- `MSG_data_RadiometricProc`, msat/hrit/MSG_data_RadiometricProc.h:194-216 -/
def radiometricProcLay : Lay := .struct [
    ("RPSummary", rPSummaryLay),
    ("ImageCalibration", .arr 12 image_CalibrationLay),
    ("BlackBodyDataUsed", blackBodyDataUsedLay),
    ("MPEFCalFeedback", mPEFCalFeedbackLay),
    ("RadTransform", .arr 42 (.arr 64 r4)),
    ("RadProcMTFAdaptation", radProcMTFAdaptationLay),
    ("StraylightCorrection", .arr 12 (.arr 8 (.arr 8 r4)))]

/-! ### msat/hrit/MSG_data_GeometricProc.h -/

/-- `MSG_OptAxisDistances`, msat/hrit/MSG_data_GeometricProc.h:54-61 -/
def optAxisDistancesLay : Lay := .struct [
    ("E_W_FocalPlane", .arr 42 r4),
    ("N_S_FocalPlane", .arr 42 r4)]

/-- `MSG_EarthModel`, msat/hrit/MSG_data_GeometricProc.h:63-72 -/
def earthModelLay : Lay := .struct [
    ("TypeofEarthModel", u1),
    ("EquatorialRadius", r8),
    ("NorthPolarRadius", r8),
    ("SouthPolarRadius", r8)]

/-- `MSG_data_GeometricProc`, msat/hrit/MSG_data_GeometricProc.h:74-89 -/
def geometricProcLay : Lay := .struct [
    ("OptAxisDistances", optAxisDistancesLay),
    ("EarthModel", earthModelLay),
    ("AtmosphericModel", .arr 12 (.arr 360 r4)),
    ("ResamplingFunction", .arr 12 u1)]

/-! ### msat/hrit/MSG_data_IMPFConfiguration.h -/

/-- `MSG_GPConfigItemVersion`, msat/hrit/MSG_data_IMPFConfiguration.h:92-99 -/
def gPConfigItemVersionLay : Lay := .struct [
    ("Issue", u2),
    ("Revision", u2)]

/-- `MSG_MirrorParameters`, msat/hrit/MSG_data_IMPFConfiguration.h:101-109 -/
def mirrorParametersLay : Lay := .struct [
    ("MaxFeedbackVoltage", r8),
    ("MinFeedbackVoltage", r8),
    ("MirrorSlipEstimate", r8)]

/-- `MSG_HKTMParameters`, msat/hrit/MSG_data_IMPFConfiguration.h:111-129 -/
def hKTMParametersLay : Lay := fields [
    ("TimeS0Packet", t6),
    ("TimeS1Packet", t6),
    ("TimeS2Packet", t6),
    ("TimeS3Packet", t6),
    ("TimeS4Packet", t6),
    ("TimeS5Packet", t6),
    ("TimeS6Packet", t6),
    ("TimeS7Packet", t6),
    ("TimeS8Packet", t6),
    ("TimeS9Packet", t6),
    ("TimeSYPacket", t6),
    ("TimePSPacket", t6)] (.skip 3408 (.done))

/-- `MSG_SUConfiguration`, msat/hrit/MSG_data_IMPFConfiguration.h:131-138 -/
def sUConfigurationLay : Lay := .struct [
    ("SWVersion", gPConfigItemVersionLay),
    ("InfoBaseVersion", .arr 10 gPConfigItemVersionLay)]

/-- `MSG_SUDetail`, msat/hrit/MSG_data_IMPFConfiguration.h:140-150 -/
def sUDetailLay : Lay := .struct [
    ("SoftwareUnitId", u4),
    ("SUIdInstance", u1),
    ("SUMode", u1),
    ("SUState", u1),
    ("SUConfiguration", sUConfigurationLay)]

/-- `MSG_EqualisationParms`, msat/hrit/MSG_data_IMPFConfiguration.h:152-160 -/
def equalisationParmsLay : Lay := .struct [
    ("ConstCoef", r4),
    ("LinearCoef", r4),
    ("QuadraticCoef", r4)]

/-- `MSG_BlackBodyDataWarmStart`, msat/hrit/MSG_data_IMPFConfiguration.h:162-187 -/
def blackBodyDataWarmStartLay : Lay := .struct [
    ("GTotalForMethod1", .arr 12 r8),
    ("GTotalForMethod2", .arr 12 r8),
    ("GTotalForMethod3", .arr 12 r8),
    ("GBackForMethod1", .arr 12 r8),
    ("GBackForMethod2", .arr 12 r8),
    ("GBackForMethod3", .arr 12 r8),
    ("RatioGTotalToGBack", .arr 12 r8),
    ("GainInFrontOpticsCont", .arr 12 r8),
    ("CalibrationConstants", .arr 12 r4),
    ("TimeOfColdObsSeconds", r8),
    ("TimeOfColdObsNanoSecs", r8),
    ("IncidentRadiance", .arr 12 r8),
    ("TempCal", r8),
    ("TempM1", r8),
    ("TempScan", r8),
    ("TempM1Baf", r8),
    ("TempCalSurround", r8),
    ("MirrorParameters", mirrorParametersLay),
    ("LastSpinPeriod", r8),
    ("HKTMParameters", hKTMParametersLay)]

/-- `MSG_WarmStartParms`, msat/hrit/MSG_data_IMPFConfiguration.h:189-199 -/
def warmStartParmsLay : Lay := .struct [
    ("ScanningLaw", .arr 1527 r8),
    ("RadFramesAlignment", .arr 3 r8),
    ("ScanningLawVariation", .arr 2 r4),
    ("EqualisationParms", .arr 42 equalisationParmsLay),
    ("BlackBodyDataWarmStart", blackBodyDataWarmStartLay)]

/-- `MSG_data_IMPFConfiguration`, msat/hrit/MSG_data_IMPFConfiguration.h:201-216 -/
def iMPFConfigurationLay : Lay := .struct [
    ("GPConfigItemVersion", gPConfigItemVersionLay),
    ("SuDetails", .arr 50 sUDetailLay),
    ("WarmStartParms", warmStartParmsLay)]

/-! ### msat/hrit/MSG_data_ImageProdStats.h -/

/-- `MSG_ActualScanningSummary`, msat/hrit/MSG_data_ImageProdStats.h:40-50 -/
def actualScanningSummaryLay : Lay := .struct [
    ("NominalImageScanning", u1),
    ("ReducedScan", u1),
    ("ForwardScanStart", t6),
    ("ForwardScanEnd", t6)]

/-- `MSG_RadiometerBehaviour`, msat/hrit/MSG_data_ImageProdStats.h:52-69 -/
def radiometerBehaviourLay : Lay := .struct [
    ("NominalBehaviour", u1),
    ("RadScanIrregularity", u1),
    ("RadStoppage", u1),
    ("RepeatCycleNotCompleted", u1),
    ("GainChangeTookPlace", u1),
    ("DecontaminationTookPlace", u1),
    ("NoBBCalibrationAchieved", u1),
    ("IncorrectTemperature", u1),
    ("InvalidBBData", u1),
    ("InvalidAuxOrHKTMData", u1),
    ("RefocusingMechanismActuated", u1),
    ("MirrorBackToReferencePos", u1)]

/-- `MSG_ReceptionSummaryStats`, msat/hrit/MSG_data_ImageProdStats.h:71-80 -/
def receptionSummaryStatsLay : Lay := .struct [
    ("PlannedNumberOfL10Lines", .arr 12 u4),
    ("NumberOfMissingL10Lines", .arr 12 u4),
    ("NumberOfCorruptedL10Lines", .arr 12 u4),
    ("NumberOfReplacedL10Lines", .arr 12 u4)]

/-- `MSG_L15ImageValidity`, msat/hrit/MSG_data_ImageProdStats.h:82-93 -/
def l15ImageValidityLay : Lay := .struct [
    ("NominalImage", u1),
    ("NonNominalBecauseIncomplete", u1),
    ("NonNominalRadiometricQuality", u1),
    ("NonNominalGeometricQuality", u1),
    ("NonNominalTimeliness", u1),
    ("IncompleteL15", u1)]

/-- `MSG_ActualL15CoverageVIS_IR`, msat/hrit/MSG_data_ImageProdStats.h:95-104 -/
def actualL15CoverageVIS_IRLay : Lay := .struct [
    ("SouthernLineActual", i4),
    ("NorthernLineActual", i4),
    ("EasternColumnActual", i4),
    ("WesternColumnActual", i4)]

/-- `MSG_ActualL15CoverageHRV`, msat/hrit/MSG_data_ImageProdStats.h:106-119 -/
def actualL15CoverageHRVLay : Lay := .struct [
    ("LowerSouthLineActual", i4),
    ("LowerNorthLineActual", i4),
    ("LowerEastColumnActual", i4),
    ("LowerWestColumnActual", i4),
    ("UpperSouthLineActual", i4),
    ("UpperNorthLineActual", i4),
    ("UpperEastColumnActual", i4),
    ("UpperWestColumnActual", i4)]

/-- `MSG_data_ImageProdStats`, msat/hrit/MSG_data_ImageProdStats.h:121-139 -/
def imageProdStatsLay : Lay := .struct [
    ("SatelliteId", u2),
    ("ActualScanningSummary", actualScanningSummaryLay),
    ("RadiometerBehaviour", radiometerBehaviourLay),
    ("ReceptionSummaryStats", receptionSummaryStatsLay),
    ("L15ImageValidity", .arr 12 l15ImageValidityLay),
    ("ActualL15CoverageVIS_IR", actualL15CoverageVIS_IRLay),
    ("ActualL15CoverageHRV", actualL15CoverageHRVLay)]

/-! ### msat/hrit/MSG_data_NavigExtrResult.h -/

/-- `MSG_HorizonObservation`, msat/hrit/MSG_data_NavigExtrResult.h:49-63 -/
def horizonObservationLay : Lay := .struct [
    ("HorizonId", u1),
    ("Alpha", r8),
    ("AlphaConfidence", r8),
    ("Beta", r8),
    ("BetaConfidence", r8),
    ("ObservationTime", t8),
    ("SpinRate", r8),
    ("AlphaDeviation", r8),
    ("BetaDeviation", r8)]

/-- `MSG_StarObservation`, msat/hrit/MSG_data_NavigExtrResult.h:65-79 -/
def starObservationLay : Lay := .struct [
    ("StarId", u2),
    ("Alpha", r8),
    ("AlphaConfidence", r8),
    ("Beta", r8),
    ("BetaConfidence", r8),
    ("ObservationTime", t8),
    ("SpinRate", r8),
    ("AlphaDeviation", r8),
    ("BetaDeviation", r8)]

/-- `MSG_LandmarkObservation`, msat/hrit/MSG_data_NavigExtrResult.h:81-97 -/
def landmarkObservationLay : Lay := .struct [
    ("LandmarkId", u2),
    ("LandmarkLongitude", r8),
    ("LandmarkLatitude", r8),
    ("Alpha", r8),
    ("AlphaConfidence", r8),
    ("Beta", r8),
    ("BetaConfidence", r8),
    ("ObservationTime", t8),
    ("SpinRate", r8),
    ("AlphaDeviation", r8),
    ("BetaDeviation", r8)]

/-- `MSG_data_NavigExtrResult`, msat/hrit/MSG_data_NavigExtrResult.h:99-114 -/
def navigExtrResultLay : Lay := .struct [
    ("ExtractedHorizons", .arr 4 horizonObservationLay),
    ("ExtractedStars", .arr 20 starObservationLay),
    ("ExtractedLandmarks", .arr 50 landmarkObservationLay)]

/-! ### msat/hrit/MSG_data_RadiometricQuality.h -/

/-- `MSG_L10RadQuality`, msat/hrit/MSG_data_RadiometricQuality.h:38-86 -/
def l10RadQualityLay : Lay := .struct [
    ("FullImageMinimumCount", u2),
    ("FullImageMaximumCount", u2),
    ("EarthDiskMinimumCount", u2),
    ("EarthDiskMaximumCount", u2),
    ("MoonMinimumCount", u2),
    ("MoonMaximumCount", u2),
    ("FullImageMeanCount", r4),
    ("FullImageStandardDeviation", r4),
    ("EarthDiskMeanCount", r4),
    ("EarthDiskStandardDeviation", r4),
    ("MoonMeanCount", r4),
    ("MoonStandardDeviation", r4),
    ("SpaceMeanCount", r4),
    ("SpaceStandardDeviation", r4),
    ("SESpaceCornerMeanCount", r4),
    ("SESpaceCornerStandardDeviation", r4),
    ("SWSpaceCornerMeanCount", r4),
    ("SWSpaceCornerStandardDeviation", r4),
    ("NESpaceCornerMeanCount", r4),
    ("NESpaceCornerStandardDeviation", r4),
    ("NWSpaceCornerMeanCount", r4),
    ("NWSpaceCornerStandardDeviation", r4),
    ("FourSpaceCornersMeanCount", r4),
    ("FourSpaceCornersStandardDeviation", r4),
    ("FullImageIstogram", .arr 256 u4),
    ("EarthDiskIstogram", .arr 256 u4),
    ("ImageCentreSquareIstogram", .arr 256 u4),
    ("SESpaceCornerIstogram", .arr 128 u4),
    ("SWSpaceCornerIstogram", .arr 128 u4),
    ("NESpaceCornerIstogram", .arr 128 u4),
    ("NWSpaceCornerIstogram", .arr 128 u4),
    ("FullImageEntropy", .arr 3 r4),
    ("EarthDiskEntropy", .arr 3 r4),
    ("ImageCentreSquareEntropy", .arr 3 r4),
    ("SESpaceCornerEntropy", .arr 3 r4),
    ("SWSpaceCornerEntropy", .arr 3 r4),
    ("NESpaceCornerEntropy", .arr 3 r4),
    ("NWSpaceCornerEntropy", .arr 3 r4),
    ("FourSpaceCornersEntropy", .arr 3 r4),
    ("ImageCentreSquarePSD_EW", .arr 128 r4),
    ("FullImagePSD_EW", .arr 128 r4),
    ("ImageCentreSquarePSD_NS", .arr 128 r4),
    ("FullImagePSD_NS", .arr 128 r4)]

/-- `MSG_L15RadQuality`, msat/hrit/MSG_data_RadiometricQuality.h:88-121 -/
def l15RadQualityLay : Lay := .struct [
    ("FullImageMinimumCount", u2),
    ("FullImageMaximumCount", u2),
    ("EarthDiskMinimumCount", u2),
    ("EarthDiskMaximumCount", u2),
    ("FullImageMeanCount", r4),
    ("FullImageStandardDeviation", r4),
    ("EarthDiskMeanCount", r4),
    ("EarthDiskStandardDeviation", r4),
    ("SpaceMeanCount", r4),
    ("SpaceStandardDeviation", r4),
    ("FullImageIstogram", .arr 256 u4),
    ("EarthDiskIstogram", .arr 256 u4),
    ("ImageCentreSquareIstogram", .arr 256 u4),
    ("FullImageEntropy", .arr 3 r4),
    ("EarthDiskEntropy", .arr 3 r4),
    ("ImageCentreSquareEntropy", .arr 3 r4),
    ("ImageCentreSquarePSD_EW", .arr 128 r4),
    ("FullImagePSD_EW", .arr 128 r4),
    ("ImageCentreSquarePSD_NS", .arr 128 r4),
    ("FullImagePSD_NS", .arr 128 r4),
    ("SESpaceCornerL15_RMS", r4),
    ("SESpaceCornerL15_Mean", r4),
    ("SWSpaceCornerL15_RMS", r4),
    ("SWSpaceCornerL15_Mean", r4),
    ("NESpaceCornerL15_RMS", r4),
    ("NESpaceCornerL15_Mean", r4),
    ("NWSpaceCornerL15_RMS", r4),
    ("NWSpaceCornerL15_Mean", r4)]

/-- `MSG_data_RadiometricQuality`, msat/hrit/MSG_data_RadiometricQuality.h:123-137 -/
def radiometricQualityLay : Lay := .struct [
    ("L10RadQuality", .arr 42 l10RadQualityLay),
    ("L15RadQuality", .arr 12 l15RadQualityLay)]

/-! ### msat/hrit/MSG_data_GeometricQuality.h -/

/-- `MSG_Accuracy`, msat/hrit/MSG_data_GeometricQuality.h:48-66 -/
def accuracyLay : Lay := .struct [
    ("QualityInfoValidity", u1),
    ("EastWestAccuracyRMS", r4),
    ("NorthSouthAccuracyRMS", r4),
    ("MagnitudeRMS", r4),
    ("EastWestUncertaintyRMS", r4),
    ("NorthSouthUncertaintyRMS", r4),
    ("MagnitudeUncertaintyRMS", r4),
    ("EastWestMaxDeviation", r4),
    ("NorthSouthMaxDeviation", r4),
    ("MagnitudeMaxDeviation", r4),
    ("EastWestUncertaintyMax", r4),
    ("NorthSouthUncertaintyMax", r4),
    ("MagnitudeUncertaintyMax", r4)]

/-- `MSG_Residuals`, msat/hrit/MSG_data_GeometricQuality.h:68-84 -/
def residualsLay : Lay := .struct [
    ("QualityInfoValidity", u1),
    ("EastWestResiduals", r4),
    ("NorthSouthResiduals", r4),
    ("EastWestUncertainty", r4),
    ("NorthSouthUncertainty", r4),
    ("EastWestRMS", r4),
    ("NorthSouthRMS", r4),
    ("EastWestMagnitude", r4),
    ("NorthSouthMagnitude", r4),
    ("EastWestMagnitudeUncertainty", r4),
    ("NorthSouthMagnitudeUncertainty", r4)]

/-- `MSG_GeometricQualityStatus`, msat/hrit/MSG_data_GeometricQuality.h:86-97 -/
def geometricQualityStatusLay : Lay := .struct [
    ("QualityNominal", u1),
    ("NominalAbsolute", u1),
    ("NominalRelativeToPreviousImage", u1),
    ("NominalForREL500", u1),
    ("NominalForREL16", u1),
    ("NominalForResMisreg", u1)]

/-- `MSG_data_GeometricQuality`, msat/hrit/MSG_data_GeometricQuality.h:99-117 -/
def geometricQualityLay : Lay := .struct [
    ("AbsoluteAccuracy", .arr 12 accuracyLay),
    ("RelativeAccuracy", .arr 12 accuracyLay),
    ("N500PixelsRelativeAccuracy", .arr 12 accuracyLay),
    ("N16PixelsRelativeAccuracy", .arr 12 accuracyLay),
    ("MisregistrationResiduals", .arr 12 residualsLay),
    ("GeometricQualityStatus", .arr 12 geometricQualityStatusLay)]

/-! ### msat/hrit/MSG_data_TimelinComple.h -/

/-- `MSG_Timeliness`, msat/hrit/MSG_data_TimelinComple.h:38-46 -/
def timelinessLay : Lay := .struct [
    ("MaxDelay", r4),
    ("MinDelay", r4),
    ("MeanDelay", r4)]

/-- `MSG_Completeness`, msat/hrit/MSG_data_TimelinComple.h:48-58 -/
def completenessLay : Lay := .struct [
    ("PlannedL15ImageLines", u2),
    ("GeneratedL15ImageLines", u2),
    ("ValidL15ImageLines", u2),
    ("DummyL15ImageLines", u2),
    ("CorruptedL15ImageLines", u2)]

/-- `MSG_data_TimelinComple`, msat/hrit/MSG_data_TimelinComple.h:60-74 -/
def timelinCompleLay : Lay := .struct [
    ("Timeliness", timelinessLay),
    ("Completeness", .arr 12 completenessLay)]

/-! ### complete data fields -/

/-- The prologue data field: `MSG_data_level_15_header` up to the geometric processing. -/
def prologueDataLay : Lay := .struct [
    ("sat_status", satelliteStatusLay),
    ("image_acquisition", imageAcquisitionLay),
    ("celestial_events", celestialEventsLay),
    ("image_description", imageDescriptionLay),
    ("radiometric_proc", radiometricProcLay),
    ("geometric_proc", geometricProcLay)]

/-- The epilogue data field: one byte of version, then `MSG_data_level_15_trailer`. -/
def epilogueDataLay : Lay := .skip 1 (.struct [
    ("product_stats", imageProdStatsLay),
    ("navig_result", navigExtrResultLay),
    ("radiometric_qlty", radiometricQualityLay),
    ("geometric_qlty", geometricQualityLay),
    ("timelin_comple", timelinCompleLay)])

/-- One key message, `MSG_encryption_key` msat/hrit/MSG_data_key.h:42-51. -/
def keyMessageLay : Lay := .struct [
    ("User_Station_number", u2),
    ("Key_Number", u1),
    ("Public_key", raw 192),
    ("Public_Key_CRC", u2)]

/-- The members that the code does not read from their documented place. -/
def defective (p : Path) : Bool :=
  p.elem (.f "DCRValues") || p.elem (.f "ResamplingFunction") || p.elem (.f "CalibrationConstants")
    || (p.elem (.f "SpinRate") && p.elem (.f "ExtractedLandmarks"))

end Msat.Layout
