import Verif.Lemmas.Agree
import Verif.Model.Prologue

/-
For each structure: its `read_from` reads exactly the fields of the documented layout.
-/
set_option linter.unusedSimpArgs false
namespace Msat.Layout

/-! ### MSG_data_SatelliteStatus -/

theorem satelliteDefinition_agrees : Agrees satelliteDefinition satelliteDefinitionLay := by
  intro b
  agree [satelliteDefinition, satelliteDefinitionLay]

theorem satelliteDefinitionLay_size : satelliteDefinitionLay.size = 7 := by
  agree [satelliteDefinitionLay]

theorem satelliteOperations_agrees : Agrees satelliteOperations satelliteOperationsLay := by
  intro b
  agree [satelliteOperations, satelliteOperationsLay]

theorem satelliteOperationsLay_size : satelliteOperationsLay.size = 28 := by
  agree [satelliteOperationsLay]

theorem orbit_coefficient_agrees : Agrees orbit_coefficient orbit_coefficientLay := by
  intro b
  agree [orbit_coefficient, orbit_coefficientLay]

theorem orbit_coefficientLay_size : orbit_coefficientLay.size = 396 := by
  agree [orbit_coefficientLay]

theorem orbit_agrees : Agrees orbit orbitLay := by
  intro b
  agree [orbit, orbitLay, loop_call orbit_coefficient_agrees, orbit_coefficientLay_size]

theorem orbitLay_size : orbitLay.size = 39612 := by
  agree [orbitLay, orbit_coefficientLay_size]

theorem attitudeCoeff_agrees : Agrees attitudeCoeff attitudeCoeffLay := by
  intro b
  agree [attitudeCoeff, attitudeCoeffLay]

theorem attitudeCoeffLay_size : attitudeCoeffLay.size = 204 := by
  agree [attitudeCoeffLay]

theorem attitude_agrees : Agrees attitude attitudeLay := by
  intro b
  agree [attitude, attitudeLay, loop_call attitudeCoeff_agrees, attitudeCoeffLay_size]

theorem attitudeLay_size : attitudeLay.size = 20420 := by
  agree [attitudeLay, attitudeCoeffLay_size]

theorem uTCCorrelation_agrees : Agrees uTCCorrelation uTCCorrelationLay := by
  intro b
  agree [uTCCorrelation, uTCCorrelationLay]

theorem uTCCorrelationLay_size : uTCCorrelationLay.size = 59 := by
  agree [uTCCorrelationLay]

theorem satelliteStatus_agrees : Agrees satelliteStatus satelliteStatusLay := by
  intro b
  agree [satelliteStatus, satelliteStatusLay, call_eq satelliteDefinition_agrees, satelliteDefinitionLay_size, call_eq satelliteOperations_agrees, satelliteOperationsLay_size, call_eq orbit_agrees, orbitLay_size, call_eq attitude_agrees, attitudeLay_size, call_eq uTCCorrelation_agrees, uTCCorrelationLay_size]

theorem satelliteStatusLay_size : satelliteStatusLay.size = 60134 := by
  agree [satelliteStatusLay, satelliteDefinitionLay_size, satelliteOperationsLay_size, orbitLay_size, attitudeLay_size, uTCCorrelationLay_size]

/-! ### MSG_data_ImageAcquisition -/

theorem plannedAquisitionTime_agrees : Agrees plannedAquisitionTime plannedAquisitionTimeLay := by
  intro b
  agree [plannedAquisitionTime, plannedAquisitionTimeLay]

theorem plannedAquisitionTimeLay_size : plannedAquisitionTimeLay.size = 30 := by
  agree [plannedAquisitionTimeLay]

theorem radiometerStatus_agrees : Agrees radiometerStatus radiometerStatusLay := by
  intro b
  agree [radiometerStatus, radiometerStatusLay]

theorem radiometerStatusLay_size : radiometerStatusLay.size = 54 := by
  agree [radiometerStatusLay]

theorem radiometerSettings_agrees : Agrees radiometerSettings radiometerSettingsLay := by
  intro b
  agree [radiometerSettings, radiometerSettingsLay]

theorem radiometerSettingsLay_size : radiometerSettingsLay.size = 586 := by
  agree [radiometerSettingsLay]

theorem radiometerOperations_agrees : Agrees radiometerOperations radiometerOperationsLay := by
  intro b
  agree [radiometerOperations, radiometerOperationsLay]

theorem radiometerOperationsLay_size : radiometerOperationsLay.size = 30 := by
  agree [radiometerOperationsLay]

theorem imageAcquisition_agrees : Agrees imageAcquisition imageAcquisitionLay := by
  intro b
  agree [imageAcquisition, imageAcquisitionLay, call_eq plannedAquisitionTime_agrees, plannedAquisitionTimeLay_size, call_eq radiometerStatus_agrees, radiometerStatusLay_size, call_eq radiometerSettings_agrees, radiometerSettingsLay_size, call_eq radiometerOperations_agrees, radiometerOperationsLay_size]

theorem imageAcquisitionLay_size : imageAcquisitionLay.size = 700 := by
  agree [imageAcquisitionLay, plannedAquisitionTimeLay_size, radiometerStatusLay_size, radiometerSettingsLay_size, radiometerOperationsLay_size]

/-! ### MSG_data_CelestialEvents -/

theorem earth_Moon_Sun_Coefficient_agrees : Agrees earth_Moon_Sun_Coefficient earth_Moon_Sun_CoefficientLay := by
  intro b
  agree [earth_Moon_Sun_Coefficient, earth_Moon_Sun_CoefficientLay]

theorem earth_Moon_Sun_CoefficientLay_size : earth_Moon_Sun_CoefficientLay.size = 140 := by
  agree [earth_Moon_Sun_CoefficientLay]

theorem star_Coefficient_agrees : Agrees star_Coefficient star_CoefficientLay := by
  intro b
  simp only [star_Coefficient, star_CoefficientLay, bodyRet, block, Lay.reads]
  rw [loop_pure _ _ (fun i b p => _) (fun i b p => by
    simp only [block, get, loop_get, List.append_nil, List.cons_append, List.nil_append]; rfl)]
  refine Prod.ext ?_ ?_
  · simp only [List.append_nil]
    congr 1; funext i
    have e : ∀ x, b + 0 + (142 * i + x) = b + i * 142 + x := by intro x; omega
    agree []
    simp only [List.map_cons, List.map_append, List.map_flatMap, List.map_nil, Read.under,
      List.cons_append, List.nil_append, Nat.mul_comm 142 i]
  · agree []

theorem star_CoefficientLay_size : star_CoefficientLay.size = 2840 := by
  agree [star_CoefficientLay]

theorem ephemeris_agrees : Agrees ephemeris ephemerisLay := by
  intro b
  agree [ephemeris, ephemerisLay, loop_call earth_Moon_Sun_Coefficient_agrees, earth_Moon_Sun_CoefficientLay_size, loop_call star_Coefficient_agrees, star_CoefficientLay_size]

theorem ephemerisLay_size : ephemerisLay.size = 326042 := by
  agree [ephemerisLay, earth_Moon_Sun_CoefficientLay_size, star_CoefficientLay_size]

theorem celestialBodiesPosition_agrees : Agrees celestialBodiesPosition celestialBodiesPositionLay := by
  intro b
  agree [celestialBodiesPosition, celestialBodiesPositionLay, call_eq ephemeris_agrees, ephemerisLay_size]

theorem celestialBodiesPositionLay_size : celestialBodiesPositionLay.size = 326042 := by
  agree [celestialBodiesPositionLay, ephemerisLay_size]

theorem relationToImage_agrees : Agrees relationToImage relationToImageLay := by
  intro b
  agree [relationToImage, relationToImageLay]

theorem relationToImageLay_size : relationToImageLay.size = 16 := by
  agree [relationToImageLay]

theorem celestialEvents_agrees : Agrees celestialEvents celestialEventsLay := by
  intro b
  agree [celestialEvents, celestialEventsLay, call_eq celestialBodiesPosition_agrees, celestialBodiesPositionLay_size, call_eq relationToImage_agrees, relationToImageLay_size]

theorem celestialEventsLay_size : celestialEventsLay.size = 326058 := by
  agree [celestialEventsLay, celestialBodiesPositionLay_size, relationToImageLay_size]

/-! ### MSG_data_ImageDescription -/

theorem grid_agrees : Agrees grid gridLay := by
  intro b
  agree [grid, gridLay]

theorem gridLay_size : gridLay.size = 17 := by
  agree [gridLay]

theorem coverage_IR_agrees : Agrees coverage_IR coverage_IRLay := by
  intro b
  agree [coverage_IR, coverage_IRLay]

theorem coverage_IRLay_size : coverage_IRLay.size = 16 := by
  agree [coverage_IRLay]

theorem coverage_HRV_agrees : Agrees coverage_HRV coverage_HRVLay := by
  intro b
  agree [coverage_HRV, coverage_HRVLay]

theorem coverage_HRVLay_size : coverage_HRVLay.size = 32 := by
  agree [coverage_HRVLay]

theorem projectionDescription_agrees : Agrees projectionDescription projectionDescriptionLay := by
  intro b
  agree [projectionDescription, projectionDescriptionLay]

theorem projectionDescriptionLay_size : projectionDescriptionLay.size = 5 := by
  agree [projectionDescriptionLay]

theorem level1_5ImageProduction_agrees : Agrees level1_5ImageProduction level1_5ImageProductionLay := by
  intro b
  agree [level1_5ImageProduction, level1_5ImageProductionLay]

theorem level1_5ImageProductionLay_size : level1_5ImageProductionLay.size = 14 := by
  agree [level1_5ImageProductionLay]

theorem imageDescription_agrees : Agrees imageDescription imageDescriptionLay := by
  intro b
  agree [imageDescription, imageDescriptionLay, call_eq projectionDescription_agrees, projectionDescriptionLay_size, call_eq grid_agrees, gridLay_size, call_eq coverage_IR_agrees, coverage_IRLay_size, call_eq coverage_HRV_agrees, coverage_HRVLay_size, call_eq level1_5ImageProduction_agrees, level1_5ImageProductionLay_size]

theorem imageDescriptionLay_size : imageDescriptionLay.size = 101 := by
  agree [imageDescriptionLay, projectionDescriptionLay_size, gridLay_size, coverage_IRLay_size, coverage_HRVLay_size, level1_5ImageProductionLay_size]

/-! ### MSG_data_RadiometricProc -/

theorem image_Calibration_agrees : Agrees image_Calibration image_CalibrationLay := by
  intro b
  agree [image_Calibration, image_CalibrationLay]

theorem image_CalibrationLay_size : image_CalibrationLay.size = 16 := by
  agree [image_CalibrationLay]

theorem extractedBBData_agrees : Agrees extractedBBData extractedBBDataLay := by
  intro b
  agree [extractedBBData, extractedBBDataLay]

theorem extractedBBDataLay_size : extractedBBDataLay.size = 32 := by
  agree [extractedBBDataLay]

theorem iMPF_CAL_Data_agrees : Agrees iMPF_CAL_Data iMPF_CAL_DataLay := by
  intro b
  agree [iMPF_CAL_Data, iMPF_CAL_DataLay]

theorem iMPF_CAL_DataLay_size : iMPF_CAL_DataLay.size = 32 := by
  agree [iMPF_CAL_DataLay]

theorem rPSummary_agrees : Agrees rPSummary rPSummaryLay := by
  intro b
  agree [rPSummary, rPSummaryLay]

theorem rPSummaryLay_size : rPSummaryLay.size = 72 := by
  agree [rPSummaryLay]

theorem radProcMTFAdaptation_agrees : Agrees radProcMTFAdaptation radProcMTFAdaptationLay := by
  intro b
  agree [radProcMTFAdaptation, radProcMTFAdaptationLay]

theorem radProcMTFAdaptationLay_size : radProcMTFAdaptationLay.size = 5376 := by
  agree [radProcMTFAdaptationLay]

theorem mPEFCalFeedback_agrees : Agrees mPEFCalFeedback mPEFCalFeedbackLay := by
  intro b
  agree [mPEFCalFeedback, mPEFCalFeedbackLay, loop_call iMPF_CAL_Data_agrees, iMPF_CAL_DataLay_size]

theorem mPEFCalFeedbackLay_size : mPEFCalFeedbackLay.size = 384 := by
  agree [mPEFCalFeedbackLay, iMPF_CAL_DataLay_size]

/-! ### MSG_data_GeometricProc -/

theorem optAxisDistances_agrees : Agrees optAxisDistances optAxisDistancesLay := by
  intro b
  agree [optAxisDistances, optAxisDistancesLay]

theorem optAxisDistancesLay_size : optAxisDistancesLay.size = 336 := by
  agree [optAxisDistancesLay]

theorem earthModel_agrees : Agrees earthModel earthModelLay := by
  intro b
  agree [earthModel, earthModelLay]

theorem earthModelLay_size : earthModelLay.size = 25 := by
  agree [earthModelLay]

/-! ### MSG_data_IMPFConfiguration -/

theorem gPConfigItemVersion_agrees : Agrees gPConfigItemVersion gPConfigItemVersionLay := by
  intro b
  agree [gPConfigItemVersion, gPConfigItemVersionLay]

theorem gPConfigItemVersionLay_size : gPConfigItemVersionLay.size = 4 := by
  agree [gPConfigItemVersionLay]

theorem mirrorParameters_agrees : Agrees mirrorParameters mirrorParametersLay := by
  intro b
  agree [mirrorParameters, mirrorParametersLay]

theorem mirrorParametersLay_size : mirrorParametersLay.size = 24 := by
  agree [mirrorParametersLay]

theorem hKTMParameters_agrees : Agrees hKTMParameters hKTMParametersLay := by
  intro b
  agree [hKTMParameters, hKTMParametersLay]

theorem hKTMParametersLay_size : hKTMParametersLay.size = 3480 := by
  agree [hKTMParametersLay]

theorem sUConfiguration_agrees : Agrees sUConfiguration sUConfigurationLay := by
  intro b
  agree [sUConfiguration, sUConfigurationLay, call_eq gPConfigItemVersion_agrees, gPConfigItemVersionLay_size, loop_call gPConfigItemVersion_agrees]

theorem sUConfigurationLay_size : sUConfigurationLay.size = 44 := by
  agree [sUConfigurationLay, gPConfigItemVersionLay_size]

theorem sUDetail_agrees : Agrees sUDetail sUDetailLay := by
  intro b
  agree [sUDetail, sUDetailLay, call_eq sUConfiguration_agrees, sUConfigurationLay_size]

theorem sUDetailLay_size : sUDetailLay.size = 51 := by
  agree [sUDetailLay, sUConfigurationLay_size]

theorem equalisationParms_agrees : Agrees equalisationParms equalisationParmsLay := by
  intro b
  agree [equalisationParms, equalisationParmsLay]

theorem equalisationParmsLay_size : equalisationParmsLay.size = 12 := by
  agree [equalisationParmsLay]

/-! ### MSG_data_ImageProdStats -/

theorem actualScanningSummary_agrees : Agrees actualScanningSummary actualScanningSummaryLay := by
  intro b
  agree [actualScanningSummary, actualScanningSummaryLay]

theorem actualScanningSummaryLay_size : actualScanningSummaryLay.size = 14 := by
  agree [actualScanningSummaryLay]

theorem radiometerBehaviour_agrees : Agrees radiometerBehaviour radiometerBehaviourLay := by
  intro b
  agree [radiometerBehaviour, radiometerBehaviourLay]

theorem radiometerBehaviourLay_size : radiometerBehaviourLay.size = 12 := by
  agree [radiometerBehaviourLay]

theorem receptionSummaryStats_agrees : Agrees receptionSummaryStats receptionSummaryStatsLay := by
  intro b
  agree [receptionSummaryStats, receptionSummaryStatsLay]

theorem receptionSummaryStatsLay_size : receptionSummaryStatsLay.size = 192 := by
  agree [receptionSummaryStatsLay]

theorem l15ImageValidity_agrees : Agrees l15ImageValidity l15ImageValidityLay := by
  intro b
  agree [l15ImageValidity, l15ImageValidityLay]

theorem l15ImageValidityLay_size : l15ImageValidityLay.size = 6 := by
  agree [l15ImageValidityLay]

theorem actualL15CoverageVIS_IR_agrees : Agrees actualL15CoverageVIS_IR actualL15CoverageVIS_IRLay := by
  intro b
  agree [actualL15CoverageVIS_IR, actualL15CoverageVIS_IRLay]

theorem actualL15CoverageVIS_IRLay_size : actualL15CoverageVIS_IRLay.size = 16 := by
  agree [actualL15CoverageVIS_IRLay]

theorem actualL15CoverageHRV_agrees : Agrees actualL15CoverageHRV actualL15CoverageHRVLay := by
  intro b
  agree [actualL15CoverageHRV, actualL15CoverageHRVLay]

theorem actualL15CoverageHRVLay_size : actualL15CoverageHRVLay.size = 32 := by
  agree [actualL15CoverageHRVLay]

theorem imageProdStats_agrees : Agrees imageProdStats imageProdStatsLay := by
  intro b
  agree [imageProdStats, imageProdStatsLay, call_eq actualScanningSummary_agrees, actualScanningSummaryLay_size, call_eq radiometerBehaviour_agrees, radiometerBehaviourLay_size, call_eq receptionSummaryStats_agrees, receptionSummaryStatsLay_size, loop_call l15ImageValidity_agrees, l15ImageValidityLay_size, call_eq actualL15CoverageVIS_IR_agrees, actualL15CoverageVIS_IRLay_size, call_eq actualL15CoverageHRV_agrees, actualL15CoverageHRVLay_size]

theorem imageProdStatsLay_size : imageProdStatsLay.size = 340 := by
  agree [imageProdStatsLay, actualScanningSummaryLay_size, radiometerBehaviourLay_size, receptionSummaryStatsLay_size, l15ImageValidityLay_size, actualL15CoverageVIS_IRLay_size, actualL15CoverageHRVLay_size]

/-! ### MSG_data_NavigExtrResult -/

theorem horizonObservation_agrees : Agrees horizonObservation horizonObservationLay := by
  intro b
  agree [horizonObservation, horizonObservationLay]

theorem horizonObservationLay_size : horizonObservationLay.size = 65 := by
  agree [horizonObservationLay]

theorem starObservation_agrees : Agrees starObservation starObservationLay := by
  intro b
  agree [starObservation, starObservationLay]

theorem starObservationLay_size : starObservationLay.size = 66 := by
  agree [starObservationLay]

/-! ### MSG_data_RadiometricQuality -/

set_option maxRecDepth 4000 in
theorem l10RadQuality_agrees : Agrees l10RadQuality l10RadQualityLay := by
  intro b
  agree [l10RadQuality, l10RadQualityLay]

theorem l10RadQualityLay_size : l10RadQualityLay.size = 7348 := by
  agree [l10RadQualityLay]

theorem l15RadQuality_agrees : Agrees l15RadQuality l15RadQualityLay := by
  intro b
  agree [l15RadQuality, l15RadQualityLay]

theorem l15RadQualityLay_size : l15RadQualityLay.size = 5220 := by
  agree [l15RadQualityLay]

theorem radiometricQuality_agrees : Agrees radiometricQuality radiometricQualityLay := by
  intro b
  agree [radiometricQuality, radiometricQualityLay, loop_call l10RadQuality_agrees, l10RadQualityLay_size, loop_call l15RadQuality_agrees, l15RadQualityLay_size]

theorem radiometricQualityLay_size : radiometricQualityLay.size = 371256 := by
  agree [radiometricQualityLay, l10RadQualityLay_size, l15RadQualityLay_size]

/-! ### MSG_data_GeometricQuality -/

theorem accuracy_agrees : Agrees accuracy accuracyLay := by
  intro b
  agree [accuracy, accuracyLay]

theorem accuracyLay_size : accuracyLay.size = 49 := by
  agree [accuracyLay]

theorem residuals_agrees : Agrees residuals residualsLay := by
  intro b
  agree [residuals, residualsLay]

theorem residualsLay_size : residualsLay.size = 41 := by
  agree [residualsLay]

theorem geometricQualityStatus_agrees : Agrees geometricQualityStatus geometricQualityStatusLay := by
  intro b
  agree [geometricQualityStatus, geometricQualityStatusLay]

theorem geometricQualityStatusLay_size : geometricQualityStatusLay.size = 6 := by
  agree [geometricQualityStatusLay]

theorem geometricQuality_agrees : Agrees geometricQuality geometricQualityLay := by
  intro b
  agree [geometricQuality, geometricQualityLay, loop_call accuracy_agrees, accuracyLay_size, loop_call residuals_agrees, residualsLay_size, loop_call geometricQualityStatus_agrees, geometricQualityStatusLay_size]

theorem geometricQualityLay_size : geometricQualityLay.size = 2916 := by
  agree [geometricQualityLay, accuracyLay_size, residualsLay_size, geometricQualityStatusLay_size]

/-! ### MSG_data_TimelinComple -/

theorem timeliness_agrees : Agrees timeliness timelinessLay := by
  intro b
  agree [timeliness, timelinessLay]

theorem timelinessLay_size : timelinessLay.size = 12 := by
  agree [timelinessLay]

theorem completeness_agrees : Agrees completeness completenessLay := by
  intro b
  agree [completeness, completenessLay]

theorem completenessLay_size : completenessLay.size = 10 := by
  agree [completenessLay]

theorem timelinComple_agrees : Agrees timelinComple timelinCompleLay := by
  intro b
  agree [timelinComple, timelinCompleLay, call_eq timeliness_agrees, timelinessLay_size, loop_call completeness_agrees, completenessLay_size]

theorem timelinCompleLay_size : timelinCompleLay.size = 132 := by
  agree [timelinCompleLay, timelinessLay_size, completenessLay_size]

end Msat.Layout
