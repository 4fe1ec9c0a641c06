import Verif.Lemmas.RecordSound

/-
Auxiliary facts: the texts of the records show the values of the records.
-/
namespace Msat.RecordTexts
open Msat Layout RecordTextsSpec

theorem imageAcquisition_shows : Shows imageAcquisitionText imageAcquisitionLay := by
  unfold Shows
  decide +kernel

theorem imageDescription_shows : displayed imageDescriptionText = leaves imageDescriptionLay := by decide +kernel

theorem navigExtrResult_shows : displayed navigExtrResultText = leaves navigExtrResultLay := by decide +kernel

theorem timelinComple_shows : displayed timelinCompleText = leaves timelinCompleLay := by decide +kernel

theorem imageProdStats_shows : (displayed imageProdStatsText).Perm ((leaves imageProdStatsLay).filter fun p => !neverShown p) := by decide +kernel

theorem orbit_coefficient_shows : Shows orbit_coefficientText orbit_coefficientLay := by
  unfold Shows
  decide +kernel

theorem attitudeCoeff_shows : Shows attitudeCoeffText attitudeCoeffLay := by
  unfold Shows
  decide +kernel

theorem earth_Moon_Sun_Coefficient_shows : Shows earth_Moon_Sun_CoefficientText earth_Moon_Sun_CoefficientLay := by
  unfold Shows
  decide +kernel

theorem star_Coefficient_shows : Shows star_CoefficientText star_CoefficientLay := by
  unfold Shows
  decide +kernel

theorem small_shows : displayed satelliteDefinitionText = leaves satelliteDefinitionLay ∧
    displayed satelliteOperationsText = leaves satelliteOperationsLay ∧ displayed uTCCorrelationText = leaves uTCCorrelationLay ∧
    displayed relationToImageText = leaves relationToImageLay := by decide +kernel

theorem shows_sub {t : Text} {l : Lay} (nm : String) (h : Shows t l) : (displayed (sub [.f nm] t)).Perm ((leaves l).map ([.f nm] ++ ·)) := by
  rw [displayed_sub]
  exact h.map _

theorem shows_of_eq {t : Text} {l : Lay} (h : displayed t = leaves l) : Shows t l := by
  unfold Shows
  rw [h]

theorem orbit_shows : Shows orbitText orbitLay := by
  unfold Shows orbitText orbitLay
  rw [leaves_struct_cons, leaves_struct_cons, leaves_struct_cons, leaves_struct_nil, List.append_nil, ← List.append_assoc]
  rw [displayed_append, displayed_append, displayed_append, displayed_append,
    show displayed [lit "END ORBIT RECORD", endl] = [] by decide, List.append_nil]
  refine List.Perm.append ?_ ?_
  · decide +kernel
  · refine shows_array "OrbitPoliniomal" _ (fun i => ?_) orbit_coefficient_shows
    rw [displayed_when]

theorem attitude_shows : Shows attitudeText attitudeLay := by
  unfold Shows attitudeText attitudeLay
  rw [leaves_struct_cons, leaves_struct_cons, leaves_struct_cons, leaves_struct_cons, leaves_struct_nil, List.append_nil, ← List.append_assoc,
    ← List.append_assoc]
  rw [displayed_append, displayed_append, displayed_append, displayed_append,
    show displayed [lit "END ATTITUDE RECORD", endl] = [] by decide, List.append_nil]
  refine List.Perm.append ?_ ?_
  · decide +kernel
  · refine shows_array "AttitudePolynomial" _ (fun i => ?_) attitudeCoeff_shows
    rw [displayed_when]

theorem satelliteStatus_shows : Shows satelliteStatusText satelliteStatusLay := by
  unfold Shows satelliteStatusText satelliteStatusLay
  rw [leaves_struct_cons, leaves_struct_cons, leaves_struct_cons, leaves_struct_cons, leaves_struct_cons, leaves_struct_cons, leaves_struct_nil,
    List.append_nil]
  simp only [displayed_append, List.append_assoc]
  rw [show displayed [lit "------------------------------------------------------", endl, lit "-           MSG DATA SATELLITE STATUS                -", endl,
    lit "------------------------------------------------------", endl] = [] by decide, List.nil_append]
  refine List.Perm.append (shows_sub _ (shows_of_eq small_shows.1)) ?_
  refine List.Perm.append (shows_sub _ (shows_of_eq small_shows.2.1)) ?_
  refine List.Perm.append (shows_sub _ orbit_shows) ?_
  refine List.Perm.append (shows_sub _ attitude_shows) ?_
  refine List.Perm.append (List.Perm.refl _) ?_
  exact shows_sub _ (shows_of_eq small_shows.2.2.1)

theorem shows_four {h e1 e2 e3 e4 e5 ta tb tc td : Text} {k1 k2 k3 k4 a b c d : List Path} (hh : displayed h = k1 ++ (k2 ++ (k3 ++ k4)))
    (h1 : displayed e1 = []) (h2 : displayed e2 = []) (h3 : displayed e3 = []) (h4 : displayed e4 = []) (h5 : displayed e5 = [])
    (ha : (displayed ta).Perm a) (hb : (displayed tb).Perm b) (hc : (displayed tc).Perm c) (hd : (displayed td).Perm d) :
    (displayed (h ++ e1 ++ ta ++ e2 ++ tb ++ e3 ++ tc ++ e4 ++ td ++ e5)).Perm (k1 ++ (k2 ++ (k3 ++ (k4 ++ (a ++ (b ++ (c ++ d))))))) := by
  simp only [displayed_append, h1, h2, h3, h4, h5, hh, List.append_nil, List.append_assoc]
  exact List.Perm.append_left _ (List.Perm.append_left _ (List.Perm.append_left _ (List.Perm.append_left _
    (ha.append (hb.append (hc.append hd))))))

theorem ephemeris_shows : Shows ephemerisText ephemerisLay := by
  unfold Shows ephemerisText ephemerisLay
  rw [leaves_struct_cons, leaves_struct_cons, leaves_struct_cons, leaves_struct_cons, leaves_struct_cons, leaves_struct_cons,
    leaves_struct_cons, leaves_struct_cons, leaves_struct_nil, List.append_nil]
  refine shows_four ?_ ?_ ?_ ?_ ?_ ?_ ?_ ?_ ?_ ?_
  · decide +kernel
  · decide
  · decide
  · decide
  · decide
  · decide
  · exact shows_array "EarthEphemeris" _ (fun i => rfl) earth_Moon_Sun_Coefficient_shows
  · exact shows_array "MoonEphemeris" _ (fun i => rfl) earth_Moon_Sun_Coefficient_shows
  · exact shows_array "SunEphemeris" _ (fun i => rfl) earth_Moon_Sun_Coefficient_shows
  · exact shows_array "StarEphemeris" _ (fun i => rfl) star_Coefficient_shows

theorem celestialEvents_shows : Shows celestialEventsText celestialEventsLay := by
  unfold Shows celestialEventsText celestialEventsLay celestialBodiesPositionText
  simp only [leaves_struct_cons, leaves_struct_nil, List.append_nil]
  simp only [displayed_append, List.append_assoc]
  rw [show displayed [lit "------------------------------------------------------", endl, lit "-           MSG CELESTIAL EVENTS RECORD              -", endl,
    lit "------------------------------------------------------", endl] = [] by decide, List.nil_append]
  refine List.Perm.append (shows_sub _ ?_) (shows_sub _ (shows_of_eq small_shows.2.2.2))
  unfold Shows celestialBodiesPositionLay
  simp only [leaves_struct_cons, leaves_struct_nil, List.append_nil]
  exact shows_sub _ ephemeris_shows

end Msat.RecordTexts
