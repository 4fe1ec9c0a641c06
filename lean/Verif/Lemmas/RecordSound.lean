import Verif.Lemmas.RecordDetermine
import Verif.Model.RecordTextsItems

/-
Auxiliary facts: the texts of the records only use members of the records, and every value is followed by something that tells where it ends.
-/
namespace Msat.RecordTexts
open Msat Layout RecordTextsSpec

/-- What is needed of a text. -/
def sound (l : Lay) (t : Text) : Bool := separated t && fits l t

theorem sound_iff {l : Lay} {t : Text} : sound l t = true ↔ separated t = true ∧ fits l t = true := by
  unfold sound
  rw [Bool.and_eq_true]

theorem sound_append {l : Lay} {a b : Text} (ha : sound l a = true) (hb : sound l b = true) : sound l (a ++ b) = true := by
  rw [sound_iff] at *
  exact ⟨separated_append ha.1 hb.1, fits_append ha.2 hb.2⟩

theorem sound_each {l : Lay} {n : Nat} {f : Nat → Text} (h : ∀ i, i < n → sound l (f i) = true) : sound l (each n f) = true := by
  rw [sound_iff]
  exact ⟨separated_each fun i hi => (sound_iff.1 (h i hi)).1, fits_each fun i hi => (sound_iff.1 (h i hi)).2⟩

theorem sound_sub {l l' : Lay} {p : Path} {t : Text} (h : layAt l p = some l') (ht : sound l' t = true) : sound l (sub p t) = true := by
  rw [sound_iff] at *
  exact ⟨separated_sub ht.1, fits_sub h ht.2⟩

theorem sound_when {l : Lay} {p : Path} {t : Text} {k : Kind} (h : kindAt l p = some k) (hk : conditions k = true) (ht : sound l t = true) :
    sound l (RecordTexts.when p t) = true := by
  rw [sound_iff] at *
  exact ⟨separated_when ht.1, fits_when h hk ht.2⟩

/-- The element of an array that is a member of a record. -/
theorem layAt_element {l l' : Lay} {nm : String} {n i : Nat} (h : layAt l [.f nm] = some (.arr n l')) (hi : i < n) :
    layAt l [.f nm, .i i] = some l' := by
  rw [show ([.f nm, .i i] : Path) = [.f nm] ++ [.i i] from rfl, layAt_append _ _ _ _ h, layAt, if_pos hi, layAt_nil]

theorem kindAt_element {l l' : Lay} {nm : String} {n i : Nat} {q : Path} {k : Kind} (h : layAt l [.f nm] = some (.arr n l')) (hi : i < n)
    (hk : kindAt l' q = some k) : kindAt l ([.f nm, .i i] ++ q) = some k := by
  rw [kindAt_append (layAt_element h hi), hk]

theorem satelliteDefinition_sound : sound satelliteDefinitionLay satelliteDefinitionText = true := by decide +kernel

theorem satelliteOperations_sound : sound satelliteOperationsLay satelliteOperationsText = true := by decide +kernel

theorem orbit_coefficient_sound : sound orbit_coefficientLay orbit_coefficientText = true := by decide +kernel

theorem attitudeCoeff_sound : sound attitudeCoeffLay attitudeCoeffText = true := by decide +kernel

theorem uTCCorrelation_sound : sound uTCCorrelationLay uTCCorrelationText = true := by decide +kernel

theorem imageAcquisition_sound : sound imageAcquisitionLay imageAcquisitionText = true := by decide +kernel

theorem earth_Moon_Sun_Coefficient_sound : sound earth_Moon_Sun_CoefficientLay earth_Moon_Sun_CoefficientText = true := by decide +kernel

theorem star_Coefficient_sound : sound star_CoefficientLay star_CoefficientText = true := by decide +kernel

theorem relationToImage_sound : sound relationToImageLay relationToImageText = true := by decide +kernel

theorem imageDescription_sound : sound imageDescriptionLay imageDescriptionText = true := by decide +kernel

theorem imageProdStats_sound : sound imageProdStatsLay imageProdStatsText = true := by decide +kernel

theorem navigExtrResult_sound : sound navigExtrResultLay navigExtrResultText = true := by decide +kernel

theorem geometricQuality_sound : sound geometricQualityLay geometricQualityText = true := by decide +kernel

theorem timelinComple_sound : sound timelinCompleLay timelinCompleText = true := by decide +kernel

theorem orbit_sound : sound orbitLay orbitText = true := by
  unfold orbitText
  refine sound_append (sound_append (sound_append (sound_append ?_ ?_) ?_) ?_) ?_
  · decide +kernel
  · decide +kernel
  · decide +kernel
  · refine sound_each fun i hi => sound_when (k := .t6) ?_ rfl (sound_sub (layAt_element (n := 100) rfl hi) orbit_coefficient_sound)
    exact kindAt_element (n := 100) (l' := orbit_coefficientLay) (q := [.f "StartTime"]) rfl hi rfl
  · decide +kernel

theorem attitude_sound : sound attitudeLay attitudeText = true := by
  unfold attitudeText
  refine sound_append (sound_append (sound_append (sound_append ?_ ?_) ?_) ?_) ?_
  · decide +kernel
  · decide +kernel
  · decide +kernel
  · refine sound_each fun i hi => sound_when (k := .t6) ?_ rfl (sound_sub (layAt_element (n := 100) rfl hi) attitudeCoeff_sound)
    exact kindAt_element (n := 100) (l' := attitudeCoeffLay) (q := [.f "StartTime"]) rfl hi rfl
  · decide +kernel

theorem satelliteStatus_sound : sound satelliteStatusLay satelliteStatusText = true := by
  unfold satelliteStatusText
  refine sound_append (sound_append (sound_append (sound_append (sound_append (sound_append ?_ ?_) ?_) ?_) ?_) ?_) ?_
  · decide +kernel
  · exact sound_sub rfl satelliteDefinition_sound
  · exact sound_sub rfl satelliteOperations_sound
  · exact sound_sub rfl orbit_sound
  · exact sound_sub rfl attitude_sound
  · decide +kernel
  · exact sound_sub rfl uTCCorrelation_sound

theorem ephemeris_sound : sound ephemerisLay ephemerisText = true := by
  unfold ephemerisText
  refine sound_append (sound_append (sound_append (sound_append (sound_append (sound_append (sound_append (sound_append
    (sound_append ?_ ?_) ?_) ?_) ?_) ?_) ?_) ?_) ?_) ?_
  · decide +kernel
  · decide +kernel
  · exact sound_each fun i hi => sound_sub (layAt_element (n := 100) rfl hi) earth_Moon_Sun_Coefficient_sound
  · decide +kernel
  · exact sound_each fun i hi => sound_sub (layAt_element (n := 100) rfl hi) earth_Moon_Sun_Coefficient_sound
  · decide +kernel
  · exact sound_each fun i hi => sound_sub (layAt_element (n := 100) rfl hi) earth_Moon_Sun_Coefficient_sound
  · decide +kernel
  · exact sound_each fun i hi => sound_sub (layAt_element (n := 100) rfl hi) star_Coefficient_sound
  · decide +kernel

theorem celestialEvents_sound : sound celestialEventsLay celestialEventsText = true := by
  unfold celestialEventsText celestialBodiesPositionText
  refine sound_append (sound_append ?_ ?_) ?_
  · decide +kernel
  · exact sound_sub (l' := celestialBodiesPositionLay) rfl (sound_sub rfl ephemeris_sound)
  · exact sound_sub rfl relationToImage_sound

end Msat.RecordTexts
