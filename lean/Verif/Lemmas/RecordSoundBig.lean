import Verif.Lemmas.RecordSound
import Verif.Model.RecordTextsItems

/-
Auxiliary facts: the same of the greatest records.
-/
namespace Msat.RecordTexts
open Msat Layout RecordTextsSpec

theorem geometricProc_sound : sound geometricProcLay geometricProcText = true := by decide +kernel

theorem iMPFConfiguration_sound : sound iMPFConfigurationLay iMPFConfigurationText = true := by decide +kernel

theorem l10RadQuality_sound : sound l10RadQualityLay l10RadQualityText = true := by decide +kernel

theorem l15RadQuality_sound : sound l15RadQualityLay l15RadQualityText = true := by decide +kernel

theorem radiometricProc_sound : sound radiometricProcLay radiometricProcText = true := by decide +kernel

theorem radiometricQuality_sound : sound radiometricQualityLay radiometricQualityText = true := by
  unfold radiometricQualityText
  refine sound_append (sound_append ?_ ?_) ?_
  · decide +kernel
  · exact sound_each fun i hi => sound_sub (layAt_element (n := 42) rfl hi) l10RadQuality_sound
  · exact sound_each fun i hi => sound_sub (layAt_element (n := 12) rfl hi) l15RadQuality_sound

theorem header_separated : separated headerText = true := by
  unfold headerText
  exact separated_append (separated_append (separated_append (separated_append (separated_append (separated_append
    (separated_sub (sound_iff.1 satelliteStatus_sound).1) (separated_sub (sound_iff.1 imageAcquisition_sound).1))
    (separated_sub (sound_iff.1 celestialEvents_sound).1)) (separated_sub (sound_iff.1 imageDescription_sound).1))
    (separated_sub (sound_iff.1 radiometricProc_sound).1)) (separated_sub (sound_iff.1 geometricProc_sound).1))
    (separated_sub (sound_iff.1 iMPFConfiguration_sound).1)

theorem trailer_sound : sound epilogueDataLay trailerText = true := by
  unfold trailerText
  refine sound_append (sound_append (sound_append (sound_append ?_ ?_) ?_) ?_) ?_
  · exact sound_sub rfl imageProdStats_sound
  · exact sound_sub rfl navigExtrResult_sound
  · exact sound_sub rfl radiometricQuality_sound
  · exact sound_sub rfl geometricQuality_sound
  · exact sound_sub rfl timelinComple_sound

end Msat.RecordTexts
