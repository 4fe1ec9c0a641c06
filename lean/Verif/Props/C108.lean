import Verif.Spec.RecordCodes
import Verif.Lemmas.RecordUse
import Verif.Props.C05
import Verif.Props.C102

/-
C108: the texts of the records of the prologue and of the epilogue (`operator<<` of msat/hrit/MSG_data_*.cpp).
-/
namespace Msat.Props
open Msat Layout RecordTexts RecordTextsSpec Text

/-- A record, its text and its documented members. -/
structure Record where
  name : String
  text : RecordTexts.Text
  layout : Lay

/-- The records of the prologue and of the epilogue of which every value is shown. -/
def records : List Record := [
  ⟨"SatelliteStatus", satelliteStatusText, satelliteStatusLay⟩,
  ⟨"ImageAcquisition", imageAcquisitionText, imageAcquisitionLay⟩,
  ⟨"CelestialEvents", celestialEventsText, celestialEventsLay⟩,
  ⟨"ImageDescription", imageDescriptionText, imageDescriptionLay⟩,
  ⟨"GeometricProc", geometricProcText, geometricProcLay⟩,
  ⟨"IMPFConfiguration", iMPFConfigurationText, iMPFConfigurationLay⟩,
  ⟨"NavigExtrResult", navigExtrResultText, navigExtrResultLay⟩,
  ⟨"RadiometricQuality", radiometricQualityText, radiometricQualityLay⟩,
  ⟨"GeometricQuality", geometricQualityText, geometricQualityLay⟩,
  ⟨"TimelinComple", timelinCompleText, timelinCompleLay⟩]

/-- The records of which some values are not shown. -/
def incompleteRecords : List Record := [
  ⟨"RadiometricProc", radiometricProcText, radiometricProcLay⟩,
  ⟨"ImageProdStats", imageProdStatsText, imageProdStatsLay⟩]

theorem record_sound (R : Record) (hR : R ∈ records ++ incompleteRecords) : sound R.layout R.text = true := by
  simp only [records, incompleteRecords, List.cons_append, List.nil_append, List.mem_cons, List.not_mem_nil, or_false] at hR
  rcases hR with rfl | rfl | rfl | rfl | rfl | rfl | rfl | rfl | rfl | rfl | rfl | rfl
  · exact satelliteStatus_sound
  · exact imageAcquisition_sound
  · exact celestialEvents_sound
  · exact imageDescription_sound
  · exact geometricProc_sound
  · exact iMPFConfiguration_sound
  · exact navigExtrResult_sound
  · exact radiometricQuality_sound
  · exact geometricQuality_sound
  · exact timelinComple_sound
  · exact radiometricProc_sound
  · exact imageProdStats_sound

/-! ### Every value is shown -/

/-- The text of a record shows every value of the record exactly once (those of optional parts, when the part is there). -/
theorem C108_complete (R : Record) (hR : R ∈ records) : (displayed R.text).Perm (leaves R.layout) := by
  simp only [records, List.mem_cons, List.not_mem_nil, or_false] at hR
  rcases hR with rfl | rfl | rfl | rfl | rfl | rfl | rfl | rfl | rfl | rfl
  · exact satelliteStatus_shows
  · exact imageAcquisition_shows
  · exact celestialEvents_shows
  · exact shows_of_eq imageDescription_shows
  · exact shows_of_eq geometricProc_shows
  · exact shows_of_eq iMPFConfiguration_shows
  · exact shows_of_eq navigExtrResult_shows
  · exact radiometricQuality_shows
  · exact geometricQuality_shows
  · exact shows_of_eq timelinComple_shows

/-- The other two show every value but those named by `neverShown`, exactly once.  Missing: those. -/
theorem C108_complete_partial (R : Record) (hR : R ∈ incompleteRecords) :
    (displayed R.text).Perm ((leaves R.layout).filter fun p => !neverShown p) := by
  simp only [incompleteRecords, List.mem_cons, List.not_mem_nil, or_false] at hR
  rcases hR with rfl | rfl
  · dsimp only
    rw [radiometricProc_shows]
  · exact imageProdStats_shows

/-- Values of one record are shown in the order of the record. -/
theorem C108_in_order : displayed imageDescriptionText = leaves imageDescriptionLay ∧ displayed geometricProcText = leaves geometricProcLay ∧
    displayed iMPFConfigurationText = leaves iMPFConfigurationLay ∧ displayed navigExtrResultText = leaves navigExtrResultLay ∧
    displayed timelinCompleText = leaves timelinCompleLay ∧ displayed satelliteDefinitionText = leaves satelliteDefinitionLay ∧
    displayed satelliteOperationsText = leaves satelliteOperationsLay ∧ displayed uTCCorrelationText = leaves uTCCorrelationLay ∧
    displayed relationToImageText = leaves relationToImageLay ∧ displayed l10RadQualityText = leaves l10RadQualityLay ∧
    displayed l15RadQualityText = leaves l15RadQualityLay :=
  ⟨imageDescription_shows, geometricProc_shows, iMPFConfiguration_shows, navigExtrResult_shows, timelinComple_shows, small_shows.1,
    small_shows.2.1, small_shows.2.2.1, small_shows.2.2.2, l10RadQuality_shows, l15RadQuality_shows⟩

/-- The values of a record: 63 of `TimelinComple`, among them the lines of the twelfth channel. -/
example : (leaves timelinCompleLay).length = 63 ∧ [.f "Completeness", .i 11, .f "ValidL15ImageLines"] ∈ displayed timelinCompleText := by
  decide +kernel

/-! ### The text is defined -/

/-- Printing a record read from any values of its members is defined, provided the histograms can be drawn. -/
theorem C108_defined (R : Record) (hR : R ∈ records ++ incompleteRecords) (w : World) (ρ : Path → Val) (hr : R.layout.InRange ρ)
    (hh : ∀ p n i, (∃ g, ⟨g, .bar p n i⟩ ∈ R.text) → Showable ρ p n) : ∃ s, print w (object R.layout ρ) R.text = .ok s := by
  refine print_defined w hr _ (sound_iff.1 (record_sound R hR)).2 fun x hx p n i e => hh p n i ⟨x.guards, ?_⟩
  rcases x with ⟨g, wh⟩
  dsimp only at e
  rw [← e]
  exact hx

/-- The records that are read exactly (C05), with their texts. -/
def readable : List (Structure × RecordTexts.Text) := [
  (⟨"SatelliteStatus", satelliteStatus, satelliteStatusLay, 60134⟩, satelliteStatusText),
  (⟨"ImageAcquisition", imageAcquisition, imageAcquisitionLay, 700⟩, imageAcquisitionText),
  (⟨"CelestialEvents", celestialEvents, celestialEventsLay, 326058⟩, celestialEventsText),
  (⟨"ImageDescription", imageDescription, imageDescriptionLay, 101⟩, imageDescriptionText),
  (⟨"ImageProdStats", imageProdStats, imageProdStatsLay, 340⟩, imageProdStatsText),
  (⟨"RadiometricQuality", radiometricQuality, radiometricQualityLay, 371256⟩, radiometricQualityText),
  (⟨"GeometricQuality", geometricQuality, geometricQualityLay, 2916⟩, geometricQualityText),
  (⟨"TimelinComple", timelinComple, timelinCompleLay, 132⟩, timelinCompleText)]

/-- Reading a record from anywhere in a buffer and printing what was read is defined, provided the histograms can be drawn. -/
theorem C108_read_and_printed (S : Structure) (t : RecordTexts.Text) (hS : (S, t) ∈ readable) (w : World) (ρ : Path → Val) (pre post : Bytes)
    (hr : S.layout.InRange ρ) (hh : ∀ p n i, (∃ g, ⟨g, .bar p n i⟩ ∈ t) → Showable ρ p n) :
    ∃ o s, run S.reader (pre ++ S.layout.encode ρ ++ post) pre.length = .ok (o, S.len) ∧ print w o t = .ok s := by
  have h1 : S ∈ exactStructures ∧ (⟨S.name, t, S.layout⟩ : Record) ∈ records ++ incompleteRecords := by
    simp only [readable, List.mem_cons, List.not_mem_nil, or_false, Prod.mk.injEq] at hS
    rcases hS with ⟨rfl, rfl⟩ | ⟨rfl, rfl⟩ | ⟨rfl, rfl⟩ | ⟨rfl, rfl⟩ | ⟨rfl, rfl⟩ | ⟨rfl, rfl⟩ | ⟨rfl, rfl⟩ | ⟨rfl, rfl⟩ <;>
      exact ⟨by simp [exactStructures], by simp [records, incompleteRecords]⟩
  obtain ⟨s, hs⟩ := C108_defined ⟨S.name, t, S.layout⟩ h1.2 w ρ hr hh
  exact ⟨_, s, (C05_exact_structures S h1.1 ρ pre post hr).1, hs⟩

/-- In-range values exist, and a record without histograms has no condition to meet. -/
example (w : World) : ∃ ρ s, timelinCompleLay.InRange ρ ∧ print w (object timelinCompleLay ρ) timelinCompleText = .ok s := by
  have hk : (timelinCompleLay.reads 0).all (fun r => r.kind == .u2 || r.kind == .r4) = true := by decide +kernel
  have hr : timelinCompleLay.InRange fun _ => .nat 3000 := by
    intro r hr
    have hk := List.all_eq_true.1 hk r hr
    simp only [Bool.or_eq_true, beq_iff_eq] at hk
    rcases hk with hk | hk <;> rw [hk] <;> simp only [Kind.InRange] <;> omega
  have hb : timelinCompleText.all (fun x => match x.what with | .bar _ _ _ => false | _ => true) = true := by decide +kernel
  obtain ⟨s, hs⟩ := C108_defined ⟨"TimelinComple", timelinCompleText, timelinCompleLay⟩ (by simp [records]) w _ hr (by
    rintro p n i ⟨g, hg⟩
    exact absurd (List.all_eq_true.1 hb _ hg) Bool.false_ne_true)
  exact ⟨_, s, hr, hs⟩

/-- Histograms that can be drawn. -/
example : Showable (fun _ => .nat 100) [.f "FullImageIstogram"] 256 := .inr ⟨0, 100, by decide, rfl, by decide⟩

/-! ### The text tells the values -/

/-- The texts. -/
def texts : List RecordTexts.Text := (records ++ incompleteRecords).map Record.text ++ [headerText, trailerText]

theorem texts_separated (t : RecordTexts.Text) (ht : t ∈ texts) : separated t = true := by
  unfold texts at ht
  rcases List.mem_append.1 ht with ht | ht
  · obtain ⟨R, hR, rfl⟩ := List.mem_map.1 ht
    exact (sound_iff.1 (record_sound R hR)).1
  · simp only [List.mem_cons, List.not_mem_nil, or_false] at ht
    rcases ht with rfl | rfl
    · exact header_separated
    · exact (sound_iff.1 trailer_sound).1

/-- If two objects, of which the same optional parts are there, have the same text, then every value that is written has the
same text in both: nowhere can the text of a value be taken for a part of what is around it. -/
theorem C108_determined (t : RecordTexts.Text) (ht : t ∈ texts) (w : World) (hw : Plain w) (o o' : Members) (hs : SameShape t o o') (s : Bytes)
    (h : print w o t = .ok s) (h' : print w o' t = .ok s) (x : What) (hx : Written t o x) : whatText w o x = whatText w o' x := by
  obtain ⟨g, hg, hv⟩ := hx
  exact determined hw (texts_separated t ht) hs h h' _ hg hv

theorem value_same {w : World} {o o' : Members} {p : Path} {f : Form} {a : Bool} {v v' : Val} {u u' : Bytes}
    (h : whatText w o (.value p f 0 32 a) = whatText w o' (.value p f 0 32 a)) (hv : member o p = .ok v) (hv' : member o' p = .ok v')
    (hu : valueText w f v = .ok u) (hu' : valueText w f v' = .ok u') : u = u' := by
  unfold whatText at h
  dsimp only at h
  rw [hv, hv'] at h
  simp only [Outcome.ok_bind, hu, hu'] at h
  exact pad_inj rfl (Outcome.ok.inj h)

/-- Hence integers are equal. -/
theorem C108_integers (t : RecordTexts.Text) (ht : t ∈ texts) (w : World) (hw : Plain w) (o o' : Members) (hs : SameShape t o o') (s : Bytes)
    (h : print w o t = .ok s) (h' : print w o' t = .ok s) (p : Path) (a : Bool) (hx : Written t o (.value p .dec 0 32 a)) :
    (∀ n n', member o p = .ok (.nat n) → member o' p = .ok (.nat n') → n = n') ∧
    (∀ i i', member o p = .ok (.int i) → member o' p = .ok (.int i') → i = i') := by
  have e := C108_determined t ht w hw o o' hs s h h' _ hx
  exact ⟨fun n n' hn hn' => decimal_inj (value_same e hn hn' rfl rfl), fun i i' hi hi' => signed_inj (value_same e hi hi' rfl rfl)⟩

/-- Times are equal, to the millisecond. -/
theorem C108_times (t : RecordTexts.Text) (ht : t ∈ texts) (w : World) (hw : Plain w) (o o' : Members) (hs : SameShape t o o') (s : Bytes)
    (h : print w o t = .ok s) (h' : print w o' t = .ok s) (p : Path) (a : Bool) (hx : Written t o (.value p .t6 0 32 a))
    (d m d' m' : Nat) (hm : member o p = .ok (.time d m 0 0)) (hm' : member o' p = .ok (.time d' m' 0 0))
    (hr : d < 2 ^ 16 ∧ m < 86400000) (hr' : d' < 2 ^ 16 ∧ m' < 86400000) : d = d' ∧ m = m' := by
  have e := C108_determined t ht w hw o o' hs s h h' _ hx
  have e : TimeTexts.shortText (Time.cdsShortOf d m) = TimeTexts.shortText (Time.cdsShortOf d' m') := value_same e hm hm' rfl rfl
  have k1 := C102_order d m d' m' hr.1 (by omega) hr'.1 (by omega)
  have k2 := C102_order d' m' d m hr'.1 (by omega) hr.1 (by omega)
  rw [e] at k1 k2
  have k1 : ¬ d * 86400000 + m < d' * 86400000 + m' := fun h => List.lt_irrefl _ (k1 h)
  have k2 : ¬ d' * 86400000 + m' < d * 86400000 + m := fun h => List.lt_irrefl _ (k2 h)
  omega

/-- The tables of names. -/
def tables : List (List (Nat × String)) := [
  satellite_statusNames, satellite_manouvreNames, boolean_statusNames, dHS_SyncNames, deepSpace_Window_PositionNames,
  refocusing_DirectionNames, bB_CalibrationNames, eclypseNames, bodyNames, quality_impactNames, projection_typeNames,
  grid_originNames, direction_lineNames, direction_columnNames, image_quality_flagNames, reference_data_flagNames,
  absolute_calibration_methodNames, type_of_earth_modelNames, resampling_functionNames, sU_InstanceNames, sUModeNames,
  sUStateNames, horizon_idNames, quality_info_validityNames]

/-- Codes are equal, if the code of the first is one of those with a name. -/
theorem C108_names (t : RecordTexts.Text) (ht : t ∈ texts) (w : World) (hw : Plain w) (o o' : Members) (hs : SameShape t o o') (s : Bytes)
    (h : print w o t = .ok s) (h' : print w o' t = .ok s) (p : Path) (a : Bool) (table : List (Nat × String)) (htab : table ∈ tables)
    (hx : Written t o (.value p (.name table) 0 32 a)) (n n' : Nat) (name : String) (hn : table.lookup n = some name)
    (hm : member o p = .ok (.nat n)) (hm' : member o' p = .ok (.nat n')) : n' = n := by
  have e := C108_determined t ht w hw o o' hs s h h' _ hx
  have hd : tables.all distinct = true := by decide +kernel
  exact distinct_names (List.all_eq_true.1 hd table htab) hn (value_same e hm hm' rfl rfl)

/-- There is such a world, with numbers for the texts of reals. -/
def decimalWorld : World := ⟨decimal, decimal, decimal, fun _ => str "2006-01-01", fun _ _ => str "0"⟩

theorem decimalWorld_plain : Plain decimalWorld :=
  ⟨fun n => ⟨(decimal_chars n).1, fun c hc => digit_ne (.inl ((decimal_chars n).2 c hc))⟩,
   fun n => ⟨(decimal_chars n).1, fun c hc => digit_ne (.inl ((decimal_chars n).2 c hc))⟩,
   fun n => ⟨(decimal_chars n).1, fun c hc => digit_ne (.inl ((decimal_chars n).2 c hc))⟩,
   fun _ => show ∀ c ∈ str "2006-01-01", c ≠ 10 by decide, fun _ _ => show ∀ c ∈ str "0", c ≠ 10 by decide⟩

/-- The number of valid lines of the first channel of a record is written. -/
example (o : Members) : timelinCompleText ∈ texts ∧
    Written timelinCompleText o (.value [.f "Completeness", .i 0, .f "ValidL15ImageLines"] .dec 0 32 false) :=
  ⟨by simp [texts, records], [], by decide +kernel, rfl⟩

/-! ### Labels -/

/-- The texts of single classes. -/
def classTexts : List RecordTexts.Text := [
  satelliteDefinitionText, satelliteOperationsText, orbit_coefficientText, attitudeCoeffText, uTCCorrelationText,
  plannedAquisitionTimeText, radiometerStatusText, radiometerSettingsText, radiometerOperationsText,
  earth_Moon_Sun_CoefficientText, star_CoefficientText, relationToImageText, gridText, coverage_IRText, coverage_HRVText,
  projectionDescriptionText, level1_5ImageProductionText, image_CalibrationText, extractedBBDataText, rPSummaryText,
  radProcMTFAdaptationText, iMPF_CAL_DataText, optAxisDistancesText, earthModelText, gPConfigItemVersionText,
  mirrorParametersText, hKTMParametersText, equalisationParmsText, actualScanningSummaryText, radiometerBehaviourText,
  receptionSummaryStatsText, l15ImageValidityText, actualL15CoverageVIS_IRText, actualL15CoverageHRVText,
  horizonObservationText, starObservationText, landmarkObservationText, l10RadQualityText, l15RadQualityText, accuracyText,
  residualsText, geometricQualityStatusText, timelinessText, completenessText]

/-- Whether values with the same words before them are of the same member. -/
def labelled (t : RecordTexts.Text) : Bool :=
  let l := (labels "" t).eraseDups
  (labels "" t).all (fun e => l.elem e) && l.all fun e => l.all fun e' => e.1 != e'.1 || e.2 == e'.2

theorem labelled_spec {t : RecordTexts.Text} (hl : labelled t = true) (e e' : String × List String) (he : e ∈ labels "" t)
    (he' : e' ∈ labels "" t) (h : e.1 = e'.1) : e.2 = e'.2 := by
  unfold labelled at hl
  dsimp only at hl
  generalize labels "" t = ls at hl he he'
  generalize ls.eraseDups = l at hl
  rw [Bool.and_eq_true] at hl
  have m := List.elem_iff.1 (List.all_eq_true.1 hl.1 e he)
  have m' := List.elem_iff.1 (List.all_eq_true.1 hl.1 e' he')
  have := List.all_eq_true.1 (List.all_eq_true.1 hl.2 e m) e' m'
  rw [Bool.or_eq_true, bne_iff_ne, beq_iff_eq] at this
  exact this.resolve_left fun k => k h

/-- A check of a list, in two parts. -/
theorem all_halves {α : Type} (n : Nat) {l : List α} {f : α → Bool} (h1 : (l.take n).all f = true) (h2 : (l.drop n).all f = true) : l.all f = true := by
  rw [← List.take_append_drop n l, List.all_append, h1, h2]
  rfl

theorem class_labels1 : (classTexts.take 6).all labelled = true := by decide +kernel
theorem class_labels2 : ((classTexts.drop 6).take 6).all labelled = true := by decide +kernel
theorem class_labels3 : (((classTexts.drop 6).drop 6).take 8).all labelled = true := by decide +kernel
theorem class_labels4 : ((((classTexts.drop 6).drop 6).drop 8).take 8).all labelled = true := by decide +kernel
theorem class_labels5 : (((((classTexts.drop 6).drop 6).drop 8).drop 8).take 8).all labelled = true := by decide +kernel
theorem class_labels6 : ((((((classTexts.drop 6).drop 6).drop 8).drop 8).drop 8).take 2).all labelled = true := by decide +kernel
theorem class_labels7 : ((((((classTexts.drop 6).drop 6).drop 8).drop 8).drop 8).drop 2).all labelled = true := by decide +kernel
theorem class_labels : classTexts.all labelled = true :=
  all_halves 6 class_labels1 (all_halves 6 class_labels2 (all_halves 8 class_labels3 (all_halves 8 class_labels4 (all_halves 8 class_labels5 (all_halves 2 class_labels6 class_labels7)))))

/-- Within the text of a class the words before a value tell the member: those before values of different members differ. -/
theorem C108_labels (t : RecordTexts.Text) (ht : t ∈ classTexts) (e e' : String × List String) (he : e ∈ labels "" t) (he' : e' ∈ labels "" t)
    (h : e.1 = e'.1) : e.2 = e'.2 :=
  labelled_spec (List.all_eq_true.1 class_labels t ht) e e' he he' h

example : ("North Polar Radius  : ", ["NorthPolarRadius"]) ∈ labels "" earthModelText ∧ earthModelText ∈ classTexts := by
  exact ⟨by decide +kernel, by simp [classTexts]⟩

/-! ### Histograms -/

/-- Bars of a histogram with a count of at least 76: the greater the count the longer the bar, and the longest has from 76 to 151
asterisks. -/
theorem C108_histogram (cs : List Nat) (m : Nat) (hm : m ∈ cs) (hmax : ∀ c ∈ cs, c ≤ m) (h : 76 ≤ m) (i : Nat) (hi : i < cs.length) :
    ∃ k, barText cs i = .ok (List.replicate k 42) ∧ (cs[i] = m → 76 ≤ k ∧ k ≤ 151) ∧
      ∀ j (hj : j < cs.length) k', barText cs j = .ok (List.replicate k' 42) → cs[j] ≤ cs[i] → k' ≤ k := by
  obtain ⟨m', h2, h3, e⟩ := maxistogram_spec cs
  have hmm : m' = m := by
    have := h2 m hm
    rcases h3 with h3 | h3
    · omega
    · have := hmax m' h3
      omega
  subst hmm
  rw [if_neg (by omega)] at e
  have hb : ∀ j (hj : j < cs.length), barText cs j = .ok (List.replicate (cs[j] / (m' / 76)) 42) := by
    intro j hj
    unfold barText
    rw [List.getElem?_eq_getElem hj]
    dsimp only
    rw [e, if_neg (by omega)]
  refine ⟨_, hb i hi, ?_, ?_⟩
  · intro hc
    rw [hc]
    have h0 : 0 < m' / 76 := by omega
    constructor
    · rw [Nat.le_div_iff_mul_le h0]
      have := Nat.div_mul_le_self m' 76
      rw [Nat.mul_comm]
      exact this
    · have : m' / (m' / 76) < 152 := by
        rw [Nat.div_lt_iff_lt_mul h0]
        have := Nat.div_add_mod m' 76
        have := Nat.mod_lt m' (show 76 > 0 by decide)
        generalize m' / 76 = q at *
        omega
      omega
  · intro j hj k' hk' hle
    rw [hb j hj] at hk'
    have hk' := congrArg List.length (Outcome.ok.inj hk')
    rw [List.length_replicate, List.length_replicate] at hk'
    rw [← hk']
    exact Nat.div_le_div_right hle

/-- If all the counts are zero there are no bars. -/
theorem C108_histogram_empty (cs : List Nat) (h : ∀ c ∈ cs, c = 0) (i : Nat) (hi : i < cs.length) : barText cs i = .ok [] := by
  unfold barText
  rw [List.getElem?_eq_getElem hi]
  dsimp only
  rw [if_neg (maxistogram_pos (.inl h)), h _ (List.getElem_mem hi), Nat.zero_div]
  rfl

example : (76 : Nat) ≤ 1000 ∧ 1000 ∈ [0, 20, 1000, 300] ∧ ∀ c ∈ [0, 20, 1000, 300], c ≤ 1000 := by decide

/-! ### Discrepancies -/

/-- Discrepancy: a histogram whose greatest count is from 1 to 75 divides by zero: printing the radiometric quality is then never
defined, whatever the other values are (msat/hrit/MSG_data_RadiometricQuality.cpp:511-519: `maxval / 76` is zero). -/
theorem C108_violated_histogram (w : World) (ρ : Path → Val) (hr : radiometricQualityLay.InRange ρ) (j : Nat) (hj : j < 42)
    (hnz : ∃ i c, i < 256 ∧ c ≠ 0 ∧ ρ [.f "L10RadQuality", .i j, .f "FullImageIstogram", .i i] = .nat c)
    (hlt : ∀ i c, i < 256 → ρ [.f "L10RadQuality", .i j, .f "FullImageIstogram", .i i] = .nat c → c < 76) (s : Bytes) :
    print w (object radiometricQualityLay ρ) radiometricQualityText ≠ .ok s := by
  intro h
  have hm : (⟨[], .bar [.f "L10RadQuality", .i j, .f "FullImageIstogram"] 256 0⟩ : Item) ∈ radiometricQualityText := by
    unfold radiometricQualityText
    refine List.mem_append_left _ (List.mem_append_right _ (List.mem_flatMap.2 ⟨j, List.mem_range.2 hj, List.mem_map.2
      ⟨⟨[], .bar [.f "FullImageIstogram"] 256 0⟩, ?_, rfl⟩⟩))
    decide +kernel
  obtain ⟨a, ha⟩ := print_what h hm
  have hl : layAt radiometricQualityLay [.f "L10RadQuality", .i j, .f "FullImageIstogram"] = some (.arr 256 (.prim .u4)) := by
    rw [show ([.f "L10RadQuality", .i j, .f "FullImageIstogram"] : Path) = [.f "L10RadQuality", .i j] ++ [.f "FullImageIstogram"] from rfl,
      layAt_append _ _ _ l10RadQualityLay (layAt_element (n := 42) rfl hj)]
    rfl
  obtain ⟨cs, hc, hlen, hv⟩ := counts_object hr hl 256 (by decide)
  unfold whatText at ha
  dsimp only at ha
  rw [hc] at ha
  simp only [Outcome.ok_bind] at ha
  have hz : maxistogram cs = 0 := by
    refine maxistogram_zero ?_ ?_
    · obtain ⟨i, c, hi, hc0, he⟩ := hnz
      have := hv i (by omega)
      refine ⟨cs[i], List.getElem_mem _, ?_⟩
      have : Val.nat c = .nat cs[i] := he.symm.trans this
      injection this with this
      omega
    · intro c hc
      obtain ⟨i, hi, rfl⟩ := List.getElem_of_mem hc
      exact hlt i _ (by omega) (hv i hi)
  unfold barText at ha
  rw [List.getElem?_eq_getElem (show 0 < cs.length by omega)] at ha
  dsimp only at ha
  rw [if_pos hz] at ha
  cases ha

/-- Discrepancy: bars are meant to have at most 76 asterisks, but that of a greatest count of 151 has 151, and goes past a line of
eighty characters. -/
theorem C108_violated_bar (n : Nat) : barText (151 :: List.replicate n 0) 0 = .ok (List.replicate 151 42) := by
  obtain ⟨m, h2, h3, e⟩ := maxistogram_spec (151 :: List.replicate n 0)
  have hm : m = 151 := by
    have := h2 151 (by simp)
    rcases h3 with h3 | h3
    · omega
    · rcases List.mem_cons.1 h3 with h3 | h3
      · exact h3
      · have := List.eq_of_mem_replicate h3
        omega
  subst hm
  unfold barText
  rw [List.getElem?_cons_zero]
  dsimp only
  rw [e]
  rfl

/-- Straylight corrections from the fifth of a row. -/
def straylightTail (p : Path) : Bool :=
  match p with
  | [.f "StraylightCorrection", .i _, .i _, .i k] => decide (4 ≤ k)
  | _ => false

/-- Discrepancy: of every row of eight straylight corrections only the first four are printed: values that only differ in the
others have the same text (msat/hrit/MSG_data_RadiometricProc.cpp:500-514). -/
theorem C108_violated_straylight (w : World) (ρ ρ' : Path → Val) (h : ∀ p, straylightTail p = false → ρ p = ρ' p) :
    print w (object radiometricProcLay ρ) radiometricProcText = print w (object radiometricProcLay ρ') radiometricProcText :=
  print_same w (fun p hp => lookup_object _ ρ ρ' (h p hp)) (by decide +kernel)

/-- Discrepancy: of the 42 offsets of the detectors only the first twelve are printed. -/
theorem C108_violated_offsets (p : Path) (i : Nat) (k : Nat) (c : UInt8) (a : Bool) (g : List Path)
    (h : (⟨g, .value p (.dcr i) k c a⟩ : Item) ∈ radiometricProcText) : i < 12 := by
  have hb : radiometricProcText.all (fun x => match x.what with | .value _ (.dcr i) _ _ _ => decide (i < 12) | _ => true) = true := by
    decide +kernel
  exact of_decide_eq_true (List.all_eq_true.1 hb _ h)

/-- Whether a path is that of the timeliness flag of an image. -/
def timelinessFlag (p : Path) : Bool := p.elem (.f "NonNominalTimeliness")

/-- Discrepancy: whether the image is not nominal because of its timeliness is not printed: statistics that only differ in that have
the same text (msat/hrit/MSG_data_ImageProdStats.cpp:132-143). -/
theorem C108_violated_timeliness (w : World) (ρ ρ' : Path → Val) (h : ∀ p, timelinessFlag p = false → ρ p = ρ' p) :
    print w (object imageProdStatsLay ρ) imageProdStatsText = print w (object imageProdStatsLay ρ') imageProdStatsText :=
  print_same w (fun p hp => lookup_object _ ρ ρ' (h p hp)) (by decide +kernel)

/-- The flag is a member of the record. -/
example : [.f "L15ImageValidity", .i 3, .f "NonNominalTimeliness"] ∈ leaves imageProdStatsLay := by decide +kernel

/-- Discrepancy: the timeliness and completeness record has the title of the production statistics. -/
theorem C108_violated_title : timelinCompleText.take 6 = imageProdStatsText.take 6 ∧
    (⟨[], .lit "-         MSG IMAGE PRODUCTION STATISTICS            -"⟩ : Item) ∈ timelinCompleText.take 6 := by decide +kernel

/-- Discrepancy: the text of a prologue includes the configuration of the image processing facility, which is never read from the
prologue of an xRIT image (it is only there in native files): it is never defined. -/
theorem C108_violated_prologue (w : World) (o : Members) (ho : ∀ e ∈ o, ∀ q, e.1 ≠ .f "IMPF_config" :: q) (s : Bytes) :
    print w o headerText ≠ .ok s := by
  intro h
  have hm : (⟨[], .value [.f "IMPF_config", .f "GPConfigItemVersion", .f "Issue"] .dec 0 32 false⟩ : Item) ∈ headerText := by
    unfold headerText
    refine List.mem_append_right _ (List.mem_map.2 ⟨⟨[], .value [.f "GPConfigItemVersion", .f "Issue"] .dec 0 32 false⟩, ?_, rfl⟩)
    decide +kernel
  obtain ⟨a, ha⟩ := print_what h hm
  obtain ⟨v, _, hv, _⟩ := value_what ha
  unfold member at hv
  cases e : o.lookup [.f "IMPF_config", .f "GPConfigItemVersion", .f "Issue"] with
  | none => rw [e] at hv; cases hv
  | some u =>
    have : ∃ e ∈ o, e.1 = [.f "IMPF_config", .f "GPConfigItemVersion", .f "Issue"] := by
      clear ho h ha hv hm
      induction o with
      | nil => cases e
      | cons x xs ih =>
        rw [List.lookup_cons] at e
        by_cases hx : x.1 = [.f "IMPF_config", .f "GPConfigItemVersion", .f "Issue"]
        · exact ⟨x, by simp, hx⟩
        · have : (([.f "IMPF_config", .f "GPConfigItemVersion", .f "Issue"] : Path) == x.1) = false := by
            simpa using fun k => hx k.symm
          rw [this] at e
          obtain ⟨y, hy, he⟩ := ih e
          exact ⟨y, List.mem_cons_of_mem _ hy, he⟩
    obtain ⟨y, hy, he⟩ := this
    exact ho y hy _ he

/-- The members of a prologue are such. -/
theorem prologue_members (ρ : Path → Val) : ∀ e ∈ object prologueDataLay ρ, ∀ q, e.1 ≠ .f "IMPF_config" :: q := by
  have key : ∀ (ms : List (String × Lay)) (b : Nat) (r : Read), r ∈ (Lay.struct ms).reads b → ∃ m ∈ ms, ∃ q, r.path = .f m.1 :: q := by
    intro ms
    induction ms with
    | nil => intro b r hr; cases hr
    | cons m ms ih =>
      intro b r hr
      rcases List.mem_append.1 hr with hr | hr
      · obtain ⟨r', _, rfl⟩ := List.mem_map.1 hr
        exact ⟨m, by simp, r'.path, rfl⟩
      · obtain ⟨m', hm', q, hq⟩ := ih _ r hr
        exact ⟨m', List.mem_cons_of_mem _ hm', q, hq⟩
  intro e he q hq
  unfold object at he
  obtain ⟨r, hr, rfl⟩ := List.mem_map.1 he
  obtain ⟨m, hm, q', hq'⟩ := key _ 0 r hr
  rw [hq'] at hq
  have hm1 : m.1 = "IMPF_config" := Key.f.inj (List.cons.inj hq).1
  simp only [List.mem_cons, List.not_mem_nil, or_false] at hm
  rcases hm with rfl | rfl | rfl | rfl | rfl | rfl <;> exact absurd hm1 (by decide)

/-- So the text of the values of a prologue is never defined. -/
example (w : World) (ρ : Path → Val) (s : Bytes) : print w (object prologueDataLay ρ) headerText ≠ .ok s :=
  C108_violated_prologue w _ (prologue_members ρ) s

/-- The name of a unit is the one whose identifiers include the identifier, and "Unknown" for all other identifiers. -/
theorem C108_units (w : World) (n : Nat) :
    (∀ u ∈ units, u.1 ≤ n → n ≤ u.2.1 → valueText w .unit (.nat n) = .ok (str u.2.2)) ∧
    ((∀ u ∈ units, ¬ (u.1 ≤ n ∧ n ≤ u.2.1)) → valueText w .unit (.nat n) = .ok (str "Unknown")) := by
  have key : valueText w .unit (.nat n) = .ok (str (unitName n)) := rfl
  rw [key]
  refine ⟨?_, ?_⟩
  · intro u hu h1 h2
    simp only [units, List.mem_cons, List.not_mem_nil, or_false] at hu
    rcases hu with rfl | rfl | rfl | rfl | rfl | rfl | rfl | rfl | rfl | rfl | rfl <;> dsimp only at h1 h2 ⊢ <;> congr 2 <;> unfold unitName <;>
      (repeat (first | rw [if_neg (by omega)] | rw [if_pos (by omega)]))
  · intro h
    simp only [units, List.forall_mem_cons, List.not_mem_nil, false_imp_iff, implies_true, and_true] at h
    obtain ⟨h0, h1, h2, h3, h4, h5, h6, h7, h8, h9, h10⟩ := h
    congr 2
    unfold unitName
    repeat rw [if_neg (by omega)]

/-- The unit of the image processing facility, and an identifier between units. -/
example (w : World) : valueText w .unit (.nat 41000) = .ok (str "IMPF") ∧ valueText w .unit (.nat 5) = .ok (str "Unknown") :=
  ⟨(C108_units w 41000).1 (40000, 49999, "IMPF") (by decide) (by decide) (by decide), (C108_units w 5).2 (by decide)⟩

/-! ### Codes, optional parts and numbers -/

/-- The tables of the code, each with the constants it is about. -/
def codeTables : List (List (Nat × String) × List Code) := [
  (satellite_statusNames, satelliteStatusCodes),
  (satellite_manouvreNames, manouvreTypeCodes),
  (boolean_statusNames, boolean_statusCodes),
  (dHS_SyncNames, dHS_SyncCodes),
  (deepSpace_Window_PositionNames, deepSpace_Window_PositionCodes),
  (refocusing_DirectionNames, refocusing_DirectionCodes),
  (bB_CalibrationNames, bB_CalibrationCodes),
  (eclypseNames, eclypseCodes),
  (bodyNames, bodyCodes),
  (quality_impactNames, quality_impactCodes),
  (projection_typeNames, projection_typeCodes),
  (grid_originNames, grid_originCodes),
  (direction_lineNames, direction_lineCodes),
  (direction_columnNames, direction_columnCodes),
  (image_quality_flagNames, image_quality_flagCodes),
  (reference_data_flagNames, reference_data_flagCodes),
  (absolute_calibration_methodNames, absolute_calibration_methodCodes),
  (type_of_earth_modelNames, type_of_earth_modelCodes),
  (resampling_functionNames, resampling_functionCodes),
  (sU_InstanceNames, sU_instanceCodes),
  (sUModeNames, sUModeCodes),
  (sUStateNames, sUStateCodes),
  (horizon_idNames, horizon_idCodes),
  (quality_info_validityNames, quality_info_validityCodes)]

/-- The texts of classes with members shown by words. -/
def codedTexts : List RecordTexts.Text := classTexts ++ [radiometricProcText, geometricProcText, iMPFConfigurationText]

/-- The texts of classes, with the parts of the record that may not be there. -/
def parts : List (RecordTexts.Text × (Path → List Path)) := [
  (satelliteOperationsText, manoeuvrePart), (orbitText, elementPart "OrbitPoliniomal"), (attitudeText, elementPart "AttitudePolynomial"),
  (earth_Moon_Sun_CoefficientText, wholePart "StartTime"), (star_CoefficientText, starPart), (starObservationText, wholePart "StarId"),
  (landmarkObservationText, wholePart "LandmarkId"), (accuracyText, restPart "QualityInfoValidity"),
  (residualsText, restPart "QualityInfoValidity"), (satelliteDefinitionText, alwaysPart), (uTCCorrelationText, alwaysPart),
  (imageAcquisitionText, alwaysPart), (relationToImageText, alwaysPart), (imageDescriptionText, alwaysPart), (geometricProcText, alwaysPart),
  (iMPFConfigurationText, alwaysPart), (horizonObservationText, alwaysPart), (timelinCompleText, alwaysPart)]

/-- Texts of classes with arrays. -/
def numberedTexts : List RecordTexts.Text := classTexts ++ [mPEFCalFeedbackText, blackBodyDataUsedText, geometricProcText, imageProdStatsText,
  geometricQualityText, timelinCompleText]

theorem name_meaning : ∀ (codes : List Code), codes.Pairwise (fun a b => a.code ≠ b.code) → ∀ n,
    nameOf ((codes.filter fun c => c.words != "Unknown").map fun c => (c.code, c.words)) n = meaning codes n
  | [], _, _ => rfl
  | c :: cs, h, n => by
    have h1 := List.pairwise_cons.1 h
    have ih := name_meaning cs h1.2 n
    unfold nameOf meaning at *
    by_cases hc : c.code = n
    · have hnone : cs.find? (fun c => c.code == n) = none := by
        rw [List.find?_eq_none]
        intro x hx
        have := h1.1 x hx
        simp only [beq_iff_eq]
        omega
      rw [hnone] at ih
      by_cases hw : c.words = "Unknown"
      · simp [hc, hw, ih]
      · simp [hc, hw]
    · have hb : (n == c.code) = false := by simpa using fun e => hc e.symm
      by_cases hw : c.words = "Unknown"
      · simp [hc, hw, ih]
      · simp [hc, hw, ih, List.lookup, hb]

/-- The words shown for a number are those of the constant that is declared for it, and "Unknown" if there is none. -/
theorem C108_codes (e : List (Nat × String) × List Code) (he : e ∈ codeTables) (w : World) (n : Nat) :
    valueText w (.name e.1) (.nat n) = .ok (str (meaning e.2 n)) := by
  have h : codeTables.all (fun e => decide (e.1 = (e.2.filter fun c => c.words != "Unknown").map fun c => (c.code, c.words)) &&
      decide (e.2.Pairwise fun a b => a.code ≠ b.code)) = true := by decide +kernel
  have := List.all_eq_true.1 h e he
  rw [Bool.and_eq_true, decide_eq_true_iff, decide_eq_true_iff] at this
  show Outcome.ok (str (nameOf e.1 n)) = _
  rw [this.1, name_meaning e.2 this.2 n]

example : (satellite_manouvreNames, manouvreTypeCodes) ∈ codeTables ∧ meaning manouvreTypeCodes 3 = "N/S Station Keeping" ∧
    meaning manouvreTypeCodes 6 = "Unknown" := ⟨by simp [codeTables], by decide +kernel, by decide +kernel⟩

/-- Whether the values of a text that are shown by words have the words of their constants. -/
def wellCoded (t : RecordTexts.Text) : Bool := t.all fun x => match x.what with
  | .value p (.name table) _ _ _ => memberCodes.any fun m => m.1 == lastName p && codeTables.elem (table, m.2)
  | _ => true

theorem coded1 : (codedTexts.take 36).all wellCoded = true := by decide +kernel
theorem coded2 : ((codedTexts.drop 36).take 2).all wellCoded = true := by decide +kernel
theorem coded3 : ((codedTexts.drop 36).drop 2).all wellCoded = true := by decide +kernel

/-- Every member shown by words is declared to hold the constants that these words are for. -/
theorem C108_coded_members (t : RecordTexts.Text) (ht : t ∈ codedTexts) (g : List Path) (p : Path) (table : List (Nat × String)) (k : Nat) (c : UInt8)
    (a : Bool) (hx : ⟨g, .value p (.name table) k c a⟩ ∈ t) :
    ∃ codes, (lastName p, codes) ∈ memberCodes ∧ (table, codes) ∈ codeTables := by
  have h : codedTexts.all wellCoded = true := all_halves 36 coded1 (all_halves 2 coded2 coded3)
  have := List.all_eq_true.1 (List.all_eq_true.1 h t ht) _ hx
  dsimp only at this
  obtain ⟨m, hm, h2⟩ := List.any_eq_true.1 this
  rw [Bool.and_eq_true, beq_iff_eq, List.elem_iff] at h2
  exact ⟨m.2, by rw [← h2.1]; exact hm, h2.2⟩

example : satelliteDefinitionText ∈ codedTexts ∧ ∃ g k c a, ⟨g, .value [.f "SatelliteStatus"] (.name satellite_statusNames) k c a⟩ ∈ satelliteDefinitionText :=
  ⟨by simp [codedTexts, classTexts], [], 0, 32, false, by decide +kernel⟩

/-- A value is written exactly if the part of the record it is in is there: the conditions around it are those of its part. -/
theorem C108_optional (e : RecordTexts.Text × (Path → List Path)) (he : e ∈ parts) (x : Item) (hx : x ∈ e.1) (p : Path) (hp : p ∈ displays x.what) :
    x.guards = e.2 p := by
  have h : parts.all (fun e => e.1.all fun x => (displays x.what).all fun p => decide (x.guards = e.2 p)) = true := by decide +kernel
  exact of_decide_eq_true (List.all_eq_true.1 (List.all_eq_true.1 (List.all_eq_true.1 h e he) x hx) p hp)

example : (satelliteOperationsText, manoeuvrePart) ∈ parts ∧
    manoeuvrePart [.f "NextManouvreType"] = [[.f "NextManoeuvreFlag"]] := ⟨by simp [parts], by decide +kernel⟩

theorem numbered1 : (numberedTexts.take 36).all (numbered none) = true := by decide +kernel
theorem numbered2 : ((numberedTexts.drop 36).take 2).all (numbered none) = true := by decide +kernel
theorem numbered3 : ((numberedTexts.drop 36).drop 2).all (numbered none) = true := by decide +kernel

/-- Elements of arrays are numbered from one: a number is followed by values of the element, counted from one. -/
theorem C108_numbers (t : RecordTexts.Text) (ht : t ∈ numberedTexts) (w : World) (o : Members) :
    numbered none t = true ∧
    ∀ k c i, whatText w o (.index k c i) = .ok (List.replicate (k - (Text.decimal (i + 1)).length) c ++ Text.decimal (i + 1)) := by
  have h : numberedTexts.all (numbered none) = true := all_halves 36 numbered1 (all_halves 2 numbered2 numbered3)
  exact ⟨List.all_eq_true.1 h t ht, fun _ _ _ => rfl⟩

end Msat.Props
