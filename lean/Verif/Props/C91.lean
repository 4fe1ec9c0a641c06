import Verif.Props.C90

/-
C91 Queries of Thorn SDS images.
-/
namespace Msat.Props
open Msat Ini IniSpec Db1Spec Thornsds

theorem textQuery_doc {F : Type} {d : Db1 F} {dict : Option Dict} {doc : Option Doc} (hok : isDataOk d = true)
    (h : Answers dict doc) (key dflt : String) (hl : (str key).length ≤ 1024) (hz : Ini.hash ((str key).map fold) ≠ 0)
    (hc : (58 : UInt8) ∈ str key) :
    textQuery d dict key dflt = .ok (some ((entry doc (str key)).getD (str dflt))) := by
  unfold textQuery
  rw [if_pos hok, getText_doc h _ hl (.inl hz) hc]

theorem intQuery_doc {F : Type} {d : Db1 F} {dict : Option Dict} {doc : Option Doc} (hok : isDataOk d = true)
    (h : Answers dict doc) (key : String) (dflt z : Int) (hl : (str key).length ≤ 1024)
    (hz : Ini.hash ((str key).map fold) ≠ 0) (hc : (58 : UInt8) ∈ str key) (hi : IntegerAt doc (str key) dflt z) :
    intQuery d dict key dflt = .ok z := by
  unfold intQuery
  rw [if_pos hok, getInt_integer h dflt z hl hz hc hi]

theorem boolQuery_doc {F : Type} {d : Db1 F} {dict : Option Dict} {doc : Option Doc} (hok : isDataOk d = true)
    (h : Answers dict doc) (key : String) (dflt b : Bool) (hl : (str key).length ≤ 1024)
    (hz : Ini.hash ((str key).map fold) ≠ 0) (hc : (58 : UInt8) ∈ str key) (hi : AnswerAt doc (str key) dflt b) :
    boolQuery d dict key dflt = .ok b := by
  unfold boolQuery
  rw [if_pos hok, getBool_answer h dflt b hl hz hc hi]

/-- Once a channel is set, the texts are those of the documents, or the defaults. -/
theorem C91_texts {F : Type} (fl : Floats F) (fs : Files) (D : Directory) (hs : StoredDb D fs) (d : Db1 F)
    (hd : Used fl fs D.path d) (hok : isDataOk d = true) :
    aoiName d = .ok (some ((entry D.aoi (str ":Name")).getD (str "Undefined"))) ∧
    aoiProjection d = .ok (some ((entry D.aoi (str ":Projection")).getD (str "GRID"))) ∧
    stationName d = .ok (some ((entry D.info (str "Station:Name")).getD (str "Undefined"))) ∧
    satelliteName d = .ok (some ((entry D.info (str "Satellite:Name")).getD (str "Undefined"))) ∧
    scheduleStart d = .ok (some ((entry D.info (str "Schedule:Start")).getD (str "01/01/2000 00:00:00.000"))) ∧
    scheduleEnd d = .ok (some ((entry D.info (str "Schedule:End")).getD (str "01/01/2000 00:00:00.000"))) ∧
    scheduleLocation d = .ok (some ((entry D.info (str "Schedule:Location")).getD (str "OH"))) ∧
    scheduleSlot d = .ok (some ((entry D.info (str "Schedule:Slot")).getD (str "HRIT"))) ∧
    imageSensor d = .ok (some ((entry D.info (str "Image:Sensor")).getD (str "Seviri"))) := by
  obtain ⟨_, ha, hi⟩ := used_stored hs hd
  refine ⟨?_, ?_, ?_, ?_, ?_, ?_, ?_, ?_, ?_⟩
  · exact textQuery_doc hok ha _ _ (by decide) (by decide +kernel) (by decide)
  · exact textQuery_doc hok ha _ _ (by decide) (by decide +kernel) (by decide)
  · exact textQuery_doc hok hi _ _ (by decide) (by decide +kernel) (by decide)
  · exact textQuery_doc hok hi _ _ (by decide) (by decide +kernel) (by decide)
  · exact textQuery_doc hok hi _ _ (by decide) (by decide +kernel) (by decide)
  · exact textQuery_doc hok hi _ _ (by decide) (by decide +kernel) (by decide)
  · exact textQuery_doc hok hi _ _ (by decide) (by decide +kernel) (by decide)
  · exact textQuery_doc hok hi _ _ (by decide) (by decide +kernel) (by decide)
  · exact textQuery_doc hok hi _ _ (by decide) (by decide +kernel) (by decide)

/-- The numbers. -/
theorem C91_numbers {F : Type} (fl : Floats F) (fs : Files) (D : Directory) (hs : StoredDb D fs) (d : Db1 F)
    (hd : Used fl fs D.path d) (hok : isDataOk d = true) (z : Int) :
    (IntegerAt D.aoi (str ":nLines") 1 z → aoiNlines d = .ok z) ∧
    (IntegerAt D.aoi (str ":CFAC") 0 z → aoiCfac d = .ok z) ∧
    (IntegerAt D.aoi (str ":LFAC") 0 z → aoiLfac d = .ok z) ∧
    (IntegerAt D.aoi (str ":COFF") 0 z → aoiCoff d = .ok z) ∧
    (IntegerAt D.aoi (str ":LOFF") 0 z → aoiLoff d = .ok z) ∧
    (IntegerAt D.info (str "Satellite:ID") 0 z → satelliteId d = .ok z) ∧
    (IntegerAt D.info (str "Satellite:Orbit") 0 z → satelliteOrbit d = .ok z) ∧
    (IntegerAt D.info (str "Image:Lines") 1 z → imageLines d = .ok z) ∧
    (IntegerAt D.info (str "Image:BitsPerPixel") 10 z → bitsPerPixel d = .ok z) ∧
    (IntegerAt D.info (str "Image:nChannels") 10 z → nchannels d = .ok z) ∧
    (IntegerAt D.info (str "Image:nProducts") 10 z → nproducts d = .ok z) := by
  obtain ⟨_, ha, hi⟩ := used_stored hs hd
  refine ⟨?_, ?_, ?_, ?_, ?_, ?_, ?_, ?_, ?_, ?_, ?_⟩
  · intro h
    unfold aoiNlines
    rw [if_pos hok]
    exact getInt_integer ha 1 z (by decide) (by decide +kernel) (by decide) h
  · exact intQuery_doc hok ha _ _ _ (by decide) (by decide +kernel) (by decide)
  · exact intQuery_doc hok ha _ _ _ (by decide) (by decide +kernel) (by decide)
  · exact intQuery_doc hok ha _ _ _ (by decide) (by decide +kernel) (by decide)
  · exact intQuery_doc hok ha _ _ _ (by decide) (by decide +kernel) (by decide)
  · exact intQuery_doc hok hi _ _ _ (by decide) (by decide +kernel) (by decide)
  · exact intQuery_doc hok hi _ _ _ (by decide) (by decide +kernel) (by decide)
  · exact intQuery_doc hok hi _ _ _ (by decide) (by decide +kernel) (by decide)
  · exact intQuery_doc hok hi _ _ _ (by decide) (by decide +kernel) (by decide)
  · exact intQuery_doc hok hi _ _ _ (by decide) (by decide +kernel) (by decide)
  · exact intQuery_doc hok hi _ _ _ (by decide) (by decide +kernel) (by decide)

/-- The widths: without an entry, as many as there are samples. -/
theorem C91_widths {F : Type} (fl : Floats F) (fs : Files) (D : Directory) (hs : StoredDb D fs) (d : Db1 F)
    (hd : Used fl fs D.path d) (n z : Int) (hok : isDataOk d = true) (hn : rawDataNvals d = .ok n) :
    (IntegerAt D.aoi (str ":nPixels") n z → aoiNpixels d = .ok z) ∧
    (IntegerAt D.info (str "Image:Pixels") n z → imagePixels d = .ok z) := by
  obtain ⟨_, ha, hi⟩ := used_stored hs hd
  have hn : sizeInShorts d = .ok n := by
    unfold rawDataNvals at hn
    rw [if_pos hok] at hn
    exact hn
  constructor
  · intro h
    unfold aoiNpixels
    rw [if_pos hok, hn, Outcome.ok_bind]
    exact getInt_integer ha n z (by decide) (by decide +kernel) (by decide) h
  · intro h
    unfold imagePixels
    rw [if_pos hok, hn, Outcome.ok_bind]
    exact getInt_integer hi n z (by decide) (by decide +kernel) (by decide) h

/-- Answers of yes and no. -/
theorem C91_answers {F : Type} (fl : Floats F) (fs : Files) (D : Directory) (hs : StoredDb D fs) (d : Db1 F)
    (hd : Used fl fs D.path d) (hok : isDataOk d = true) (b : Bool) :
    (AnswerAt D.info (str "Schedule:NorthSouth") false b → northSouth d = .ok b) ∧
    (AnswerAt D.info (str "Schedule:Day") true b → scheduleDay d = .ok b) ∧
    (AnswerAt D.info (str "Image:Protected") false b → imageProtected d = .ok b) := by
  obtain ⟨_, ha, hi⟩ := used_stored hs hd
  refine ⟨?_, ?_, ?_⟩
  · exact boolQuery_doc hok hi _ _ _ (by decide) (by decide +kernel) (by decide)
  · exact boolQuery_doc hok hi _ _ _ (by decide) (by decide +kernel) (by decide)
  · exact boolQuery_doc hok hi _ _ _ (by decide) (by decide +kernel) (by decide)

/-- What is asked of a channel comes from its section. -/
theorem C91_channel {F : Type} (fl : Floats F) (fs : Files) (D : Directory) (hs : StoredDb D fs) (d : Db1 F)
    (hd : Used fl fs D.path d) (k : Nat) (hk : d.chnum = k) (h1 : 1 ≤ k) (h2 : k ≤ 12) :
    channelName d = .ok (some ((channelEntry D.info k "Name").getD (str "Undefined"))) ∧
    channelVariable d = .ok (some ((channelEntry D.info k "Variable").getD (str "Undefined"))) ∧
    channelUnits d = .ok (some ((channelEntry D.info k "Units").getD (str "Undefined"))) ∧
    (∀ z, IntegerAt D.info (channelPath k "BitsPerPixel") 10 z → channelBits d = .ok z) ∧
    (∀ b, AnswerAt D.info (channelPath k "Table") false b → channelTable d = .ok b) := by
  obtain ⟨_, ha, hi⟩ := used_stored hs hd
  have hok : isDataOk d = true := by unfold isDataOk; rw [hk]; exact decide_eq_true h1
  refine ⟨?_, ?_, ?_, ?_, ?_⟩
  · unfold channelName
    rw [if_pos hok, hk, channelText hi h1 h2 (by decide)]
  · unfold channelVariable
    rw [if_pos hok, hk, channelText hi h1 h2 (by decide)]
  · unfold channelUnits
    rw [if_pos hok, hk, channelText hi h1 h2 (by decide)]
  · intro z hz
    obtain ⟨a, b, c⟩ := channelKey_ok h1 h2 (w := "BitsPerPixel") (by decide)
    unfold channelBits
    rw [if_pos hok, hk]
    refine getInt_integer hi 10 z a b c ?_
    rw [channelKey_eq h1 h2 (by decide)]
    exact hz
  · intro v hv
    obtain ⟨a, b, c⟩ := channelKey_ok h1 h2 (w := "Table") (by decide)
    unfold channelTable
    rw [if_pos hok, hk]
    refine getBool_answer hi false v a b c ?_
    rw [channelKey_eq h1 h2 (by decide)]
    exact hv

/-- The coefficients come from the calibration of the channel that has been set last. -/
theorem C91_coefficients {F : Type} (fl : Floats F) (cal : Option Doc) (d : Db1 F) (hok : isDataOk d = true)
    (hc : Answers d.calibration cal) :
    calSlope fl d = .ok (calibratedValue fl cal (str "Calibration:Slope")) ∧
    calTargetCount fl d = .ok (calibratedValue fl cal (str "Calibration:TargetCount")) ∧
    calVc fl d = .ok (calibratedValue fl cal (str "Calibration:Vc")) ∧
    calA fl d = .ok (calibratedValue fl cal (str "Calibration:A")) ∧
    calB fl d = .ok (calibratedValue fl cal (str "Calibration:B")) := by
  have q : ∀ key : String, (str key).length ≤ 1024 → Ini.hash ((str key).map fold) ≠ 0 → (58 : UInt8) ∈ str key →
      floatQuery fl d d.calibration key 0 = .ok (calibratedValue fl cal (str key)) := by
    intro key hl hz hcol
    unfold floatQuery calibratedValue
    rw [if_pos hok, getFloat_doc fl hc 0 hl (.inl hz) hcol]
    cases entry cal (str key) <;> rfl
  refine ⟨?_, ?_, ?_, ?_, ?_⟩
  · exact q _ (by decide) (by decide +kernel) (by decide)
  · exact q _ (by decide) (by decide +kernel) (by decide)
  · exact q _ (by decide) (by decide +kernel) (by decide)
  · exact q _ (by decide) (by decide +kernel) (by decide)
  · exact q _ (by decide) (by decide +kernel) (by decide)

/-- The elevation, 90 degrees if there is none. -/
theorem C91_elevation {F : Type} (fl : Floats F) (fs : Files) (D : Directory) (hs : StoredDb D fs) (d : Db1 F)
    (hd : Used fl fs D.path d) (hok : isDataOk d = true) :
    scheduleElevation fl d = .ok (((entry D.info (str "Schedule:Elevation")).map fl.atof).getD (fl.const 90)) := by
  obtain ⟨_, _, hi⟩ := used_stored hs hd
  unfold scheduleElevation floatQuery
  rw [if_pos hok, getFloat_doc fl hi 90 (by decide) (.inl (by decide +kernel)) (by decide)]
  cases entry D.info (str "Schedule:Elevation") <;> rfl

/-- Printing shows the texts of the image and of the channel. -/
theorem C91_print_partial {F : Type} (fl : Floats F) (fs : Files) (D : Directory) (hs : StoredDb D fs) (d : Db1 F)
    (hd : Used fl fs D.path d) (k : Nat) (hk : d.chnum = k) (h1 : 1 ≤ k) (h2 : k ≤ 12) :
    print d = .ok [(entry D.aoi (str ":Name")).getD (str "Undefined"), (entry D.aoi (str ":Projection")).getD (str "GRID"),
      (entry D.info (str "Station:Name")).getD (str "Undefined"), (entry D.info (str "Satellite:Name")).getD (str "Undefined"),
      (entry D.info (str "Schedule:Start")).getD (str "01/01/2000 00:00:00.000"),
      (entry D.info (str "Schedule:End")).getD (str "01/01/2000 00:00:00.000"),
      (entry D.info (str "Schedule:Location")).getD (str "OH"), (entry D.info (str "Schedule:Slot")).getD (str "HRIT"),
      (entry D.info (str "Image:Sensor")).getD (str "Seviri"), (channelEntry D.info k "Name").getD (str "Undefined"),
      (channelEntry D.info k "Variable").getD (str "Undefined"), (channelEntry D.info k "Units").getD (str "Undefined")] := by
  have hok : isDataOk d = true := by unfold isDataOk; rw [hk]; exact decide_eq_true h1
  obtain ⟨t1, t2, t3, t4, t5, t6, t7, t8, t9⟩ := C91_texts fl fs D hs d hd hok
  obtain ⟨c1, c2, c3, _, _⟩ := C91_channel fl fs D hs d hd k hk h1 h2
  unfold print
  rw [t1, t2, t3, t4, t5, t6, t7, t8, t9, c1, c2, c3]
  rfl

theorem channelLoop_unknown {info : Option Dict} {doc : Option Doc} (h : Answers info doc) (hn : ShortNames doc)
    {name : Bytes} (hl : name.length ≤ 6) (hu : name ≠ str "Undefi")
    (hk : ∀ k, 1 ≤ k → k ≤ 12 → channelEntry doc k "Name" ≠ some name) :
    ∀ (n ich : Nat), ich + n = 12 → channelLoop info name ich n = .ok 0 := by
  intro n
  induction n with
  | zero => intro ich he; rfl
  | succ n ih =>
    intro ich he
    rw [channelLoop, channelText h (by omega) (by omega) (by decide) _, Outcome.ok_bind]
    dsimp only
    rw [if_neg, ih (ich + 1) (by omega)]
    have hne := hk (ich + 1) (by omega) (by omega)
    cases hc : channelEntry doc (ich + 1) "Name" with
    | none =>
      dsimp only [Option.getD]
      unfold sameChannel
      rw [List.take_of_length_le hl, beq_iff_eq]
      exact hu
    | some m =>
      dsimp only [Option.getD]
      rw [sameChannel_short hl (hn (ich + 1) m (by omega) (by omega) hc)]
      rintro rfl
      exact hne hc

/-- A channel that `INFO.DBI` does not know cannot be set, although there are samples of it: nothing is answered
afterwards. -/
theorem C91_unknown_channel {F : Type} (fl : Floats F) (fs : Files) (D : Directory) (hs : StoredDb D fs) (d : Db1 F)
    (hd : Used fl fs D.path d) (name : Bytes) (c : Channel) (hc : D.channels name = some c) (hraw : c.raw ≠ [])
    (hn : ShortNames D.info) (hl : name.length ≤ 6) (hu : name ≠ str "Undefi")
    (hk : ∀ k, 1 ≤ k → k ≤ 12 → channelEntry D.info k "Name" ≠ some name) :
    ∃ d', setChannel fl fs d name = .ok d' ∧ isDataOk d' = false ∧ rawData d' = none ∧ calibrationTable d' = none := by
  obtain ⟨hdir, haoi, hinfo⟩ := used_stored hs hd
  obtain ⟨cal, ecal, hcal⟩ := iniFile_doc (hs.calibration name c hc) (hs.soundCalibration name c hc)
  have hp := hs.short
  have p1 : sprintfPath (D.path ++ str "/" ++ name ++ str ".RAW") = .ok (D.path ++ str "/" ++ name ++ str ".RAW") := by
    unfold sprintfPath
    rw [if_pos]
    simp [pathMax, str]; omega
  have p2 : sprintfPath (D.path ++ str "/" ++ name ++ str ".Calibration") =
      .ok (D.path ++ str "/" ++ name ++ str ".Calibration") := by
    unfold sprintfPath
    rw [if_pos]
    simp [pathMax, str]; omega
  have hfile := hs.raw name c hc
  have hlen : c.raw.length ≠ 0 := by
    intro e; exact hraw (List.length_eq_zero_iff.1 e)
  have no : ∀ d' : Db1 F, d'.chnum = 0 → isDataOk d' = false := by
    intro d' h
    unfold isDataOk
    rw [h]
    rfl
  refine ⟨{ d with size := some c.raw.length, calibration := cal, rawdata := some c.raw, chnum := 0, ncalval := 1, calValues := some [fl.const 0] }, ?_, rfl, rfl, rfl⟩
  unfold setChannel hasChannel
  rw [hdir]
  dsimp only
  rw [p1, Outcome.ok_bind, hfile]
  dsimp only
  rw [Outcome.ok_bind]
  dsimp only
  rw [p2, Outcome.ok_bind, ecal, Outcome.ok_bind, p1, Outcome.ok_bind, hfile]
  unfold readRaw
  dsimp only
  rw [if_pos rfl, if_neg (by omega), List.take_of_length_le (Nat.le_refl _)]
  unfold afterRead channelNumber
  dsimp only
  rw [channelLoop_unknown hinfo hn hl hu hk 12 0 rfl, Outcome.ok_bind, ← hdir]
  rfl

/-- A closed object knows nothing any more. -/
theorem C91_close {F : Type} (d : Db1 F) (fs : Files) (name : Bytes) :
    isDataOk d.close = false ∧ rawData d.close = none ∧ calibrationTable d.close = none ∧
    rawDataSize d.close = .ok 0 ∧ numberOfCalibration d.close = 0 ∧ hasChannel fs d.close name = .ok (false, d.close) :=
  ⟨rfl, rfl, rfl, rfl, rfl, rfl⟩

/-- Printing an object without a channel, for example one that has just been opened, prints null pointers. -/
theorem C91_violated_print {F : Type} (d : Db1 F) (h : isDataOk d = false) : print d = .ub := by
  have h' : ¬ isDataOk d = true := by rw [h]; simp
  unfold print aoiName aoiProjection stationName satelliteName scheduleStart scheduleEnd scheduleLocation scheduleSlot
    imageSensor channelName channelVariable channelUnits textQuery
  simp only [if_neg h', Outcome.ok_bind]

/-- Setting a channel before opening a directory is undefined. -/
theorem C91_violated_before_open {F : Type} (fl : Floats F) (fs : Files) (d : Db1 F) (h : d.dirname = none) (name : Bytes) :
    setChannel fl fs d name = .ub := by
  unfold setChannel hasChannel
  rw [h]
  dsimp only
  rw [Outcome.ok_bind]
  dsimp only
  rw [h]

/-- Asking whether another channel is there changes the size that is reported of the samples. -/
theorem C91_violated_has_channel {F : Type} (fl : Floats F) (fs : Files) (D : Directory) (hs : StoredDb D fs) (d : Db1 F)
    (hd : Used fl fs D.path d) (hok : isDataOk d = true) (other : Bytes) (c : Channel) (hl : other.length ≤ 60)
    (hc : D.channels other = some c) (hsize : c.raw.length < 2 ^ 31) :
    ∃ d', hasChannel fs d other = .ok (true, d') ∧ rawData d' = rawData d ∧ rawDataSize d' = .ok c.raw.length := by
  obtain ⟨hdir, _, _⟩ := used_stored hs hd
  have hp := hs.short
  have p1 : sprintfPath (D.path ++ str "/" ++ other ++ str ".RAW") = .ok (D.path ++ str "/" ++ other ++ str ".RAW") := by
    unfold sprintfPath
    rw [if_pos]
    simp [pathMax, str]; omega
  refine ⟨{ d with size := some c.raw.length }, ?_, rfl, ?_⟩
  · unfold hasChannel
    rw [hdir]
    dsimp only
    rw [p1, Outcome.ok_bind, hs.raw other c hc]
  · unfold rawDataSize
    refine (if_pos hok).trans ?_
    show Outcome.ok (toInt c.raw.length) = _
    rw [toInt_small hsize]

/-- When a channel cannot be set because its samples are missing, the object still says that its data are valid:
it has the samples, the name and the table of the previous channel, but no longer its calibration coefficients. -/
theorem C91_violated_missing {F : Type} (fl : Floats F) (fs : Files) (D : Directory) (hs : StoredDb D fs) (d : Db1 F)
    (hd : Used fl fs D.path d) (hok : isDataOk d = true) (name : Bytes) (hl : name.length ≤ 60)
    (hraw : fs (D.path ++ str "/" ++ name ++ str ".RAW") = none)
    (hcal : fs (D.path ++ str "/" ++ name ++ str ".Calibration") = none) :
    ∃ d', setChannel fl fs d name = .ok d' ∧ isDataOk d' = true ∧ rawData d' = rawData d ∧
      channelName d' = channelName d ∧ calibrationTable d' = calibrationTable d ∧ calSlope fl d' = .ok (fl.const 0) := by
  obtain ⟨hdir, _, _⟩ := used_stored hs hd
  have hp := hs.short
  have p1 : sprintfPath (D.path ++ str "/" ++ name ++ str ".RAW") = .ok (D.path ++ str "/" ++ name ++ str ".RAW") := by
    unfold sprintfPath
    rw [if_pos]
    simp [pathMax, str]; omega
  have p2 : sprintfPath (D.path ++ str "/" ++ name ++ str ".Calibration") =
      .ok (D.path ++ str "/" ++ name ++ str ".Calibration") := by
    unfold sprintfPath
    rw [if_pos]
    simp [pathMax, str]; omega
  refine ⟨{ d with calibration := none }, ?_, hok, rfl, rfl, rfl, ?_⟩
  · unfold setChannel hasChannel
    rw [hdir]
    dsimp only
    rw [p1, Outcome.ok_bind, hraw]
    dsimp only
    rw [Outcome.ok_bind]
    dsimp only
    rw [hdir]
    dsimp only
    rw [p2, Outcome.ok_bind]
    unfold iniFile
    rw [hcal]
    dsimp only
    rw [show iniNew none = .ok none from rfl, Outcome.ok_bind, p1, Outcome.ok_bind, hraw]
    rw [show readRaw fl _ none name = .ok _ from rfl]
  · unfold calSlope floatQuery
    exact if_pos hok

/-- The same for an empty file of samples: the name is that of the previous channel, the samples are gone. -/
theorem C91_violated_empty {F : Type} (fl : Floats F) (fs : Files) (D : Directory) (hs : StoredDb D fs) (d : Db1 F)
    (hd : Used fl fs D.path d) (hok : isDataOk d = true) (name : Bytes) (hl : name.length ≤ 60) (c : Channel)
    (hc : D.channels name = some c) (hempty : c.raw = []) :
    ∃ d', setChannel fl fs d name = .ok d' ∧ isDataOk d' = true ∧ rawData d' = some [] ∧ channelName d' = channelName d := by
  obtain ⟨hdir, _, _⟩ := used_stored hs hd
  obtain ⟨cal, ecal, _⟩ := iniFile_doc (hs.calibration name c hc) (hs.soundCalibration name c hc)
  have hp := hs.short
  have p1 : sprintfPath (D.path ++ str "/" ++ name ++ str ".RAW") = .ok (D.path ++ str "/" ++ name ++ str ".RAW") := by
    unfold sprintfPath
    rw [if_pos]
    simp [pathMax, str]; omega
  have p2 : sprintfPath (D.path ++ str "/" ++ name ++ str ".Calibration") =
      .ok (D.path ++ str "/" ++ name ++ str ".Calibration") := by
    unfold sprintfPath
    rw [if_pos]
    simp [pathMax, str]; omega
  have hfile := hs.raw name c hc
  rw [hempty] at hfile
  refine ⟨{ d with calibration := cal, size := some 0, rawdata := some [] }, ?_, hok, ?_, rfl⟩
  · unfold setChannel hasChannel
    rw [hdir]
    dsimp only
    rw [p1, Outcome.ok_bind, hfile]
    dsimp only
    rw [Outcome.ok_bind]
    dsimp only
    rw [p2, Outcome.ok_bind, ecal, Outcome.ok_bind, p1, Outcome.ok_bind, hfile]
    unfold readRaw
    dsimp only
    rw [if_pos rfl, if_pos (by simp), ← hdir]
    rfl
  · exact if_pos hok

/-- The directory of C90. -/
example {F : Type} (fl : Floats F) : ∃ d : Db1 F, Used fl someFiles aDb.path d ∧ isDataOk d = true ∧
    satelliteName d = .ok (some (str "MSG1")) ∧ imagePixels d = .ok 2 ∧ aoiLoff d = .ok 5 ∧
    stationName d = .ok (some (str "Undefined")) := by
  obtain ⟨d, e, _⟩ := openDir_stored (F := F) aDb_stored .fresh
  obtain ⟨d', e', h⟩ := aDb_set fl d (.opened _ _ e)
  have hu : Used fl someFiles aDb.path d' := .chosen _ _ _ (.opened _ _ e) e'
  refine ⟨d', hu, h.valid, ?_, ?_, ?_, ?_⟩
  · rw [(C91_texts fl _ _ aDb_stored d' hu h.valid).2.2.2.1]
    rw [show entry aDb.info (str "Satellite:Name") = some (str "MSG1") by decide +kernel]
    rfl
  · apply (C91_widths fl _ _ aDb_stored d' hu 2 2 h.valid (by rw [h.values]; rfl)).2
    exact .inr ⟨str "2", by decide +kernel, .inl ⟨2, ⟨by decide, by decide, by decide⟩, rfl⟩⟩
  · apply (C91_numbers fl _ _ aDb_stored d' hu h.valid 5).2.2.2.2.1
    exact .inr ⟨str "5", by decide +kernel, .inl ⟨5, ⟨by decide, by decide, by decide⟩, rfl⟩⟩
  · rw [(C91_texts fl _ _ aDb_stored d' hu h.valid).2.2.1]
    rw [show entry aDb.info (str "Station:Name") = none by decide +kernel]
    rfl

/-- Samples of a channel that `INFO.DBI` does not name. -/
example : ∀ k, 1 ≤ k → k ≤ 12 → channelEntry aDb.info k "Name" ≠ some (str "HRV") := by
  have : ∀ j : Fin 13, 1 ≤ j.val → channelEntry aDb.info j.val "Name" ≠ some (str "HRV") := by decide +kernel
  intro k h1 h2
  exact this ⟨k, by omega⟩ h1

end Msat.Props
