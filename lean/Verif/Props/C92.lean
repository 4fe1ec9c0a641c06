import Verif.Props.C91
import Verif.Props.C45
import Verif.Model.ThornsdsTools

/-
C92 Exports of Thorn SDS images.
-/
namespace Msat.Props
open Msat Ini IniSpec Db1Spec Thornsds
open Msat.Text (scanf scanf_int scanf_lit scanf_blank dropWhile_digits fmt0_digits fmt0)
open Msat.TextSpec (digits)
open Msat.DatetimeSpec (Fits stamp since2000)

theorem scan_start {y mo d h mi s : Nat} (f : Fits y mo d h mi s) (rest : Bytes) :
    scanf startFormat (startText y mo d h mi s ++ rest) = [(d : Int), mo, y, h, mi, s] := by
  obtain ⟨f1, f2, f3, f4, f5, f6⟩ := f
  unfold startFormat startText
  simp only [List.append_assoc]
  rw [scanf_int _ _ 2 d _ (by omega) (by omega) (.inr rfl), scanf_lit,
    scanf_int _ _ 2 mo _ (by omega) (by omega) (.inr rfl), scanf_lit,
    scanf_int _ _ 4 y _ (by omega) (by omega) (.inr rfl), scanf_blank _ 32 _ rfl (dropWhile_digits 2 h (by omega) _),
    scanf_int _ _ 2 h _ (by omega) (by omega) (.inr rfl), scanf_lit,
    scanf_int _ _ 2 mi _ (by omega) (by omega) (.inr rfl), scanf_lit,
    scanf_int _ _ 2 s _ (by omega) (by omega) (.inr rfl)]
  rfl

theorem time_text {y mo d h mi s : Nat} (f : Fits y mo d h mi s) :
    fmt0 4 (y : Int) ++ str "-" ++ fmt0 2 (mo : Int) ++ str "-" ++ fmt0 2 (d : Int) ++ str " " ++ fmt0 2 (h : Int) ++ str ":" ++
      fmt0 2 (mi : Int) ++ str ":" ++ fmt0 2 (s : Int) ++ str " UTC" = stamp y mo d h mi s ++ str " UTC" := by
  obtain ⟨f1, f2, f3, f4, f5, f6⟩ := f
  rw [fmt0_digits (by omega) (by omega), fmt0_digits (by omega) (by omega), fmt0_digits (by omega) (by omega),
    fmt0_digits (by omega) (by omega), fmt0_digits (by omega) (by omega), fmt0_digits (by omega) (by omega)]
  rfl

theorem utc_seconds {y mo d h mi s : Nat} (hy : 2000 ≤ y ∧ y ≤ 9999) (hd : Spec.ValidDate y mo d) (hh : h ≤ 23) (hm : mi ≤ 59) :
    Datetime.mktimeUTC y mo d h mi s - 946684800 = since2000 y mo d h mi s := by
  have v5 : Spec.daysInMonth y mo ≤ 31 := by
    unfold Spec.daysInMonth
    split <;> (try split) <;> decide
  obtain ⟨v1, v2, v3, v4⟩ := hd
  have f0 : Fits y mo d h mi 0 := ⟨by omega, by omega, by omega, by omega, by omega, by omega⟩
  have h0 := C67_reference_time_partial y mo d h mi hy ⟨v1, v2, v3, v4⟩ hh hm
  unfold Datetime.forecastSeconds2000 at h0
  rw [scan_stamp f0] at h0
  dsimp only at h0
  unfold Datetime.mktimeUTC at h0 ⊢
  unfold since2000 at h0 ⊢
  dsimp only at h0 ⊢
  omega

theorem clean_name {sat ch start suffix : Bytes}
    (h : (sat ++ str "_" ++ ch ++ str "_" ++ start ++ str "." ++ suffix).length ≤ 4095) :
    outName sat ch start suffix = exportName sat ch start suffix := by
  unfold outName exportName cleanName snprintf pathMax
  rw [List.take_of_length_le h]
  apply List.map_congr_left
  intro c _
  by_cases h1 : c = 47
  · subst h1; rfl
  · by_cases h2 : c = 58
    · subst h2; rfl
    · simp [h1, h2]

/-- The calibration of the counts of an image. -/
def CountsOf {F : Type} (fl : Floats F) (D : Directory) (name : Bytes) (c : Channel) (k bits : Nat) (l : List F) : Prop :=
  l.length = 2 ^ bits ∧
    ∀ quantity letter i t, (channelEntry D.info k "Variable").getD (str "Undefined") = quantity →
      Letter quantity name letter → i < 2 ^ bits → Numeral t i →
      l[i]? = some (calibratedValue fl c.calibration (countKey quantity letter t))

/-- What is exported of an image, apart from offsets. -/
structure Exports {F : Type} (fl : Floats F) (D : Directory) (name : Bytes) (c : Channel) (k bits w h : Nat)
    (f : NcImage F) : Prop where
  columns : f.columns = w
  lines : f.lines = h
  samples : f.samples = c.raw.take (2 * (h * w))
  calibration : CountsOf fl D name c k bits f.calibration
  satellite : f.satellite = (entry D.info (str "Satellite:Name")).getD (str "Undefined")
  receiver : f.receiver = (entry D.info (str "Station:Name")).getD (str "Undefined")
  area : f.areaName = (entry D.aoi (str ":Name")).getD (str "Undefined")
  projection : f.projection = (entry D.aoi (str ":Projection")).getD (str "GRID")
  quantity : f.quantity = (channelEntry D.info k "Variable").getD (str "Undefined")
  units : f.units = (channelEntry D.info k "Units").getD (str "Undefined")
  named : f.name = name
  columnFactor : ∀ z, IntegerAt D.aoi (str ":CFAC") 0 z → f.columnScaleFactor = z
  lineFactor : ∀ z, IntegerAt D.aoi (str ":LFAC") 0 z → f.lineScaleFactor = z
  direction : ∀ b, AnswerAt D.info (str "Schedule:NorthSouth") false b → f.northSouth = !b

/-- An object on which a channel has been set, with the size of the image. -/
structure Ready {F : Type} (fl : Floats F) (fs : Files) (D : Directory) (name : Bytes) (c : Channel) (k bits w h : Nat)
    (d : Db1 F) : Prop where
  stored : StoredDb D fs
  used : Used fl fs D.path d
  set : ChannelSet fl D name c k bits d
  first : 1 ≤ k
  last : k ≤ 12
  wide : 1 ≤ w
  high : 1 ≤ h
  width : IntegerAt D.info (str "Image:Pixels") (c.raw.length / 2 : Nat) w
  height : IntegerAt D.info (str "Image:Lines") 1 h

theorem intQuery_some {F : Type} {d : Db1 F} {dict : Option Dict} {doc : Option Doc} (h : Answers dict doc) (key : String)
    (dflt : Int) (hok : isDataOk d = true) (hl : (str key).length ≤ 1024) (hz : Ini.hash ((str key).map fold) ≠ 0)
    (hc : (58 : UInt8) ∈ str key) :
    ∃ v, intQuery d dict key dflt = .ok v ∧ ∀ z, IntegerAt doc (str key) dflt z → v = z := by
  unfold intQuery
  rw [if_pos hok]
  have e := getInt_doc h dflt hl (.inl hz) hc
  refine ⟨_, e, ?_⟩
  intro z hi
  have := getInt_integer h dflt z hl hz hc hi
  rw [e] at this
  injection this

theorem answer_exists (doc : Option Doc) (key : Bytes) (dflt : Bool) : ∃ b, AnswerAt doc key dflt b := by
  unfold AnswerAt
  split
  · exact ⟨dflt, rfl⟩
  · split
    · exact ⟨true, rfl⟩
    · split
      · exact ⟨false, rfl⟩
      · exact ⟨dflt, rfl⟩

theorem boolQuery_some {F : Type} {d : Db1 F} {dict : Option Dict} {doc : Option Doc} (h : Answers dict doc) (key : String)
    (dflt : Bool) (hok : isDataOk d = true) (hl : (str key).length ≤ 1024) (hz : Ini.hash ((str key).map fold) ≠ 0)
    (hc : (58 : UInt8) ∈ str key) :
    ∃ v, boolQuery d dict key dflt = .ok v ∧ ∀ z, AnswerAt doc (str key) dflt z → v = z := by
  obtain ⟨b, hb⟩ := answer_exists doc (str key) dflt
  refine ⟨b, boolQuery_doc hok h key dflt b hl hz hc hb, ?_⟩
  intro z hi
  have e := boolQuery_doc hok h key dflt z hl hz hc hi
  rw [boolQuery_doc hok h key dflt b hl hz hc hb] at e
  injection e

theorem samples_enough {raw : Bytes} {n : Nat} (h : 2 * n ≤ raw.length) : readSamples (some raw) n = .ok (raw.take (2 * n)) := by
  show slice raw 0 (2 * n) = _
  unfold slice
  rw [if_pos (by omega)]
  rfl

theorem samples_missing {raw : Bytes} {n : Nat} (h : raw.length < 2 * n) : readSamples (some raw) n = .ub := by
  show slice raw 0 (2 * n) = _
  unfold slice
  rw [if_neg (by omega)]

/-- Texts that an export uses. -/
def satelliteOf (D : Directory) : Bytes := (entry D.info (str "Satellite:Name")).getD (str "Undefined")
def startOf (D : Directory) : Bytes := (entry D.info (str "Schedule:Start")).getD (str "01/01/2000 00:00:00.000")

/-- An export goes on to write the samples when the beginning has a date. -/
theorem writeNetcdf_core {F : Type} {fl : Floats F} {fs : Files} {D : Directory} {name : Bytes} {c : Channel}
    {k bits w h : Nat} {d : Db1 F} (r : Ready fl fs D name c k bits w h d) (m : Machine) (chname outname : Bytes)
    {y mo dd hh mi s : Nat} {rest : Bytes} (hf : Fits y mo dd hh mi s)
    (hstart : startOf D = startText y mo dd hh mi s ++ rest) :
    ∃ f : NcImage F, writeNetcdf m d chname outname = (do
        let samples ← readSamples (some c.raw) (h * w)
        .ok ⟨0, some (outname, { f with samples := samples })⟩) ∧
      Exports fl D name c k bits w h { f with samples := c.raw.take (2 * (h * w)) } ∧
      f.time = stamp y mo dd hh mi s ++ str " UTC" ∧
      f.seconds = m.mktime m.isdst y mo dd hh mi s - 946684800 - m.timezone ∧ f.chnum = chnameToChnum chname ∧
      (∀ z, IntegerAt D.aoi (str ":COFF") 0 z → f.lineOffset = z) ∧
      (∀ z, IntegerAt D.aoi (str ":LOFF") 0 z → f.columnOffset = z) := by
  have hok := r.set.valid
  obtain ⟨_, ha, hi⟩ := used_stored r.stored r.used
  have e1 := (C91_widths fl fs D r.stored d r.used _ w hok r.set.values).2 r.width
  have e2 := (C91_numbers fl fs D r.stored d r.used hok h).2.2.2.2.2.2.2.1 r.height
  obtain ⟨cf, e3, p3⟩ := intQuery_some ha ":CFAC" 0 hok (by decide) (by decide +kernel) (by decide)
  obtain ⟨lf, e4, p4⟩ := intQuery_some ha ":LFAC" 0 hok (by decide) (by decide +kernel) (by decide)
  obtain ⟨co, e5, p5⟩ := intQuery_some ha ":COFF" 0 hok (by decide) (by decide +kernel) (by decide)
  obtain ⟨lo, e6, p6⟩ := intQuery_some ha ":LOFF" 0 hok (by decide) (by decide +kernel) (by decide)
  obtain ⟨ns, e7, p7⟩ := boolQuery_some hi "Schedule:NorthSouth" false hok (by decide) (by decide +kernel) (by decide)
  obtain ⟨t1, t2, t3, t4, t5, _, _, _, _⟩ := C91_texts fl fs D r.stored d r.used hok
  obtain ⟨_, c2, c3, _, _⟩ := C91_channel fl fs D r.stored d r.used k r.set.number r.first r.last
  obtain ⟨l, hl, hcounts⟩ := r.set.table
  have hnum : ¬ ((h : Int) ≤ 0 ∨ (w : Int) ≤ 0 ∨ numberOfCalibration d ≤ 0) := by
    rw [r.set.counts]
    have h2 : (0 : Int) < 2 ^ bits := by
      have := Nat.two_pow_pos bits
      exact_mod_cast this
    have := r.wide
    have := r.high
    omega
  refine ⟨{
    satellite := satelliteOf D, receiver := (entry D.info (str "Station:Name")).getD (str "Undefined"),
    time := stamp y mo dd hh mi s ++ str " UTC", areaName := (entry D.aoi (str ":Name")).getD (str "Undefined"),
    projection := (entry D.aoi (str ":Projection")).getD (str "GRID"), columns := w, lines := h,
    columnScaleFactor := cf, lineScaleFactor := lf, columnOffset := lo, lineOffset := co, northSouth := !ns,
    calibration := l, quantity := (channelEntry D.info k "Variable").getD (str "Undefined"),
    units := (channelEntry D.info k "Units").getD (str "Undefined"),
    seconds := m.mktime m.isdst y mo dd hh mi s - 946684800 - m.timezone, name := name,
    chnum := chnameToChnum chname, samples := [] }, ?_, ?_, rfl, rfl, rfl, fun z hz => p5 z hz, fun z hz => p6 z hz⟩
  · unfold writeNetcdf
    rw [e1, Outcome.ok_bind, e2, Outcome.ok_bind]
    rw [show aoiCfac d = .ok cf from e3, show aoiLfac d = .ok lf from e4, show aoiCoff d = .ok co from e5,
      show aoiLoff d = .ok lo from e6, t4, t5]
    simp only [Outcome.ok_bind, deref]
    have hs := scan_start hf rest
    rw [← hstart] at hs
    unfold startOf at hs
    rw [hs]
    dsimp only
    rw [t3, t1, t2, show northSouth d = .ok ns from e7]
    simp only [Outcome.ok_bind]
    rw [if_neg hnum, c2, c3, r.set.named]
    simp only [Outcome.ok_bind, Int.toNat_natCast]
    rw [r.set.data, hl, time_text hf]
    rfl
  · refine ⟨rfl, rfl, rfl, hcounts, rfl, rfl, rfl, rfl, rfl, rfl, rfl, fun z hz => p3 z hz, fun z hz => p4 z hz, ?_⟩
    intro b hb
    show (!ns) = !b
    rw [p7 b hb]

theorem export_core {F : Type} {fl : Floats F} {fs : Files} {D : Directory} {name : Bytes} {c : Channel}
    {k bits w h : Nat} {d : Db1 F} (r : Ready fl fs D name c k bits w h d) (m : Machine) (chname : Bytes)
    (hl : (satelliteOf D).length + name.length + (startOf D).length ≤ 4000) :
    exportNetcdf m d chname = if m.creates (exportName (satelliteOf D) name (startOf D) (str "nc"))
      then writeNetcdf m d chname (exportName (satelliteOf D) name (startOf D) (str "nc")) else .ok ⟨0, none⟩ := by
  have hok := r.set.valid
  obtain ⟨_, _, _, t4, t5, _, _, _, _⟩ := C91_texts fl fs D r.stored d r.used hok
  unfold exportNetcdf
  rw [t4, r.set.named, t5]
  simp only [Outcome.ok_bind, deref]
  rw [clean_name]
  · rfl
  · unfold satelliteOf startOf at hl
    simp [str] at hl ⊢
    omega

/-- A channel of a directory that can be exported. -/
structure Exportable (fs : Files) (D : Directory) (name : Bytes) (c : Channel) (k bits w h : Nat) : Prop where
  stored : StoredDb D fs
  channel : D.channels name = some c
  nonempty : c.raw ≠ []
  size : c.raw.length < 2 ^ 31
  names : ShortNames D.info
  member : name ∈ solar ++ others
  number : IsChannel D.info name k
  depth : NumberAt D.info "Image:BitsPerPixel" 10 bits
  ten : bits ≤ 10
  quantity : channelEntry D.info k "Variable" = some (str "Temperature") ∨ channelEntry D.info k "Variable" = some (str "Radiance")
  wide : 1 ≤ w
  high : 1 ≤ h
  width : IntegerAt D.info (str "Image:Pixels") (c.raw.length / 2 : Nat) w
  height : IntegerAt D.info (str "Image:Lines") 1 h
  path : D.path ≠ str "-V"
  short : (satelliteOf D).length + name.length + (startOf D).length ≤ 4000

/-- Up to the export, the tool opens the directory and sets the channel. -/
theorem tool_core {F : Type} {fl : Floats F} {fs : Files} {D : Directory} {name : Bytes} {c : Channel}
    {k bits w h : Nat} (x : Exportable fs D name c k bits w h) (m : Machine) :
    ∃ d : Db1 F, Ready fl fs D name c k bits w h d ∧ db1ToNetcdf fl fs m [D.path, name] = exportNetcdf m d name := by
  obtain ⟨d0, e0, _⟩ := openDir_stored (F := F) x.stored .fresh
  have hu0 : Used fl fs D.path d0 := .opened _ _ e0
  have hlen : name.length ≤ 6 := by
    have : ∀ n ∈ solar ++ others, n.length ≤ 6 := by decide
    exact this name x.member
  have p1 : sprintfPath (D.path ++ str "/" ++ name ++ str ".RAW") = .ok (D.path ++ str "/" ++ name ++ str ".RAW") := by
    have := x.stored.short
    unfold sprintfPath
    rw [if_pos]
    simp [pathMax, str]; omega
  obtain ⟨hdir, _, _⟩ := used_stored x.stored hu0
  have e1 : hasChannel fs d0 name = .ok (true, { d0 with size := some c.raw.length }) := by
    unfold hasChannel
    rw [hdir]
    dsimp only
    rw [p1, Outcome.ok_bind, x.stored.raw name c x.channel]
  have hu1 : Used fl fs D.path { d0 with size := some c.raw.length } := .asked _ _ _ _ hu0 e1
  have h2 : ∃ d', setChannel fl fs { d0 with size := some c.raw.length } name = .ok d' ∧ ChannelSet fl D name c k bits d' := by
    rcases x.quantity with hq | hq
    · exact C90_seviri fl fs D x.stored _ hu1 name c k bits _ x.channel x.nonempty x.size x.names x.member x.number x.depth
        x.ten hq (.inl rfl)
    · exact C90_seviri fl fs D x.stored _ hu1 name c k bits _ x.channel x.nonempty x.size x.names x.member x.number x.depth
        x.ten hq (.inr rfl)
  obtain ⟨d2, e2, h2⟩ := h2
  refine ⟨d2, ⟨x.stored, .chosen _ _ _ hu1 e2, h2, x.number.1, x.number.2.1, x.wide, x.high, x.width, x.height⟩, ?_⟩
  unfold db1ToNetcdf
  rw [if_neg (by
    intro e
    injection e with e
    exact x.path e)]
  dsimp only
  rw [e0, Outcome.ok_bind, e1, Outcome.ok_bind]
  dsimp only
  rw [if_pos rfl, e2, Outcome.ok_bind, if_pos h2.valid]

/-- A channel is exported with its size, its samples, its calibration, its names and its time.  Missing: the offsets,
files with fewer samples than the size says and time zones with daylight saving, see below; names are those of the channels of
SEVIRI with up to 10 bits. -/
theorem C92_netcdf_partial {F : Type} (fl : Floats F) (fs : Files) (D : Directory) (name : Bytes) (c : Channel)
    (k bits w h : Nat) (x : Exportable fs D name c k bits w h) (m : Machine) (y mo dd hh mi s : Nat) (rest : Bytes)
    (hy : 2000 ≤ y ∧ y ≤ 9999) (hd : Spec.ValidDate y mo dd) (ht : hh ≤ 23 ∧ mi ≤ 59 ∧ s ≤ 59)
    (hstart : startOf D = startText y mo dd hh mi s ++ rest) (henough : 2 * (h * w) ≤ c.raw.length)
    (hmk : ∀ i, m.mktime i y mo dd hh mi s = Datetime.mktimeUTC y mo dd hh mi s + m.timezone)
    (hcreates : ∀ n, m.creates n = true) :
    ∃ f : NcImage F, db1ToNetcdf fl fs m [D.path, name] =
        .ok ⟨0, some (exportName (satelliteOf D) name (startOf D) (str "nc"), f)⟩ ∧
      Exports fl D name c k bits w h f ∧ f.time = stamp y mo dd hh mi s ++ str " UTC" ∧
      f.seconds = since2000 y mo dd hh mi s ∧ ∀ i, (solar ++ others)[i]? = some name → f.chnum = i + 1 := by
  obtain ⟨d, r, e⟩ := tool_core (fl := fl) x m
  have v5 : Spec.daysInMonth y mo ≤ 31 := by
    unfold Spec.daysInMonth
    split <;> (try split) <;> decide
  have hf : Fits y mo dd hh mi s := by
    obtain ⟨v1, v2, v3, v4⟩ := hd
    exact ⟨by omega, by omega, by omega, by omega, by omega, by omega⟩
  obtain ⟨f, e2, h1, h2, h3, h4, _, _⟩ := writeNetcdf_core r m name (exportName (satelliteOf D) name (startOf D) (str "nc")) hf hstart
  refine ⟨_, ?_, h1, h2, ?_, ?_⟩
  · rw [e, export_core r m name x.short, if_pos (hcreates _), e2]
    rw [samples_enough henough]
    rfl
  · show f.seconds = _
    rw [h3, hmk, show ∀ a b : Int, a + b - 946684800 - b = a - 946684800 by intros; omega, utc_seconds hy hd ht.1 ht.2.1]
  · intro i hi
    show f.chnum = i + 1
    rw [h4]
    have hlt : i < 12 := (List.getElem?_eq_some_iff.1 hi).1
    have : ∀ j : Fin 12, ∀ n, (solar ++ others)[j.val]? = some n → chnameToChnum n = j.val + 1 := by
      have h : ∀ j : Fin 12, ((solar ++ others)[j.val]?).all (fun n => decide (chnameToChnum n = j.val + 1)) = true := by decide
      intro j n e
      have := h j
      rw [e] at this
      exact of_decide_eq_true this
    exact this ⟨i, hlt⟩ name hi

/-- Whatever the documents say, a file is only written in the current directory, and its name fits. -/
theorem C92_current_directory {F : Type} (fl : Floats F) (fs : Files) (m : Machine) (args : List Bytes) (status : Int)
    (n : Bytes) (f : NcImage F) (h : db1ToNetcdf fl fs m args = .ok ⟨status, some (n, f)⟩) :
    (47 : UInt8) ∉ n ∧ n.length ≤ 4095 := by
  have write : ∀ (d : Db1 F) chname out, writeNetcdf m d chname out = .ok ⟨status, some (n, f)⟩ → n = out := by
    intro d chname out h
    unfold writeNetcdf at h
    obtain ⟨_, _, h⟩ := Outcome.of_bind_ok h
    obtain ⟨_, _, h⟩ := Outcome.of_bind_ok h
    obtain ⟨_, _, h⟩ := Outcome.of_bind_ok h
    obtain ⟨_, _, h⟩ := Outcome.of_bind_ok h
    obtain ⟨_, _, h⟩ := Outcome.of_bind_ok h
    obtain ⟨_, _, h⟩ := Outcome.of_bind_ok h
    obtain ⟨_, _, h⟩ := Outcome.of_bind_ok h
    obtain ⟨_, _, h⟩ := Outcome.of_bind_ok h
    obtain ⟨_, _, h⟩ := Outcome.of_bind_ok h
    obtain ⟨_, _, h⟩ := Outcome.of_bind_ok h
    split at h
    · obtain ⟨_, _, h⟩ := Outcome.of_bind_ok h
      obtain ⟨_, _, h⟩ := Outcome.of_bind_ok h
      obtain ⟨_, _, h⟩ := Outcome.of_bind_ok h
      obtain ⟨_, _, h⟩ := Outcome.of_bind_ok h
      obtain ⟨_, _, h⟩ := Outcome.of_bind_ok h
      obtain ⟨_, _, h⟩ := Outcome.of_bind_ok h
      obtain ⟨_, _, h⟩ := Outcome.of_bind_ok h
      split at h
      · injection h with h; injection h with _ h; cases h
      · obtain ⟨_, _, h⟩ := Outcome.of_bind_ok h
        obtain ⟨_, _, h⟩ := Outcome.of_bind_ok h
        obtain ⟨_, _, h⟩ := Outcome.of_bind_ok h
        obtain ⟨_, _, h⟩ := Outcome.of_bind_ok h
        obtain ⟨_, _, h⟩ := Outcome.of_bind_ok h
        obtain ⟨_, _, h⟩ := Outcome.of_bind_ok h
        obtain ⟨_, _, h⟩ := Outcome.of_bind_ok h
        split at h
        · cases h
        · injection h with h; injection h with _ h; injection h with h; injection h with h; exact h.symm
    · cases h
  have exp : ∀ (d : Db1 F) chname, exportNetcdf m d chname = .ok ⟨status, some (n, f)⟩ → ∃ a b c e, n = outName a b c e := by
    intro d chname h
    unfold exportNetcdf at h
    obtain ⟨_, _, h⟩ := Outcome.of_bind_ok h
    obtain ⟨a, _, h⟩ := Outcome.of_bind_ok h
    obtain ⟨_, _, h⟩ := Outcome.of_bind_ok h
    obtain ⟨b, _, h⟩ := Outcome.of_bind_ok h
    obtain ⟨_, _, h⟩ := Outcome.of_bind_ok h
    obtain ⟨c, _, h⟩ := Outcome.of_bind_ok h
    dsimp only at h
    split at h
    · exact ⟨a, b, c, _, write _ _ _ h⟩
    · injection h with h; injection h with _ h; cases h
  have tool : ∃ a b c e, n = outName a b c e := by
    unfold db1ToNetcdf at h
    split at h
    · injection h with h; injection h with _ h; cases h
    · split at h
      · obtain ⟨_, _, h⟩ := Outcome.of_bind_ok h
        obtain ⟨⟨has, d⟩, _, h⟩ := Outcome.of_bind_ok h
        dsimp only at h
        split at h
        · obtain ⟨_, _, h⟩ := Outcome.of_bind_ok h
          split at h
          · exact exp _ _ h
          · injection h with h; injection h with _ h; cases h
        · injection h with h; injection h with _ h; cases h
      · injection h with h; injection h with _ h; cases h
  obtain ⟨a, b, c, e, rfl⟩ := tool
  unfold outName cleanName snprintf pathMax
  constructor
  · intro hm
    obtain ⟨x, _, hx⟩ := List.mem_map.1 hm
    revert hx
    split
    · decide
    · split
      · decide
      · split
        · decide
        · rename_i h1 _ _; exact h1
  · rw [List.length_map, List.length_take]
    omega

/-- The offsets are exchanged: the column offset that is exported is the line offset of the area, and the other way
round. -/
theorem C92_violated_offsets {F : Type} (fl : Floats F) (fs : Files) (D : Directory) (name : Bytes) (c : Channel)
    (k bits w h : Nat) (x : Exportable fs D name c k bits w h) (m : Machine) (y mo dd hh mi s : Nat) (rest : Bytes)
    (hf : Fits y mo dd hh mi s) (hstart : startOf D = startText y mo dd hh mi s ++ rest)
    (henough : 2 * (h * w) ≤ c.raw.length) (hcreates : ∀ n, m.creates n = true) (coff loff : Int)
    (hc : IntegerAt D.aoi (str ":COFF") 0 coff) (hl : IntegerAt D.aoi (str ":LOFF") 0 loff) :
    ∃ n, ∃ f : NcImage F, db1ToNetcdf fl fs m [D.path, name] = .ok ⟨0, some (n, f)⟩ ∧ f.columnOffset = loff ∧
      f.lineOffset = coff := by
  obtain ⟨d, r, e⟩ := tool_core (fl := fl) x m
  obtain ⟨f, e2, _, _, _, _, h6, h7⟩ := writeNetcdf_core r m name (exportName (satelliteOf D) name (startOf D) (str "nc")) hf hstart
  refine ⟨exportName (satelliteOf D) name (startOf D) (str "nc"), { f with samples := c.raw.take (2 * (h * w)) }, ?_,
    h7 loff hl, h6 coff hc⟩
  · rw [e, export_core r m name x.short, if_pos (hcreates _), e2]
    rw [samples_enough henough]
    rfl

/-- When the file has fewer samples than the size in `INFO.DBI` says, memory after them is read. -/
theorem C92_violated_size {F : Type} (fl : Floats F) (fs : Files) (D : Directory) (name : Bytes) (c : Channel)
    (k bits w h : Nat) (x : Exportable fs D name c k bits w h) (m : Machine) (y mo dd hh mi s : Nat) (rest : Bytes)
    (hf : Fits y mo dd hh mi s) (hstart : startOf D = startText y mo dd hh mi s ++ rest)
    (hless : c.raw.length < 2 * (h * w)) (hcreates : ∀ n, m.creates n = true) :
    db1ToNetcdf fl fs m [D.path, name] = .ub := by
  obtain ⟨d, r, e⟩ := tool_core (fl := fl) x m
  obtain ⟨f, e2, _⟩ := writeNetcdf_core r m name (exportName (satelliteOf D) name (startOf D) (str "nc")) hf hstart
  rw [e, export_core r m name x.short, if_pos (hcreates _), e2]
  rw [samples_missing hless]
  rfl

/-- A beginning without six numbers leaves parts of the date without values, which are used. -/
theorem C92_violated_date {F : Type} (fl : Floats F) (fs : Files) (D : Directory) (name : Bytes) (c : Channel)
    (k bits w h : Nat) (x : Exportable fs D name c k bits w h) (m : Machine)
    (hstart : (scanf startFormat (startOf D)).length < 6) (hcreates : ∀ n, m.creates n = true) :
    db1ToNetcdf fl fs m [D.path, name] = .ub := by
  obtain ⟨d, r, e⟩ := tool_core (fl := fl) x m
  rw [e, export_core r m name x.short, if_pos (hcreates _)]
  have hok := r.set.valid
  obtain ⟨_, ha, hi⟩ := used_stored r.stored r.used
  have e1 := (C91_widths fl fs D r.stored d r.used _ w hok r.set.values).2 r.width
  have e2 := (C91_numbers fl fs D r.stored d r.used hok h).2.2.2.2.2.2.2.1 r.height
  obtain ⟨cf, e3, p3⟩ := intQuery_some ha ":CFAC" 0 hok (by decide) (by decide +kernel) (by decide)
  obtain ⟨lf, e4, p4⟩ := intQuery_some ha ":LFAC" 0 hok (by decide) (by decide +kernel) (by decide)
  obtain ⟨co, e5, p5⟩ := intQuery_some ha ":COFF" 0 hok (by decide) (by decide +kernel) (by decide)
  obtain ⟨lo, e6, p6⟩ := intQuery_some ha ":LOFF" 0 hok (by decide) (by decide +kernel) (by decide)
  obtain ⟨_, _, _, t4, t5, _, _, _, _⟩ := C91_texts fl fs D r.stored d r.used hok
  unfold writeNetcdf
  rw [e1, Outcome.ok_bind, e2, Outcome.ok_bind]
  rw [show aoiCfac d = .ok cf from e3, show aoiLfac d = .ok lf from e4, show aoiCoff d = .ok co from e5,
    show aoiLoff d = .ok lo from e6, t4, t5]
  simp only [Outcome.ok_bind, deref]
  unfold startOf at hstart
  split
  · rename_i hs
    rw [hs] at hstart
    exact absurd hstart (by simp)
  · rfl

/-- When the file cannot be created, the tool ends with the status of success. -/
theorem C92_violated_status {F : Type} (fl : Floats F) (fs : Files) (D : Directory) (name : Bytes) (c : Channel)
    (k bits w h : Nat) (x : Exportable fs D name c k bits w h) (m : Machine) (hcreates : ∀ n, m.creates n = false) :
    db1ToNetcdf fl fs m [D.path, name] = .ok ⟨0, none⟩ := by
  obtain ⟨d, r, e⟩ := tool_core (fl := fl) x m
  rw [e, export_core r m name x.short, if_neg (by rw [hcreates]; simp)]

/-- `tm_isdst` is not set: in a place with daylight saving time the time that is exported depends on a value that is
left from before. -/
theorem C92_violated_isdst {F : Type} (fl : Floats F) (fs : Files) (D : Directory) (name : Bytes) (c : Channel)
    (k bits w h : Nat) (x : Exportable fs D name c k bits w h) (m m' : Machine) (y mo dd hh mi s : Nat) (rest : Bytes)
    (hf : Fits y mo dd hh mi s) (hstart : startOf D = startText y mo dd hh mi s ++ rest)
    (henough : 2 * (h * w) ≤ c.raw.length) (hcreates : ∀ n, m.creates n = true) (hm' : m' = { m with isdst := 1 })
    (hm : m.isdst = 0) (hdst : m.mktime 1 y mo dd hh mi s = m.mktime 0 y mo dd hh mi s - 3600) :
    ∃ n, ∃ f f' : NcImage F, db1ToNetcdf fl fs m [D.path, name] = .ok ⟨0, some (n, f)⟩ ∧
      db1ToNetcdf fl fs m' [D.path, name] = .ok ⟨0, some (n, f')⟩ ∧ f'.seconds = f.seconds - 3600 := by
  subst hm'
  obtain ⟨d, r, e⟩ := tool_core (fl := fl) x m
  obtain ⟨d', r', e'⟩ := tool_core (fl := fl) x { m with isdst := 1 }
  obtain ⟨f, e2, _, _, h3, _⟩ := writeNetcdf_core r m name (exportName (satelliteOf D) name (startOf D) (str "nc")) hf hstart
  obtain ⟨f', e2', _, _, h3', _⟩ := writeNetcdf_core r' { m with isdst := 1 } name
    (exportName (satelliteOf D) name (startOf D) (str "nc")) hf hstart
  refine ⟨exportName (satelliteOf D) name (startOf D) (str "nc"), { f with samples := c.raw.take (2 * (h * w)) }, { f' with samples := c.raw.take (2 * (h * w)) }, ?_, ?_, ?_⟩
  · rw [e, export_core r m name x.short, if_pos (hcreates _), e2]
    rw [samples_enough henough]
    rfl
  · rw [e', export_core r' _ name x.short, if_pos (hcreates _), e2']
    rw [samples_enough henough]
    rfl
  · show f'.seconds = f.seconds - 3600
    rw [h3, h3', hm]
    dsimp only
    rw [hdst]
    omega

/-- Pictures have the size and the samples of the channel. -/
theorem C92_image {F : Type} (fl : Floats F) (fs : Files) (D : Directory) (name : Bytes) (c : Channel) (k bits w h : Nat)
    (d : Db1 F) (r : Ready fl fs D name c k bits w h d) (henough : 2 * (h * w) ≤ c.raw.length) (format : Bytes)
    (hl : (satelliteOf D).length + name.length + (startOf D).length + format.length ≤ 4000) (b : Bool)
    (hb : AnswerAt D.info (str "Schedule:NorthSouth") false b) :
    exportImage d format none =
      .ok ⟨exportName (satelliteOf D) name (startOf D) format, w, h, c.raw.take (2 * (h * w)), !b, none⟩ := by
  have hok := r.set.valid
  obtain ⟨_, ha, hi⟩ := used_stored r.stored r.used
  have e1 := (C91_widths fl fs D r.stored d r.used _ w hok r.set.values).2 r.width
  have e2 := (C91_numbers fl fs D r.stored d r.used hok h).2.2.2.2.2.2.2.1 r.height
  have e3 := (C91_answers fl fs D r.stored d r.used hok b).1 hb
  obtain ⟨_, _, _, t4, t5, _, _, _, _⟩ := C91_texts fl fs D r.stored d r.used hok
  have hw := r.wide
  have hh := r.high
  unfold exportImage
  rw [t4, t5, r.set.named, e1, e2]
  simp only [Outcome.ok_bind, deref]
  rw [if_neg (by omega), e3, r.set.data, Int.toNat_natCast, Int.toNat_natCast]
  rw [samples_enough henough]
  simp only [Outcome.ok_bind]
  rw [clean_name]
  · rfl
  · unfold satelliteOf startOf at hl
    simp [str] at hl ⊢
    omega

/-- The name of the overlay that the user gives is not used. -/
theorem C92_violated_overlay {F : Type} (d : Db1 F) (format a b : Bytes) :
    exportImage d format (some a) = exportImage d format (some b) ∧
      ∀ p, exportImage d format (some a) = .ok p → p.overlay = some (str "SEVIRI_OVERLAY.pgm") := by
  refine ⟨rfl, ?_⟩
  intro p h
  unfold exportImage at h
  obtain ⟨_, _, h⟩ := Outcome.of_bind_ok h
  obtain ⟨_, _, h⟩ := Outcome.of_bind_ok h
  obtain ⟨_, _, h⟩ := Outcome.of_bind_ok h
  obtain ⟨_, _, h⟩ := Outcome.of_bind_ok h
  obtain ⟨_, _, h⟩ := Outcome.of_bind_ok h
  obtain ⟨_, _, h⟩ := Outcome.of_bind_ok h
  obtain ⟨_, _, h⟩ := Outcome.of_bind_ok h
  obtain ⟨_, _, h⟩ := Outcome.of_bind_ok h
  split at h
  · cases h
  · obtain ⟨_, _, h⟩ := Outcome.of_bind_ok h
    obtain ⟨_, _, h⟩ := Outcome.of_bind_ok h
    injection h with h
    rw [← h]
    rfl

/-- The directory of C90, whose beginning is the default. -/
theorem aDb_exportable : Exportable someFiles aDb (str "IR_108") ⟨[1, 0, 0, 0], some aCalibration⟩ 9 1 2 1 where
  stored := aDb_stored
  channel := rfl
  nonempty := by decide
  size := by decide
  names := aDb_names
  member := by decide
  number := aDb_channel
  depth := .inr ⟨str "1", by decide +kernel, by decide, by decide, by decide⟩
  ten := by omega
  quantity := .inl (by decide +kernel)
  wide := by omega
  high := by omega
  width := .inr ⟨str "2", by decide +kernel, .inl ⟨2, ⟨by decide, by decide, by decide⟩, rfl⟩⟩
  height := .inr ⟨str "1", by decide +kernel, .inl ⟨1, ⟨by decide, by decide, by decide⟩, rfl⟩⟩
  path := by decide
  short := by decide +kernel

example {F : Type} (fl : Floats F) : ∃ f : NcImage F,
    db1ToNetcdf fl someFiles ⟨fun _ y mo d h mi s => Datetime.mktimeUTC y mo d h mi s - 3600, -3600, 7, fun _ => true⟩ [str "data", str "IR_108"] =
      .ok ⟨0, some (str "MSG1_IR_108_01-01-2000_00-00-00.000.nc", f)⟩ ∧ f.samples = [1, 0, 0, 0] ∧ f.seconds = 0 := by
  have e : startOf aDb = startText 2000 1 1 0 0 0 ++ str ".000" := by decide +kernel
  obtain ⟨f, e1, e2, _, e4, _⟩ := C92_netcdf_partial fl someFiles aDb _ _ 9 1 2 1 aDb_exportable
    ⟨fun _ y mo d h mi s => Datetime.mktimeUTC y mo d h mi s - 3600, -3600, 7, fun _ => true⟩ 2000 1 1 0 0 0 (str ".000") (by omega) (by unfold Spec.ValidDate; decide) (by omega)
    e (by decide) (fun _ => rfl) (fun _ => rfl)
  have en : exportName (satelliteOf aDb) (str "IR_108") (startOf aDb) (str "nc") = str "MSG1_IR_108_01-01-2000_00-00-00.000.nc" := by
    decide +kernel
  rw [en] at e1
  exact ⟨f, e1, e2.samples, by rw [e4]; decide⟩

end Msat.Props
