import Verif.Props.C50_C51
import Verif.Props.C65_C66
import Verif.Props.C92
import Verif.Lemmas.Outcome
import Verif.Model.OpenMtpTools
import Verif.Spec.OpenMtpTools
import Mathlib.Analysis.Complex.ExponentialBounds
import Verif.Props.C01_C02

/-
C98 OpenMTP_to_NetCDF and OpenMTP_info.
-/
namespace Msat.Props
open Msat Mtp MtpSpec
open Msat.MtpToolsSpec (text code satelliteName At Calibrated Radiates)
open Msat.MtpTools (World toNetcdf info NcImage Run)
open Msat.TextSpec (digits Numeral value)
open Msat.DatetimeSpec (stamp since2000 Fits)
open Msat.Text (fmt0 fmt0_digits)

/-! ### What is read -/

/-- What is known of a file whose header has been read. -/
structure MtpHead (file : Bytes) (p : Product) : Prop where
  reads : Mtp.read Product.new file = .ok p
  size : p.header.length = 192999
  bytes : ∀ i < 5175, p.header[i]? = file[1345 + i]?
  long : 1345 + 5175 ≤ file.length

theorem mtp_head {file : Bytes} {p : Product} (e : Mtp.read Product.new file = .ok p) : MtpHead file p := by
  have h0 := imageStart_ge file
  have hlen : imageStart file ≤ file.length := by
    by_contra h
    have := (read_spec Product.new file).2 (by omega)
    rw [this] at e
    cases e
  have e0 := e
  obtain ⟨a1, _⟩ := asciiRead_spec file
  obtain ⟨ascii, a1⟩ := a1 (by omega)
  obtain ⟨b1, _⟩ := binaryRead_spec (file.drop 1345)
  have ht := third_eq (file := file) (by omega)
  obtain ⟨header, c1, c2, c3⟩ := b1 (by rw [List.length_drop]; omega)
  unfold Mtp.read at e
  rw [a1, Outcome.ok_bind] at e
  dsimp only at e
  rw [c1, Outcome.ok_bind] at e
  dsimp only at e
  obtain ⟨⟨q, f⟩, hq, e⟩ := Outcome.of_bind_ok e
  have : p.header = header := by
    unfold imageRead at hq
    obtain ⟨im, _, hq⟩ := Outcome.of_bind_ok hq
    obtain ⟨⟨x, y, z⟩, _, hq⟩ := Outcome.of_bind_ok hq
    have h1 : q = ⟨header, some x, y⟩ := (congrArg Prod.fst (Outcome.ok.inj hq)).symm
    have h2 : q = p := Outcome.ok.inj e
    rw [← h2, h1]
  refine ⟨e0, by rw [this]; exact c2, fun i hi => ?_, by omega⟩
  rw [this, c3 i hi, List.getElem?_drop]

theorem MtpHead.int4_eq {file : Bytes} {p : Product} (r : MtpHead file p) {off : Nat}
    (ho : off + 4 ≤ 5175) : int4 p.header off = field file (1345 + off) :=
  header_field (fun i hi => by rw [r.bytes i hi, List.getElem?_drop]) r.long ho

theorem MtpHead.slice {file : Bytes} {p : Product} (r : MtpHead file p) {off n : Nat}
    (ho : off + n ≤ 5175) : (p.header.drop off).take n = (file.drop (1345 + off)).take n := by
  refine List.ext_getElem? fun i => ?_
  rw [List.getElem?_take, List.getElem?_take]
  split
  · rw [List.getElem?_drop, List.getElem?_drop, r.bytes _ (by omega), Nat.add_assoc]
  · rfl

theorem MtpHead.textAt_eq {file : Bytes} {p : Product} (r : MtpHead file p) {off n : Nat}
    (ho : off + n ≤ 5175) : MtpTools.textAt p.header off n = text file off n := by
  unfold MtpTools.textAt MtpToolsSpec.text
  rw [r.slice ho]

/-- The channel of the header is that of the file. -/
theorem MtpHead.channel {file : Bytes} {p : Product} (r : MtpHead file p) :
    isVisData p.header = decide (1 ≤ code file ∧ code file ≤ 3) ∧
    isIrData p.header = decide (code file = 4 ∨ code file = 5) ∧
    isWvData p.header = decide (code file = 6 ∨ code file = 7) ∧
    isVisibleComposite p.header = decide (code file = 3) := by
  unfold isVisData isIrData isWvData isVISsData isVISnData isIr1Data isIr2Data isWv1Data isWv2Data isVisibleComposite
  rw [r.int4_eq (by decide)]
  unfold code
  generalize Msat.MtpSpec.field file (1345 + 40) = c
  refine ⟨?_, ?_, ?_, ?_⟩ <;> rw [Bool.eq_iff_iff] <;>
    simp only [Bool.or_eq_true, beq_iff_eq, decide_eq_true_eq]
  omega

theorem MtpHead.formats {file : Bytes} {p : Product} (r : MtpHead file p) :
    (isAFormat p.header = true ↔ FullDisk (code file) (lineCount file) (pixelCount file)) ∧
    (isBFormat p.header = true ↔ FormatB (code file) (lineCount file) (pixelCount file) (MtpToolsSpec.firstLine file)) := by
  obtain ⟨h1, h2, h3, h4⟩ := r.channel
  unfold isAFormat isBFormat
  unfold nlines npixels Mtp.firstLine
  rw [h2, h3, h4, r.int4_eq (by decide), r.int4_eq (by decide), r.int4_eq (by decide)]
  unfold lineCount pixelCount MtpToolsSpec.firstLine FullDisk FormatB
  generalize Msat.MtpSpec.field file _ = a
  generalize Msat.MtpSpec.field file _ = b
  generalize Msat.MtpSpec.field file _ = c
  generalize code file = d
  simp only [Bool.if_true_left, Bool.if_false_right, Bool.and_true, Bool.or_eq_true, Bool.and_eq_true, beq_iff_eq, decide_eq_true_eq]
  constructor <;> constructor <;> intro h <;> omega

/-- Format A or B. -/
def Exportable98 (file : Bytes) : Prop :=
  FullDisk (code file) (lineCount file) (pixelCount file) ∨
  FormatB (code file) (lineCount file) (pixelCount file) (MtpToolsSpec.firstLine file)

theorem exportable_sensible {file : Bytes} (h : Exportable98 file) : Sensible file := by
  unfold Exportable98 FullDisk FormatB at h
  unfold Sensible
  rcases h with (h | h) | (h | h)
  · obtain ⟨_, _, h1, h2⟩ := h; rw [h1, h2]; decide
  · obtain ⟨_, h1, h2⟩ := h; rw [h1, h2]; decide
  · obtain ⟨_, _, h1, h2, _⟩ := h; rw [h1, h2]; decide
  · obtain ⟨_, h1, h2, _⟩ := h; rw [h1, h2]; decide

/-- Where images of each format are. -/
def placed98 (file : Bytes) : MtpTools.Placement :=
  if lineCount file = 2500 then ⟨str "AFormat", -9102222, -9102222, 1248, 1249, 1⟩
  else if lineCount file = 5000 then ⟨str "AFormat", -18204444, -18204444, 2500, 2500, 1⟩
  else ⟨str "BFormat", -18204444, -18204444, 1248, -1118, 2⟩

theorem placement_ok {file : Bytes} {p : Product} (r : MtpHead file p) (h : Exportable98 file) :
    MtpTools.placement p.header = .ok (placed98 file) := by
  obtain ⟨h1, h2, h3, h4⟩ := r.channel
  obtain ⟨f1, f2⟩ := r.formats
  unfold MtpTools.placement placed98
  rcases h with h | h
  · rw [if_pos (f1.2 h), h1, h2, h3]
    rcases h with ⟨a, b, c, _⟩ | ⟨a, c, _⟩
    · rw [if_pos (by simp only [Bool.or_eq_true, decide_eq_true_eq]; omega), if_pos c]
    · rw [if_neg (by simp only [Bool.or_eq_true, decide_eq_true_eq]; omega),
        if_pos (by simp only [decide_eq_true_eq]; omega), if_neg (by omega), if_pos c]
  · have hn : ¬ isAFormat p.header = true := by
      rw [f1]
      unfold FullDisk FormatB at *
      omega
    rw [if_neg hn, if_pos (f2.2 h)]
    unfold FormatB at h
    rw [if_neg (by omega), if_neg (by omega)]

theorem placement_of {file : Bytes} {p : Product} {a : MtpTools.Placement} (r : MtpHead file p)
    (h : MtpTools.placement p.header = .ok a) : Exportable98 file := by
  obtain ⟨f1, f2⟩ := r.formats
  unfold MtpTools.placement at h
  by_cases hA : isAFormat p.header = true
  · exact .inl (f1.1 hA)
  · rw [if_neg hA] at h
    by_cases hB : isBFormat p.header = true
    · exact .inr (f2.1 hB)
    · rw [if_neg hB] at h
      cases h

/-! ### What is written -/

theorem weighted_ok : ∀ (ws : List Rat) (cs : Bytes), ws.length ≤ cs.length → ∃ r, Mtp.weighted ws cs = .ok r
  | [], _, _ => ⟨0, rfl⟩
  | w :: ws, [], h => by simp at h
  | w :: ws, c :: cs, h => by
    obtain ⟨r, hr⟩ := weighted_ok ws cs (by simpa using h)
    exact ⟨Mtp.digit c * w + r, by unfold Mtp.weighted; rw [hr]; rfl⟩

theorem calibration98_ok {file : Bytes} {p : Product} (r : MtpHead file p) : ∃ cal, MtpTools.calibration p.header = .ok cal := by
  unfold MtpTools.calibration
  split
  · exact ⟨_, rfl⟩
  · obtain ⟨a, ha⟩ := weighted_ok [1/10, 1/100, 1/1000, 1/10000, 1/100000] (p.header.drop 44)
      (by rw [List.length_drop, r.size]; decide)
    obtain ⟨b, hb⟩ := weighted_ok [10, 1, 1/10] (p.header.drop 49) (by rw [List.length_drop, r.size]; decide)
    have ha' : MtpTools.calibrationCoefficient p.header = .ok a := ha
    have hb' : MtpTools.spaceCount p.header = .ok b := hb
    rw [ha', Outcome.ok_bind, hb', Outcome.ok_bind]
    split
    · exact ⟨_, rfl⟩
    · split
      · exact ⟨_, rfl⟩
      · split <;> exact ⟨_, rfl⟩

/-- What the parts of an exported image are. -/
structure Parts98 (w : World) (p : Product) (f : NcImage) (a : MtpTools.Placement) (image : Bytes) : Prop where
  satellite : MtpTools.satelliteName p.header = .ok f.satellite
  time : f.time = MtpTools.timeText (getDatetime p.header)
  place : MtpTools.placement p.header = .ok a
  title : f.title = str "OpenMTP " ++ MtpTools.fieldName p.header ++ str " product for " ++ MtpTools.timeText (getDatetime p.header)
  cal : MtpTools.calibration p.header = .ok f.calibration.2
  name : getChname p.header = .ok f.variable_
  unit : getChunit p.header = .ok f.units
  stored : p.image = some image
  samples : f.samples = image.map MtpTools.ncbyte
  attributes : f.areaName = a.area ∧ f.projection = str "GEOS(0.0)" ∧ f.columns = npixels p.header * a.scale ∧
    f.lines = nlines p.header * a.scale ∧ f.sampleX = a.scale ∧ f.sampleY = a.scale ∧ f.columnScaleFactor = a.cfac ∧
    f.lineScaleFactor = a.lfac ∧ f.columnOffset = a.coff ∧ f.lineOffset = a.loff ∧
    f.longitude = MtpTools.subsatellitePoint p.header ∧ f.lineDim = nlines p.header ∧ f.columnDim = npixels p.header ∧
    f.calibration.1 = 256
  seconds : f.seconds = w.mktime ((getDatetime p.header).tm_year + 1900) ((getDatetime p.header).tm_mon + 1)
    (getDatetime p.header).tm_mday (getDatetime p.header).tm_hour (getDatetime p.header).tm_min - 946684800 - w.timezone

theorem sprintf_of {n : Nat} {t r : Bytes} (h : MtpTools.sprintf n t = .ok r) : r = t := by
  unfold MtpTools.sprintf at h
  split at h
  · exact (Outcome.ok.inj h).symm
  · cases h

theorem parts98 {w : World} {p : Product} {f : NcImage} (h : MtpTools.content w p = .ok f) :
    ∃ a image, Parts98 w p f a image := by
  unfold MtpTools.content at h
  obtain ⟨sat, h1, h⟩ := Outcome.of_bind_ok h
  obtain ⟨reftime, h2, h⟩ := Outcome.of_bind_ok h
  obtain ⟨a, h3, h⟩ := Outcome.of_bind_ok h
  obtain ⟨title, h4, h⟩ := Outcome.of_bind_ok h
  obtain ⟨cal, h5, h⟩ := Outcome.of_bind_ok h
  obtain ⟨name, h6, h⟩ := Outcome.of_bind_ok h
  obtain ⟨unit, h7, h⟩ := Outcome.of_bind_ok h
  cases hi : p.image with
  | none => rw [hi] at h; cases h
  | some image =>
    rw [hi] at h
    have h := Outcome.ok.inj h
    subst h
    exact ⟨a, image, h1, sprintf_of h2, h3, sprintf_of h4, h5, h6, h7, hi, rfl,
      ⟨rfl, rfl, rfl, rfl, rfl, rfl, rfl, rfl, rfl, rfl, rfl, rfl, rfl, rfl⟩, rfl⟩

theorem export_of {w : World} {p : Product} {f : NcImage} (h : (MtpTools.export_ w p).file = some f) :
    MtpTools.content w p = .ok f ∧ (MtpTools.export_ w p).created = some (MtpTools.ncName p.header) ∧
    w.creates (MtpTools.ncName p.header) = true := by
  unfold MtpTools.export_ at h ⊢
  dsimp only at h ⊢
  cases hc : w.creates (MtpTools.ncName p.header) with
  | false => rw [if_pos hc] at h; cases h
  | true =>
    rw [hc, if_neg (by decide)] at h
    rw [if_neg (by decide)]
    cases hk : MtpTools.content w p with
    | ok g =>
      rw [hk] at h
      exact ⟨by rw [Option.some.inj h], rfl, rfl⟩
    | throws _ => rw [hk] at h; cases h
    | ub => rw [hk] at h; cases h
    | terminate => rw [hk] at h; cases h
    | diverges => rw [hk] at h; cases h

theorem toNetcdf_of {w : World} {args : List Bytes} {f : NcImage} {file : Bytes} (hi : w.input = some file)
    (h : (toNetcdf w args).file = some f) :
    ∃ p, MtpHead file p ∧ MtpTools.content w p = .ok f ∧ (toNetcdf w args).created = some (MtpTools.ncName p.header) ∧
      (toNetcdf w args).status = .ub := by
  unfold toNetcdf at h ⊢
  match args, h with
  | [], h => cases h
  | a :: as, h =>
    dsimp only at h ⊢
    by_cases hv : a = str "-V"
    · rw [if_pos hv] at h; cases h
    · rw [if_neg hv] at h ⊢
      have ho : MtpTools.openFile w = MtpTools.uncaught (Mtp.read Product.new file) := by
        unfold MtpTools.openFile
        rw [hi]
      rw [ho] at h ⊢
      cases hr : Mtp.read Product.new file with
      | ok p =>
        rw [hr] at h
        have h : (MtpTools.export_ w p).file = some f := h
        obtain ⟨c1, c2, c3⟩ := export_of h
        refine ⟨p, mtp_head hr, c1, c2, ?_⟩
        show (MtpTools.export_ w p).status = .ub
        obtain ⟨_, image, parts⟩ := parts98 c1
        unfold MtpTools.export_
        dsimp only
        rw [if_neg (by rw [c3]; decide), c1]
        show (MtpTools.release p >>= _) = _
        unfold MtpTools.release
        rw [parts.stored]
        rfl
      | throws _ => rw [hr] at h; cases h
      | ub => rw [hr] at h; cases h
      | terminate => rw [hr] at h; cases h
      | diverges => rw [hr] at h; cases h

/-! ### Times -/

theorem tells98 {file : Bytes} {p : Product} (r : MtpHead file p) {y mo d h mi : Nat} (ht : At file y mo d h mi) :
    ∃ b, TellsTime p.header y b mo d h mi := by
  obtain ⟨h1, ⟨b, h2⟩, h3, h4, h5, h6, h7⟩ := ht
  have v5 : Spec.daysInMonth y mo ≤ 31 := by
    unfold Spec.daysInMonth
    split <;> (try split) <;> decide
  obtain ⟨v1, v2, v3, v4⟩ := h4
  have e : ∀ off, off + 4 ≤ 5175 → field p.header off = field file (1345 + off) := by
    intro off ho
    rw [← int4_field (by rw [r.size]; omega), r.int4_eq ho]
  exact ⟨b, r.size, by rw [e _ (by decide), h1], by rw [e _ (by decide), h2], by rw [e _ (by decide), h3], ⟨v1, v2⟩,
    ⟨v3, by omega⟩, h6, h7⟩

theorem fits98 {file : Bytes} {y mo d h mi : Nat} (ht : At file y mo d h mi) : Fits y mo d h mi 0 := by
  obtain ⟨h1, -, h3, h4, h5, h6, h7⟩ := ht
  have v5 : Spec.daysInMonth y mo ≤ 31 := by
    unfold Spec.daysInMonth
    split <;> (try split) <;> decide
  obtain ⟨v1, v2, v3, v4⟩ := h4
  exact ⟨by omega, by omega, by omega, by omega, by omega, by omega⟩

theorem timeText98 {file : Bytes} {p : Product} (r : MtpHead file p) {y mo d h mi : Nat} (ht : At file y mo d h mi) :
    MtpTools.timeText (getDatetime p.header) = stamp y mo d h mi 0 ++ str " UTC" := by
  obtain ⟨b, t⟩ := tells98 r ht
  rw [C65_datetime p.header y b mo d h mi t]
  unfold MtpTools.timeText
  dsimp only
  rw [← time_text (fits98 ht), show (y : Int) - 1900 + 1900 = y by omega, show (mo : Int) - 1 + 1 = mo by omega,
    show fmt0 2 ((0 : Nat) : Int) = str "00" by decide +kernel]
  simp only [List.append_assoc]
  rfl

theorem stamp_length (y mo d h mi s : Nat) : (stamp y mo d h mi s).length = 19 := by
  unfold stamp
  simp only [List.length_append, Text.digits_length, List.length_cons, List.length_nil]

theorem text_length (file : Bytes) (off n : Nat) : (text file off n).length ≤ n := by
  unfold text
  refine (List.takeWhile_prefix _).length_le.trans ?_
  rw [List.length_take]
  omega

theorem satellite98 {file : Bytes} {p : Product} (r : MtpHead file p) (s : Bytes) :
    MtpTools.satelliteName p.header = .ok s ↔ satelliteName (text file 32 2) = some s := by
  unfold MtpTools.satelliteName MtpTools.satelliteCode satelliteName
  rw [r.textAt_eq (by decide)]
  split
  · exact ⟨fun h => by rw [Outcome.ok.inj h], fun h => by rw [Option.some.inj h]⟩
  · split
    · exact ⟨fun h => by rw [Outcome.ok.inj h], fun h => by rw [Option.some.inj h]⟩
    · exact ⟨fun h => (nomatch h), fun h => (nomatch h)⟩

theorem chname98 {file : Bytes} {p : Product} (r : MtpHead file p) (n : String) :
    (getChname p.header = .ok n ↔ channelName (code file) = some n) ∧
    (getChunit p.header = .ok n ↔ channelUnit (code file) = some n) := by
  obtain ⟨h1, h2, h3, -⟩ := r.channel
  unfold getChname getChunit
  rw [h1, h2, h3]
  unfold channelUnit channelName
  simp only [decide_eq_true_eq]
  by_cases a1 : 1 ≤ code file ∧ code file ≤ 3
  · simp only [if_pos a1]
    exact ⟨⟨fun h => by rw [Outcome.ok.inj h], fun h => by rw [Option.some.inj h]⟩,
      ⟨fun h => by rw [Outcome.ok.inj h], fun h => by rw [Option.some.inj h]⟩⟩
  · simp only [if_neg a1]
    by_cases a2 : code file = 4 ∨ code file = 5
    · simp only [if_pos a2]
      exact ⟨⟨fun h => by rw [Outcome.ok.inj h], fun h => by rw [Option.some.inj h]⟩,
        ⟨fun h => by rw [Outcome.ok.inj h]; rfl, fun h => by rw [← Option.some.inj h]⟩⟩
    · simp only [if_neg a2]
      by_cases a3 : code file = 6 ∨ code file = 7
      · simp only [if_pos a3]
        exact ⟨⟨fun h => by rw [Outcome.ok.inj h], fun h => by rw [Option.some.inj h]⟩,
          ⟨fun h => by rw [Outcome.ok.inj h]; rfl, fun h => by rw [← Option.some.inj h]⟩⟩
      · simp only [if_neg a3]
        exact ⟨⟨fun h => (nomatch h), fun h => (nomatch h)⟩, ⟨fun h => (nomatch h), fun h => (nomatch h)⟩⟩

theorem exportable_channel {file : Bytes} (h : Exportable98 file) :
    ∃ n u, channelName (code file) = some n ∧ channelUnit (code file) = some u := by
  have : 3 ≤ code file ∧ code file ≤ 7 := by
    unfold Exportable98 FullDisk FormatB at h
    omega
  unfold channelUnit channelName
  by_cases a1 : 1 ≤ code file ∧ code file ≤ 3
  · simp only [if_pos a1]; exact ⟨_, _, rfl, rfl⟩
  · simp only [if_neg a1]
    by_cases a2 : code file = 4 ∨ code file = 5
    · simp only [if_pos a2]; exact ⟨_, _, rfl, rfl⟩
    · simp only [if_neg a2]
      rw [if_pos (by omega)]
      exact ⟨_, _, rfl, rfl⟩

/-! ### The property -/

theorem toNetcdf_open {w : World} {arg : Bytes} {rest : List Bytes} {file : Bytes} {p : Product} (hw : w.input = some file)
    (ha : arg ≠ str "-V") (e : Mtp.read Product.new file = .ok p) :
    toNetcdf w (arg :: rest) = MtpTools.export_ w p := by
  unfold toNetcdf
  dsimp only
  rw [if_neg ha]
  have : MtpTools.openFile w = .ok p := by
    unfold MtpTools.openFile
    rw [hw]
    show MtpTools.uncaught (Mtp.read Product.new file) = _
    rw [e]
    rfl
  rw [this]

/-- OpenMTP_to_NetCDF exports a complete file of format A or B of Meteosat 6 or 7 with a valid date.  Missing for the full
property: that the program then ends with status 0 (`C98_violated_release`). -/
theorem C98_exports_partial (w : World) (arg : Bytes) (rest : List Bytes) (file : Bytes) (y mo d h mi : Nat)
    (hw : w.input = some file) (ha : arg ≠ str "-V") (hc : Complete file) (hf : Exportable98 file)
    (hsat : (satelliteName (text file 32 2)).isSome) (ht : At file y mo d h mi) (hn : ∀ name, w.creates name = true) :
    ∃ f, (toNetcdf w (arg :: rest)).file = some f := by
  obtain ⟨p, image, e, hi, -⟩ := (read_new file (exportable_sensible hf)).1 hc
  have r := mtp_head e
  obtain ⟨cal, hcal⟩ := calibration98_ok r
  obtain ⟨s, hs⟩ := Option.isSome_iff_exists.1 hsat
  obtain ⟨n, u, hn', hu⟩ := exportable_channel hf
  have h1 := (satellite98 r s).2 hs
  have h2 := timeText98 r ht
  have h3 := placement_ok r hf
  have h4 := ((chname98 r n).1).2 hn'
  have h5 := ((chname98 r u).2).2 hu
  have hk : ∃ f, MtpTools.content w p = .ok f := by
    unfold MtpTools.content
    dsimp only
    rw [h1, Outcome.ok_bind, h2]
    unfold MtpTools.sprintf
    rw [if_pos (by rw [List.length_append, stamp_length]; decide), Outcome.ok_bind, h3, Outcome.ok_bind]
    have hl : (str "OpenMTP " ++ MtpTools.fieldName p.header ++ str " product for " ++ (stamp y mo d h mi 0 ++ str " UTC")).length < 64 := by
      have : (MtpTools.fieldName p.header).length ≤ 7 := by
        unfold MtpTools.fieldName
        rw [r.textAt_eq (by decide)]
        exact text_length _ _ _
      rw [List.length_append, List.length_append, List.length_append, List.length_append, stamp_length]
      have e1 : (str "OpenMTP ").length = 8 := by decide
      have e2 : (str " product for ").length = 13 := by decide
      have e3 : (str " UTC").length = 4 := by decide
      omega
    rw [if_pos hl, Outcome.ok_bind, hcal, Outcome.ok_bind, h4, Outcome.ok_bind, h5, Outcome.ok_bind, hi]
    exact ⟨_, rfl⟩
  obtain ⟨f, hk⟩ := hk
  rw [toNetcdf_open hw ha e]
  unfold MtpTools.export_
  dsimp only
  rw [if_neg (by rw [hn]; decide), hk]
  exact ⟨f, rfl⟩

/-- Whatever OpenMTP_to_NetCDF exports is of format A or B; the dimensions are those of the file, satellite, variable and unit
those of its header, and the samples its pixels as signed bytes: the same number up to 127, and 256 less from 128 on. -/
theorem C98_content (w : World) (args : List Bytes) (file : Bytes) (f : NcImage) (hw : w.input = some file)
    (hf : (toNetcdf w args).file = some f) :
    Exportable98 file ∧ satelliteName (text file 32 2) = some f.satellite ∧ channelName (code file) = some f.variable_ ∧
    channelUnit (code file) = some f.units ∧ f.lineDim = lineCount file ∧ f.columnDim = pixelCount file ∧
    f.samples.length = (lineCount file).toNat * (pixelCount file).toNat ∧
    ∀ i < (lineCount file).toNat, ∀ j < (pixelCount file).toNat, ∃ v, pixel file i j = some v ∧
      f.samples[i * (pixelCount file).toNat + j]? = some (if v.toNat ≤ 127 then (v.toNat : Int) else (v.toNat : Int) - 256) := by
  obtain ⟨p, r, c, -, -⟩ := toNetcdf_of hw hf
  obtain ⟨a, image, q⟩ := parts98 c
  have hx := placement_of r q.place
  have hs := exportable_sensible hx
  have hcomplete : Complete file := by
    by_contra hn
    exact C64_truncated file hs hn p r.reads
  obtain ⟨p', image', e', hi', hl', hp'⟩ := C64_pixels file hs hcomplete
  obtain rfl : p = p' := by
    have := r.reads
    rw [e'] at this
    exact (Outcome.ok.inj this).symm
  obtain rfl : image = image' := by
    have := q.stored
    rw [hi'] at this
    exact (Option.some.inj this).symm
  obtain ⟨-, -, -, -, -, -, -, -, -, -, -, d1, d2, -⟩ := q.attributes
  refine ⟨hx, (satellite98 r _).1 q.satellite, ((chname98 r _).1).1 q.name, ((chname98 r _).2).1 q.unit, ?_, ?_, ?_,
    fun i hi j hj => ?_⟩
  · rw [d1]; exact r.int4_eq (by decide)
  · rw [d2]; exact r.int4_eq (by decide)
  · rw [q.samples, List.length_map, hl']
  · obtain ⟨v, v1, v2⟩ := hp' i hi j hj
    refine ⟨v, v2, ?_⟩
    rw [q.samples, List.getElem?_map, v1]
    unfold MtpTools.ncbyte
    by_cases hv : v.toNat < 128
    · simp only [Option.map_some, if_pos hv, if_pos (show v.toNat ≤ 127 by omega)]
    · simp only [Option.map_some, if_neg hv, if_neg (show ¬ v.toNat ≤ 127 by omega)]

/-- The name of the NetCDF file, its time, its title and the seconds since 2000 tell the date and time of the header, if
`mktime` takes local time for one with the difference `timezone` from UTC. -/
theorem C98_times (w : World) (args : List Bytes) (file : Bytes) (f : NcImage) (y mo d h mi : Nat) (hw : w.input = some file)
    (hf : (toNetcdf w args).file = some f) (ht : At file y mo d h mi)
    (hm : w.mktime y mo d h mi = Datetime.mktimeUTC y mo d h mi 0 + w.timezone) :
    (toNetcdf w args).created = some (text file 32 2 ++ str "_" ++ text file 1 7 ++ str "_" ++
      (digits 4 y ++ digits 2 mo ++ digits 2 d ++ str "_" ++ digits 2 h ++ digits 2 mi) ++ str ".nc") ∧
    f.time = stamp y mo d h mi 0 ++ str " UTC" ∧
    f.title = str "OpenMTP " ++ text file 1 7 ++ str " product for " ++ (stamp y mo d h mi 0 ++ str " UTC") ∧
    f.seconds = since2000 y mo d h mi 0 := by
  obtain ⟨p, r, c, hn, -⟩ := toNetcdf_of hw hf
  obtain ⟨a, image, q⟩ := parts98 c
  obtain ⟨b, t⟩ := tells98 r ht
  refine ⟨?_, ?_, ?_, ?_⟩
  · rw [hn]
    unfold MtpTools.ncName MtpTools.satelliteCode MtpTools.fieldName
    rw [r.textAt_eq (by decide), r.textAt_eq (by decide), C65_timestr p.header y b mo d h mi t (by have := ht.years; omega)]
    rfl
  · rw [q.time, timeText98 r ht]
  · rw [q.title, timeText98 r ht]
    unfold MtpTools.fieldName
    rw [r.textAt_eq (by decide)]
  · rw [q.seconds, C65_datetime p.header y b mo d h mi t]
    dsimp only
    rw [show (y : Int) - 1900 + 1900 = y by omega, show (mo : Int) - 1 + 1 = mo by omega, hm]
    have : Datetime.mktimeUTC y mo d h mi 0 - 946684800 = since2000 y mo d h mi 0 :=
      utc_seconds (s := 0) ht.years ht.valid ht.hour ht.minute
    rw [← this]
    omega

/-- Where the export says that the image is: the full disk with its own columns and lines, the B format with twice as many
(it is described as every second column and line of a grid twice as fine), and the longitude of the header. -/
theorem C98_place (w : World) (args : List Bytes) (file : Bytes) (f : NcImage) (hw : w.input = some file)
    (hf : (toNetcdf w args).file = some f) :
    f.longitude = BitVec.ofNat 32 (Spec.beVal ((file.drop (1345 + 95)).take 4)) ∧
    (FullDisk (code file) (lineCount file) (pixelCount file) → f.areaName = str "AFormat" ∧ f.columns = pixelCount file ∧
      f.lines = lineCount file ∧ f.sampleX = 1 ∧ f.sampleY = 1 ∧
      ((4 ≤ code file ∧ f.columnScaleFactor = -9102222 ∧ f.lineScaleFactor = -9102222 ∧ f.columnOffset = 1248 ∧ f.lineOffset = 1249) ∨
       (code file = 3 ∧ f.columnScaleFactor = -18204444 ∧ f.lineScaleFactor = -18204444 ∧ f.columnOffset = 2500 ∧
        f.lineOffset = 2500))) ∧
    (FormatB (code file) (lineCount file) (pixelCount file) (MtpToolsSpec.firstLine file) → f.areaName = str "BFormat" ∧
      f.columns = 2 * pixelCount file ∧ f.lines = 2 * lineCount file ∧ f.sampleX = 2 ∧ f.sampleY = 2 ∧
      f.columnScaleFactor = -18204444 ∧ f.lineScaleFactor = -18204444 ∧ f.columnOffset = 1248 ∧ f.lineOffset = -1118) := by
  obtain ⟨p, r, c, -, -⟩ := toNetcdf_of hw hf
  obtain ⟨a, image, q⟩ := parts98 c
  have hx := placement_of r q.place
  have ha : a = placed98 file := by
    have := q.place
    rw [placement_ok r hx] at this
    exact (Outcome.ok.inj this).symm
  obtain ⟨q1, -, q2, q3, q4, q5, q6, q7, q8, q9, q10, -⟩ := q.attributes
  have n1 : nlines p.header = lineCount file := r.int4_eq (by decide)
  have n2 : npixels p.header = pixelCount file := r.int4_eq (by decide)
  rw [n2] at q2
  rw [n1] at q3
  refine ⟨?_, fun h => ?_, fun h => ?_⟩
  · rw [q10]
    unfold MtpTools.subsatellitePoint
    rw [← r.slice (by decide), take_four (by rw [r.size]; decide)]
    have e := getUI4_eq .little (p.header.getD 95 0) (p.header.getD 96 0) (p.header.getD 97 0) (p.header.getD 98 0)
    rw [chk_little] at e
    exact congrArg (BitVec.ofNat 32) e
  · rcases h with ⟨h1, h2, h3, h4⟩ | ⟨h1, h3, h4⟩
    · have : placed98 file = ⟨str "AFormat", -9102222, -9102222, 1248, 1249, 1⟩ := by
        unfold placed98; rw [if_pos h3]
      rw [ha, this] at q1 q2 q3 q4 q5 q6 q7 q8 q9
      exact ⟨q1, by rw [q2, Int.mul_one], by rw [q3, Int.mul_one], q4, q5, .inl ⟨h1, q6, q7, q8, q9⟩⟩
    · have : placed98 file = ⟨str "AFormat", -18204444, -18204444, 2500, 2500, 1⟩ := by
        unfold placed98; rw [if_neg (by omega), if_pos h3]
      rw [ha, this] at q1 q2 q3 q4 q5 q6 q7 q8 q9
      exact ⟨q1, by rw [q2, Int.mul_one], by rw [q3, Int.mul_one], q4, q5, .inr ⟨h1, q6, q7, q8, q9⟩⟩
  · have : placed98 file = ⟨str "BFormat", -18204444, -18204444, 1248, -1118, 2⟩ := by
      unfold FormatB at h
      unfold placed98; rw [if_neg (by omega), if_neg (by omega)]
    rw [ha, this] at q1 q2 q3 q4 q5 q6 q7 q8 q9
    exact ⟨q1, by rw [q2, Int.mul_comm], by rw [q3, Int.mul_comm], q4, q5, q6, q7, q8, q9⟩

/-! ### Calibration -/

theorem value_lt (bs : Bytes) (h : Numeral bs) : value bs < 10 ^ bs.length := by
  suffices ∀ (bs : Bytes) (n : Nat), Numeral bs →
      bs.foldl (fun a c => 10 * a + TextSpec.digitValue c) n < (n + 1) * 10 ^ bs.length by
    have := this bs 0 h; rw [Nat.zero_add, Nat.one_mul] at this; exact this
  intro bs
  induction bs with
  | nil => intro n _; simp
  | cons c cs ih =>
    intro n h
    have hc := (mtpDigit (h c (List.mem_cons_self ..))).2
    have := ih (10 * n + TextSpec.digitValue c) fun x hx => h x (List.mem_cons_of_mem _ hx)
    rw [List.foldl_cons, List.length_cons, pow_succ]
    refine lt_of_lt_of_le this ?_
    rw [mul_comm (10 ^ cs.length) 10, ← mul_assoc]
    exact Nat.mul_le_mul_right _ (by omega)

theorem temperature_spec (b a : ℝ) (hb : b < 0) (ha : 6 ≤ a) (cc sc : ℚ) (h1 : 0 ≤ cc) (h2 : cc < 1) (h3 : 0 ≤ sc) (c : Nat)
    (hc : c < 256) :
    ((c : ℚ) ≤ sc ∨ cc = 0 → MtpTools.temperature b a cc sc c = some 0) ∧
    (sc < (c : ℚ) → 0 < cc → ∃ t, MtpTools.temperature b a cc sc c = some t ∧ Radiates a b t ((cc : ℝ) * (c - sc))) := by
  unfold MtpTools.temperature
  refine ⟨fun h => ?_, fun h h0 => ?_⟩
  · have : (if (c : ℚ) < sc then (0 : ℝ) else ((cc * (c - sc) : ℚ) : ℝ)) = 0 := by
      split
      · rfl
      · rename_i hn
        rcases h with h | h
        · have : (c : ℚ) = sc := le_antisymm h (not_lt.1 hn)
          rw [this]; simp
        · rw [h]; simp
    dsimp only
    rw [this, if_pos rfl]
  · dsimp only
    rw [if_neg (not_lt.2 h.le)]
    have hr0 : (0 : ℚ) < cc * (c - sc) := mul_pos h0 (by linarith)
    have hr1 : cc * (c - sc) < 256 := by
      have e1 : (c : ℚ) < 256 := by exact_mod_cast hc
      have e2 : (c : ℚ) - sc < 256 := by linarith
      have e3 : (0 : ℚ) < c - sc := by linarith
      nlinarith
    have hr0' : (0 : ℝ) < ((cc * (c - sc) : ℚ) : ℝ) := by exact_mod_cast hr0
    have hr1' : ((cc * (c - sc) : ℚ) : ℝ) < 256 := by exact_mod_cast hr1
    have he : ((cc * (c - sc) : ℚ) : ℝ) = (cc : ℝ) * (c - sc) := by push_cast; ring
    rw [he] at hr0' hr1' ⊢
    have hlog : Real.log ((cc : ℝ) * (c - sc)) < 6 := by
      have l1 := Real.log_lt_log hr0' hr1'
      have l2 : Real.log (256 : ℝ) = 8 * Real.log 2 := by
        rw [show (256 : ℝ) = 2 ^ 8 by norm_num, Real.log_pow]; norm_num
      have l3 := Real.log_two_lt_d9
      linarith
    have hd : Real.log ((cc : ℝ) * (c - sc)) - a < 0 := by linarith
    rw [if_neg hr0'.ne', if_neg (not_lt.2 hr0'.le), if_neg hd.ne]
    refine ⟨_, rfl, div_pos_of_neg_of_neg hb hd, ?_⟩
    rw [div_div_cancel₀ hb.ne, add_sub_cancel, Real.exp_log hr0']

/-- The calibration of Meteosat 7: 256 values.  In an infrared or water vapour image the value of a count above that of space
is the temperature of a body that gives the radiance the header tells for the count, that of the other counts is zero; in a visible
image it is the count in per cent of the greatest one. -/
theorem C98_calibration (w : World) (args : List Bytes) (file : Bytes) (f : NcImage) (cc sc : ℝ) (hw : w.input = some file)
    (hf : (toNetcdf w args).file = some f) (h7 : text file 32 2 = str "M7") (hc : Calibrated file cc sc) :
    f.calibration.1 = 256 ∧ ∀ c : Nat, c < 256 →
      (code file = 4 ∨ code file = 5 → ((c : ℝ) ≤ sc ∨ cc = 0 → f.calibration.2 c = some 0) ∧
        (sc < c → 0 < cc → ∃ t, f.calibration.2 c = some t ∧ Radiates 6.9618 (-1255.5465) t (cc * (c - sc)))) ∧
      (code file = 6 ∨ code file = 7 → ((c : ℝ) ≤ sc ∨ cc = 0 → f.calibration.2 c = some 0) ∧
        (sc < c → 0 < cc → ∃ t, f.calibration.2 c = some t ∧ Radiates 9.2477 (-2233.4882) t (cc * (c - sc)))) ∧
      (1 ≤ code file ∧ code file ≤ 3 → ∃ v, f.calibration.2 c = some v ∧ 255 * v = 100 * c) := by
  obtain ⟨p, r, c, -, -⟩ := toNetcdf_of hw hf
  obtain ⟨a, image, q⟩ := parts98 c
  obtain ⟨-, -, -, -, -, -, -, -, -, -, -, -, -, q14⟩ := q.attributes
  have hcal := q.cal
  obtain ⟨n1, n2, n3⟩ := hc
  have hl : 52 + 1345 ≤ file.length := by have := r.long; omega
  have t5 : (file.drop (1345 + 44)).take 5 = ((file.drop (1345 + 44)).take 8).take 5 := by rw [List.take_take]; rfl
  have t3 : (file.drop (1345 + 49)).take 3 = ((file.drop (1345 + 44)).take 8).drop 5 := by
    rw [List.drop_take, List.drop_drop]
  have m5 : Numeral ((file.drop (1345 + 44)).take 5) := fun x hx => n1 x (List.mem_of_mem_take (by rw [← t5]; exact hx))
  have m3 : Numeral ((file.drop (1345 + 49)).take 3) := fun x hx => n1 x (List.mem_of_mem_drop (by rw [← t3]; exact hx))
  have l5 : ((file.drop (1345 + 44)).take 5).length = 5 := by rw [List.length_take, List.length_drop]; omega
  have l3 : ((file.drop (1345 + 49)).take 3).length = 3 := by rw [List.length_take, List.length_drop]; omega
  have v5 := value_lt _ m5
  rw [l5] at v5
  have e1 : MtpTools.calibrationCoefficient p.header = .ok (value ((file.drop (1345 + 44)).take 5) / 100000) := by
    have := (C66_openmtp ((file.drop (1345 + 44)).take 5) ((p.header.drop 44).drop 5) m5).1 l5
    rw [← r.slice (by decide), List.take_append_drop, r.slice (by decide)] at this
    exact this
  have e2 : MtpTools.spaceCount p.header = .ok (value ((file.drop (1345 + 49)).take 3) / 10) := by
    have := (C66_openmtp ((file.drop (1345 + 49)).take 3) ((p.header.drop 49).drop 3) m3).2.1 l3
    rw [← r.slice (by decide), List.take_append_drop, r.slice (by decide)] at this
    exact this
  generalize value ((file.drop (1345 + 44)).take 5) = x at *
  generalize value ((file.drop (1345 + 49)).take 3) = z at *
  have hx1 : (0 : ℚ) ≤ (x : ℚ) / 100000 := by positivity
  have hx2 : (x : ℚ) / 100000 < 1 := by
    rw [div_lt_one (by norm_num)]; exact_mod_cast v5
  have hz : (0 : ℚ) ≤ (z : ℚ) / 10 := by positivity
  have ec : cc = (((x : ℚ) / 100000 : ℚ) : ℝ) := by rw [n2]; push_cast; rfl
  have es : sc = (((z : ℚ) / 10 : ℚ) : ℝ) := by rw [n3]; push_cast; rfl
  unfold MtpTools.calibration MtpTools.satelliteCode at hcal
  rw [r.textAt_eq (by decide), h7, if_neg (by simp), e1, Outcome.ok_bind, e2, Outcome.ok_bind] at hcal
  obtain ⟨c1, c2, c3, -⟩ := r.channel
  rw [c1, c2, c3] at hcal
  simp only [decide_eq_true_eq] at hcal
  refine ⟨q14, fun k hk => ⟨fun h => ?_, fun h => ?_, fun h => ?_⟩⟩
  · rw [if_pos h] at hcal
    rw [← Outcome.ok.inj hcal, ec, es]
    obtain ⟨s1, s2⟩ := temperature_spec (-1255.5465) 6.9618 (by norm_num) (by norm_num) _ _ hx1 hx2 hz k hk
    exact ⟨fun h => s1 (by exact_mod_cast h), fun h h' => s2 (by exact_mod_cast h) (by exact_mod_cast h')⟩
  · rw [if_neg (by omega), if_pos h] at hcal
    rw [← Outcome.ok.inj hcal, ec, es]
    obtain ⟨s1, s2⟩ := temperature_spec (-2233.4882) 9.2477 (by norm_num) (by norm_num) _ _ hx1 hx2 hz k hk
    exact ⟨fun h => s1 (by exact_mod_cast h), fun h h' => s2 (by exact_mod_cast h) (by exact_mod_cast h')⟩
  · rw [if_neg (by omega), if_neg (by omega), if_pos h] at hcal
    rw [← Outcome.ok.inj hcal]
    refine ⟨_, rfl, ?_⟩
    ring

/-! ### What is wrong -/

/-- Every run that exports a file ends in undefined behaviour: the image is allocated by `new []` and released by `delete`. -/
theorem C98_violated_release (w : World) (args : List Bytes) (file : Bytes) (f : NcImage) (hw : w.input = some file)
    (hf : (toNetcdf w args).file = some f) : (toNetcdf w args).status = .ub := by
  obtain ⟨p, r, c, -, h⟩ := toNetcdf_of hw hf
  exact h

/-- OpenMTP_info, too, whenever it can print a file. -/
theorem C98_violated_info (w : World) (arg : Bytes) (rest : List Bytes) (file : Bytes) (hw : w.input = some file)
    (ha : arg ≠ str "-V") (hs : Sensible file) (hc : Complete file) : info w (arg :: rest) = .ub := by
  obtain ⟨p, image, e, hi, -⟩ := (read_new file hs).1 hc
  unfold info
  dsimp only
  rw [if_neg ha]
  have : MtpTools.openFile w = .ok p := by
    unfold MtpTools.openFile
    rw [hw]
    show MtpTools.uncaught (Mtp.read Product.new file) = _
    rw [e]
    rfl
  rw [this, Outcome.ok_bind]
  unfold MtpTools.release
  rw [hi]
  rfl

/-- A file that cannot be opened, or one that is cut short, does not give an error status: both programs are aborted. -/
theorem C98_violated_missing (w : World) (arg : Bytes) (rest : List Bytes) (ha : arg ≠ str "-V")
    (hw : w.input = none ∨ ∃ file, w.input = some file ∧ Sensible file ∧ ¬ Complete file) :
    toNetcdf w (arg :: rest) = ⟨.terminate, none, none⟩ ∧ info w (arg :: rest) = .terminate := by
  have : MtpTools.openFile w = .terminate := by
    unfold MtpTools.openFile
    rcases hw with hw | ⟨file, hw, hs, hc⟩
    · rw [hw]
    · rw [hw]
      show MtpTools.uncaught (Mtp.read Product.new file) = _
      rw [(read_new file hs).2 hc]
      rfl
  unfold toNetcdf info
  dsimp only
  rw [if_neg ha, if_neg ha, this]
  exact ⟨rfl, rfl⟩

/-- Files of other satellites and parts of the disk other than formats A and B: the program is aborted and leaves a NetCDF file
without an image. -/
theorem C98_violated_leftover (w : World) (arg : Bytes) (rest : List Bytes) (file : Bytes) (y mo d h mi : Nat)
    (hw : w.input = some file) (ha : arg ≠ str "-V") (hs : Sensible file) (hc : Complete file)
    (ht : At file y mo d h mi) (hn : ∀ name, w.creates name = true)
    (hbad : satelliteName (text file 32 2) = none ∨ ¬ Exportable98 file) :
    ∃ name, toNetcdf w (arg :: rest) = ⟨.terminate, some name, none⟩ := by
  obtain ⟨p, image, e, hi, -⟩ := (read_new file hs).1 hc
  have r := mtp_head e
  have hk : ∃ msg, MtpTools.content w p = .throws msg := by
    unfold MtpTools.content
    dsimp only
    cases hsat : MtpTools.satelliteName p.header with
    | throws m => exact ⟨m, rfl⟩
    | ok s =>
      rcases hbad with hbad | hbad
      · rw [(satellite98 r s).1 hsat] at hbad
        cases hbad
      · rw [Outcome.ok_bind, timeText98 r ht]
        unfold MtpTools.sprintf
        rw [if_pos (by rw [List.length_append, stamp_length]; decide), Outcome.ok_bind]
        unfold Exportable98 at hbad
        obtain ⟨f1, f2⟩ := r.formats
        unfold MtpTools.placement
        rw [if_neg (fun h => hbad (.inl (f1.1 h))), if_neg (fun h => hbad (.inr (f2.1 h)))]
        exact ⟨_, rfl⟩
    | ub => unfold MtpTools.satelliteName at hsat; split at hsat <;> (try split at hsat) <;> cases hsat
    | terminate => unfold MtpTools.satelliteName at hsat; split at hsat <;> (try split at hsat) <;> cases hsat
    | diverges => unfold MtpTools.satelliteName at hsat; split at hsat <;> (try split at hsat) <;> cases hsat
  obtain ⟨msg, hk⟩ := hk
  refine ⟨MtpTools.ncName p.header, ?_⟩
  rw [toNetcdf_open hw ha e]
  unfold MtpTools.export_
  dsimp only
  rw [if_neg (by rw [hn]; decide), hk]

/-- Images of Meteosat 6 are exported with a calibration of 1 for every count, in kelvin or per cent. -/
theorem C98_violated_meteosat6 (w : World) (args : List Bytes) (file : Bytes) (f : NcImage) (hw : w.input = some file)
    (hf : (toNetcdf w args).file = some f) (h6 : text file 32 2 = str "M6") (c : Nat) : f.calibration.2 c = some 1 := by
  obtain ⟨p, r, k, -, -⟩ := toNetcdf_of hw hf
  obtain ⟨a, image, q⟩ := parts98 k
  have hcal := q.cal
  unfold MtpTools.calibration MtpTools.satelliteCode at hcal
  rw [r.textAt_eq (by decide), h6, if_pos (by decide)] at hcal
  rw [← Outcome.ok.inj hcal]

/-- Pixels of 128 and more are exported as negative numbers, to which the calibration table does not apply. -/
theorem C98_violated_bright (w : World) (args : List Bytes) (file : Bytes) (f : NcImage) (hw : w.input = some file)
    (hf : (toNetcdf w args).file = some f) (i j : Nat) (hi : i < (lineCount file).toNat) (hj : j < (pixelCount file).toNat)
    (v : UInt8) (hp : pixel file i j = some v) (hv : 128 ≤ v.toNat) :
    ∃ s : Int, f.samples[i * (pixelCount file).toNat + j]? = some s ∧ s < 0 ∧ s ≠ v.toNat := by
  obtain ⟨-, -, -, -, -, -, -, h⟩ := C98_content w args file f hw hf
  obtain ⟨u, h1, h2⟩ := h i hi j hj
  rw [hp] at h1
  obtain rfl := Option.some.inj h1
  rw [if_neg (by omega)] at h2
  have : v.toNat < 256 := v.toNat_lt
  exact ⟨_, h2, by omega, by omega⟩

/-- The projection is that of a satellite over longitude 0 whatever the longitude of the satellite. -/
theorem C98_violated_projection (w : World) (args : List Bytes) (file : Bytes) (f : NcImage) (hw : w.input = some file)
    (hf : (toNetcdf w args).file = some f) : f.projection = str "GEOS(0.0)" ∧
    f.longitude = BitVec.ofNat 32 (Spec.beVal ((file.drop (1345 + 95)).take 4)) := by
  obtain ⟨p, r, k, -, -⟩ := toNetcdf_of hw hf
  obtain ⟨a, image, q⟩ := parts98 k
  exact ⟨q.attributes.2.1, (C98_place w args file f hw hf).1⟩

/-- The visible composite of the B format, which has every column and line of the fine grid, is described like the infrared
image of the B format, which has every second one: twice as many columns and lines as there are. -/
theorem C98_violated_composite (w : World) (args : List Bytes) (file : Bytes) (f : NcImage) (hw : w.input = some file)
    (hf : (toNetcdf w args).file = some f) (h3 : code file = 3) (hl : lineCount file ≠ 5000) :
    f.lineDim = 1250 ∧ f.columnDim = 2500 ∧ f.lines = 2500 ∧ f.columns = 5000 ∧ f.sampleX = 2 := by
  obtain ⟨hx, -, -, -, d1, d2, -, -⟩ := C98_content w args file f hw hf
  obtain ⟨-, -, hb⟩ := C98_place w args file f hw hf
  unfold Exportable98 at hx
  have hB : FormatB (code file) (lineCount file) (pixelCount file) (MtpToolsSpec.firstLine file) := by
    rcases hx with hx | hx
    · unfold FullDisk at hx; omega
    · exact hx
  obtain ⟨-, b1, b2, b3, -⟩ := hb hB
  unfold FormatB at hB
  rw [b1, b2, d1, d2, b3]
  omega

/-- The other arguments: none gives status 1, `-V` status 0, without reading or writing anything. -/
theorem C98_arguments (w : World) (rest : List Bytes) :
    toNetcdf w [] = ⟨.ok 1, none, none⟩ ∧ toNetcdf w (str "-V" :: rest) = ⟨.ok 0, none, none⟩ ∧
    info w [] = .ok 1 ∧ info w (str "-V" :: rest) = .ok 0 := ⟨rfl, rfl, rfl, rfl⟩

/-! ### A file -/

/-- The beginning of a file: 1345 blanks, a field name, 2 July 2005 9:30, the satellite, the channel, the calibration
0.08012 and 4.8, a longitude, the first line, the numbers of lines and pixels. -/
def mtpStart (sat : Bytes) (code first lines pixels : Nat) : Bytes :=
  List.replicate 1345 32 ++ str "DMTPIR01" ++ Spec.encBE 4 2005 ++ List.replicate 12 0 ++ Spec.encBE 4 50702 ++ Spec.encBE 4 930 ++
    sat ++ [0, 0] ++ Spec.encBE 4 5 ++ Spec.encBE 4 code ++ str "08012" ++ str " 48" ++ List.replicate 43 0 ++ [65, 16, 0, 0] ++
    List.replicate 24 0 ++ Spec.encBE 4 first ++ List.replicate 4 0 ++ Spec.encBE 4 lines ++ Spec.encBE 4 pixels

/-- A file of format B, infrared, with pixels of 200. -/
def mtpFile (sat : Bytes) : Bytes :=
  mtpStart sat 4 1810 625 1250 ++ (List.replicate 144376 0 ++ List.replicate (625 * 1282) 200)

theorem field_start {a b : Bytes} {off : Nat} (h : off + 4 ≤ a.length) : field (a ++ b) off = field a off := by
  unfold field
  rw [List.drop_append_of_le_length (by omega), List.take_append_of_le_length (by rw [List.length_drop]; omega)]

theorem slice_start {a b : Bytes} {off n : Nat} (h : off + n ≤ a.length) :
    ((a ++ b).drop off).take n = (a.drop off).take n := by
  rw [List.drop_append_of_le_length (by omega), List.take_append_of_le_length (by rw [List.length_drop]; omega)]

theorem mtpStart_facts (sat : Bytes) (hsat : sat = str "M7" ∨ sat = str "M6" ∨ sat = str "M5") :
    (mtpStart sat 4 1810 625 1250).length = 1484 ∧
    field (mtpStart sat 4 1810 625 1250) (1345 + 40) = 4 ∧ field (mtpStart sat 4 1810 625 1250) (1345 + 131) = 625 ∧
    field (mtpStart sat 4 1810 625 1250) (1345 + 135) = 1250 ∧ field (mtpStart sat 4 1810 625 1250) (1345 + 123) = 1810 ∧
    text (mtpStart sat 4 1810 625 1250) 32 2 = sat ∧ text (mtpStart sat 4 1810 625 1250) 1 7 = str "MTPIR01" ∧
    field (mtpStart sat 4 1810 625 1250) (1345 + 8) = 2005 ∧ field (mtpStart sat 4 1810 625 1250) (1345 + 24) = 50702 ∧
    field (mtpStart sat 4 1810 625 1250) (1345 + 28) = 930 ∧
    (∀ c ∈ ((mtpStart sat 4 1810 625 1250).drop (1345 + 44)).take 8, c = 32 ∨ (48 ≤ c ∧ c ≤ 57)) ∧
    value (((mtpStart sat 4 1810 625 1250).drop (1345 + 44)).take 5) = 8012 ∧
    value (((mtpStart sat 4 1810 625 1250).drop (1345 + 49)).take 3) = 48 := by
  rcases hsat with rfl | rfl | rfl <;> decide +kernel

theorem mtpFile_facts (sat : Bytes) (hsat : sat = str "M7" ∨ sat = str "M6" ∨ sat = str "M5") :
    Exportable98 (mtpFile sat) ∧ Complete (mtpFile sat) ∧ text (mtpFile sat) 32 2 = sat ∧ text (mtpFile sat) 1 7 = str "MTPIR01" ∧
    At (mtpFile sat) 2005 7 2 9 30 ∧ Calibrated (mtpFile sat) 0.08012 4.8 ∧ code (mtpFile sat) = 4 ∧ lineCount (mtpFile sat) = 625 ∧
    pixelCount (mtpFile sat) = 1250 ∧ pixel (mtpFile sat) 3 5 = some 200 := by
  obtain ⟨hl, s1, s2, s3, s4, s5, s6, s7, s8, s9, s10, s11, s12⟩ := mtpStart_facts sat hsat
  generalize hst : mtpStart sat 4 1810 625 1250 = st at *
  have hfile : mtpFile sat = st ++ (List.replicate 144376 0 ++ List.replicate (625 * 1282) 200) := by
    unfold mtpFile
    rw [hst]
  generalize mtpFile sat = file at *
  have hz : (List.replicate 144376 (0 : UInt8)).length = 144376 := List.length_replicate
  have hd : (List.replicate (625 * 1282) (200 : UInt8)).length = 801250 := List.length_replicate
  have hd' : (List.replicate (625 * 1282) (200 : UInt8))[3 * 1282 + 37]? = some 200 := by
    rw [List.getElem?_replicate, if_pos (by decide)]
  generalize List.replicate 144376 (0 : UInt8) = z at *
  generalize List.replicate (625 * 1282) (200 : UInt8) = data at *
  have ef : ∀ off, off + 4 ≤ 1484 → field file off = field st off := fun off ho => by rw [hfile, field_start (by omega)]
  have es : ∀ off n, off + n ≤ 1484 → (file.drop off).take n = (st.drop off).take n := fun off n ho => by
    rw [hfile, slice_start (by omega)]
  have c1 : code file = 4 := (ef _ (by decide)).trans s1
  have c2 : lineCount file = 625 := (ef _ (by decide)).trans s2
  have c3 : pixelCount file = 1250 := (ef _ (by decide)).trans s3
  have c4 : MtpToolsSpec.firstLine file = 1810 := (ef _ (by decide)).trans s4
  have hs : imageStart file = 145860 := by
    have : field file (1345 + 40) = 4 := c1
    unfold imageStart
    rw [this]
    rfl
  have hlen : file.length = 145860 + 625 * 1282 := by
    rw [hfile, List.length_append, List.length_append]
    omega
  refine ⟨.inr (.inl ⟨by omega, by omega, c2, c3, c4⟩), ?_, ?_, ?_,
    ⟨(ef _ (by decide)).trans s7, ⟨5, (ef _ (by decide)).trans s8⟩, (ef _ (by decide)).trans s9, ?_, by omega, by omega, by omega⟩,
    ⟨?_, ?_, ?_⟩, c1, c2, c3, ?_⟩
  · unfold Complete
    rw [hs, c2, c3, hlen]
    decide
  · unfold text; rw [es _ _ (by decide)]; exact s5
  · unfold text; rw [es _ _ (by decide)]; exact s6
  · unfold Spec.ValidDate; decide
  · rw [es _ _ (by decide)]; exact s10
  · rw [es _ _ (by decide), s11]; norm_num
  · rw [es _ _ (by decide), s12]; norm_num
  · unfold pixel
    rw [hs, c3, hfile, List.getElem?_append_right (by rw [hl]; decide), hl, List.getElem?_append_right (by rw [hz]; decide), hz]
    exact hd'

/-- The file is exported; its name, its time, a pixel and a temperature. -/
example : ∃ f, (toNetcdf ⟨some (mtpFile (str "M7")), fun y mo d h mi => Datetime.mktimeUTC y mo d h mi 0 - 3600, -3600, fun _ => true⟩ [str "a"]).file = some f ∧
    (toNetcdf ⟨some (mtpFile (str "M7")), fun y mo d h mi => Datetime.mktimeUTC y mo d h mi 0 - 3600, -3600, fun _ => true⟩ [str "a"]).created =
      some (str "M7_MTPIR01_20050702_0930.nc") ∧ f.variable_ = "IR" ∧ f.columns = 2500 ∧ f.samples[3 * 1250 + 5]? = some (-56) ∧
    ∃ t, f.calibration.2 100 = some t ∧ Radiates 6.9618 (-1255.5465) t (0.08012 * (100 - 4.8)) := by
  obtain ⟨h1, h2, h3, h4, h5, h6, h7, h8, h9, h10⟩ := mtpFile_facts (str "M7") (.inl rfl)
  obtain ⟨f, hf⟩ := C98_exports_partial
    ⟨some (mtpFile (str "M7")), fun y mo d h mi => Datetime.mktimeUTC y mo d h mi 0 - 3600, -3600, fun _ => true⟩ (str "a") [] (mtpFile (str "M7"))
    2005 7 2 9 30 rfl (by decide) h2 h1 (by rw [h3]; rfl) h5 (fun _ => rfl)
  obtain ⟨-, -, a3, -, -, -, -, a8⟩ := C98_content _ _ (mtpFile (str "M7")) f rfl hf
  obtain ⟨t1, -⟩ := C98_times _ _ (mtpFile (str "M7")) f 2005 7 2 9 30 rfl hf h5 rfl
  obtain ⟨-, -, p3⟩ := C98_place _ _ (mtpFile (str "M7")) f rfl hf
  refine ⟨f, hf, ?_, ?_, ?_, ?_, ?_⟩
  · rw [t1, h3, h4]
    decide +kernel
  · rw [h7] at a3
    exact (Option.some.inj a3).symm
  · rcases h1 with h1 | h1
    · unfold FullDisk at h1; omega
    · rw [(p3 h1).2.1, h9]; rfl
  · obtain ⟨v, v1, v2⟩ := a8 3 (by rw [h8]; decide) 5 (by rw [h9]; decide)
    rw [h10] at v1
    obtain rfl := Option.some.inj v1
    rw [h9] at v2
    exact v2
  · obtain ⟨-, k⟩ := C98_calibration _ _ (mtpFile (str "M7")) f _ _ rfl hf h3 h6
    have := ((k 100 (by decide)).1 (.inl h7)).2 (by norm_num) (by norm_num)
    exact_mod_cast this

/-- The same file of Meteosat 6 is exported without calibration, that of Meteosat 5 is not exported. -/
example (mk : Int → Int → Int → Int → Int → Int) (tz : Int) :
    (∃ f, (toNetcdf ⟨some (mtpFile (str "M6")), mk, tz, fun _ => true⟩ [str "a"]).file = some f ∧ f.calibration.2 100 = some 1) ∧
    ∃ name, toNetcdf ⟨some (mtpFile (str "M5")), mk, tz, fun _ => true⟩ [str "a"] = ⟨.terminate, some name, none⟩ := by
  constructor
  · obtain ⟨h1, h2, h3, h4, h5, -⟩ := mtpFile_facts (str "M6") (.inr (.inl rfl))
    obtain ⟨f, hf⟩ := C98_exports_partial ⟨some (mtpFile (str "M6")), mk, tz, fun _ => true⟩ (str "a") [] _
      2005 7 2 9 30 rfl (by decide) h2 h1 (by rw [h3]; rfl) h5 (fun _ => rfl)
    exact ⟨f, hf, C98_violated_meteosat6 _ _ _ f rfl hf h3 100⟩
  · obtain ⟨h1, h2, h3, h4, h5, -⟩ := mtpFile_facts (str "M5") (.inr (.inr rfl))
    exact C98_violated_leftover _ _ _ _ 2005 7 2 9 30 rfl (by decide) (exportable_sensible h1) h2 h5 (fun _ => rfl)
      (.inl (by rw [h3]; decide))

end Msat.Props
