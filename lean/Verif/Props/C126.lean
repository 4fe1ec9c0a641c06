import Verif.Model.XritFieldsGrib
import Verif.Props.C123
import Verif.Props.C124

/-
C126 From the bytes of xRIT files to GRIB.
-/
namespace Msat.Props
open Msat
open Msat.Layout Msat.XritFields
open Msat.Hrit (Disk Env Header readFileHeader)
open Msat.HritSpec
open Msat.XritSpec (sampleAt)

section
variable {env : Env} {disk : Disk} {files : Nat → Bytes} {n cols lines channel planned format : Nat}
  {cfac : Int} {imgs : Nat → List Nat}

theorem close_grid {P : XritDataset.Prologue} {f32 : Nat → ℝ} {col line : Bool → Nat} {ps : ℝ}
    (h1 : P.gridVisIr = (f32 (col false), f32 (line false))) (h2 : P.gridHrv = (f32 (col true), f32 (line true)))
    (hx : Close ps |1000 * f32 (col (channel == 12))|) (hy : Close ps |1000 * f32 (line (channel == 12))|) :
    Close ps |1000 * (if channel = 12 then P.gridHrv else P.gridVisIr).1| ∧ Close ps |1000 * (if channel = 12 then P.gridHrv else P.gridVisIr).2| := by
  by_cases h12 : channel = 12
  · have hb : (channel == 12) = true := by simpa using h12
    rw [hb] at hx hy
    rw [if_pos h12, h2]
    exact ⟨hx, hy⟩
  · have hb : (channel == 12) = false := by simpa using h12
    rw [hb] at hx hy
    rw [if_neg h12, h1]
    exact ⟨hx, hy⟩

theorem grib_fields (h : Segments env disk files n cols lines channel planned format cfac imgs)
    (before : List Nat) (k : Nat) (hpr : ∀ i ∈ before ++ [k], i < n) (cov : Option Xrit.Coverage)
    (f32 f64 : Nat → ℝ) (ρ : Path → Val) (post : Bytes) (hr : prologueDataLay.InRange ρ) (day msec : Nat)
    (col line : Bool → Nat) (slope offset : Nat → Nat) (hfields : Fields ρ day msec col line slope offset)
    (sscanf : Bytes → Option ℝ) (rs : List Rec) (data rest : Bytes) (hdk : disk (files k) = some (fileOf 0 rs data rest)) (ho : FileOk 0 rs data)
    (sc first : Nat) (hseg : segmentOf rs = some (sc, channel, k + 1, first, planned, format))
    (bpp comp : Nat) (hi : structureOf rs = some (bpp, cols, lines, comp))
    (lon more : Bytes) (hproj : projectionText rs = some (str "GEOS(" ++ lon ++ (41 : UInt8) :: more)) (hl : (41 : UInt8) ∉ lon)
    (scale offs : Rat) (table : Option (List Nat)) (value : Nat → Option Rat) (pack : Rat → Rat)
    (sample : GribFile.Template → List (String × Int)) (blank : Datetime.Message) (option : Option String) (old : Option GribFile.Message) :
    XritFieldsGrib.convert env disk cov ((before ++ [k]).map files) f32 f64 sscanf (prologueDataLay.encode ρ ++ post) scale offs table value pack
        sample blank option old =
      XritToGrib.convert env disk cov ((before ++ [k]).map files)
        ⟨Time.cdsShortOf day msec, (f32 (col false), f32 (line false)), (f32 (col true), f32 (line true)),
          (List.range 12).map fun i => (f64 (slope i), f64 (offset i))⟩ ⟨sc, channel, bpp, sscanf lon⟩ scale offs table value pack
        sample blank option old := by
  have hz : format ≠ 0 := by have := h.known; omega
  have hh := C123_header sscanf disk (before.map files) (segments_files h before fun i hi => hpr i (by simp [hi])) (files k) rs data rest hdk ho
    sc channel (k + 1) first planned format hseg hz bpp cols lines comp hi lon more hproj hl
  have hp := C123_prologue_partial f32 f64 ρ post hr day msec col line slope offset hfields
  have hmap : (before ++ [k]).map files = before.map files ++ [files k] := by simp
  unfold XritFieldsGrib.convert
  rw [hp, Outcome.ok_bind, hmap, hh, Outcome.ok_bind]

/-- **Partial.** xRIT to GRIB, solar channels, from bytes: `ρ` are the values of the members of the prologue, and segment `k` is the last one that
was found.  The image that is opened has the date of the planned start of the scan in the prologue, the satellite of the identification record,
the longitude in the navigation record, pixels of about the step of the grid in the prologue, and each sample above 0 has the radiance, packed,
that the slope and offset in the prologue give for the count that the decompression library made of the segment.  Missing: that reading the
prologue as a whole is defined (`C126_violated_whole`), radiances that are packed to the missing value of the channel, images with no sample
above 0, and pixel sizes further than a tenth of a millimetre from the standard ones. -/
theorem C126_solar_partial (h : Segments env disk files n cols lines channel planned format cfac imgs)
    (before : List Nat) (k : Nat) (hpr : ∀ i ∈ before ++ [k], i < n) (cov : Option Xrit.Coverage) (hf : Full channel n cols lines cov)
    (f32 f64 : Nat → ℝ) (ρ : Path → Val) (post : Bytes) (hr : prologueDataLay.InRange ρ) (day msec : Nat) (hday : day < 2 ^ 16)
    (hmsec : msec < 2 ^ 32) (col line : Bool → Nat) (slope offset : Nat → Nat) (hfields : Fields ρ day msec col line slope offset)
    (sscanf : Bytes → Option ℝ) (rs : List Rec) (data rest : Bytes) (hdk : disk (files k) = some (fileOf 0 rs data rest)) (ho : FileOk 0 rs data)
    (sc first : Nat) (hseg : segmentOf rs = some (sc, channel, k + 1, first, planned, format))
    (bpp comp : Nat) (hi : structureOf rs = some (bpp, cols, lines, comp)) (hbpp : bpp < 31)
    (lon more : Bytes) (hproj : projectionText rs = some (str "GEOS(" ++ lon ++ (41 : UInt8) :: more)) (hl : (41 : UInt8) ∉ lon)
    (degrees : ℝ) (hdeg : sscanf lon = some degrees)
    (sat : String) (wmo : Int) (hsat : (sat, wmo, some (sc : Int)) ∈ SatSpec.satellites) (hsev : wmo ∈ SatSpec.seviri)
    (name : String) (w : Int) (hname : ((channel : Int), name, w, false) ∈ SatSpec.channels) (hch : 1 ≤ channel ∧ channel ≤ 12)
    (ps : ℝ) (hps : GeorefSpec.Standard ps) (hx : Close ps |1000 * f32 (col (channel == 12))|) (hy : Close ps |1000 * f32 (line (channel == 12))|)
    (y m d : Nat) (hyear : 1958 ≤ y) (hv : Spec.ValidDate y m d)
    (hdate : Spec.daysBetweenYears 1958 y + Spec.daysBeforeMonth y m + (d - 1) = day + msec / 86400000)
    (scale offs : Rat) (hslope : f64 (slope (channel - 1)) ≠ 0) (hscale : (scale : ℝ) = f64 (slope (channel - 1)))
    (hoffset : (offs : ℝ) = f64 (offset (channel - 1))) (value : Nat → Option Rat) (pack : Rat → Rat)
    (sample : GribFile.Template → List (String × Int)) (hsample : plainSample sample) (blank : Datetime.Message) (option : Option String)
    (t : GribFile.Template) (ht : GribFile.templateOf option = some t) (old : Option GribFile.Message)
    (hsome : ∃ seg < n, ∃ row < lines, ∃ x < side channel, ∃ i count,
      sampleAt (windows channel cov) cols (seg * lines + row + 1) x = some i ∧ fileSample imgs (before ++ [k]) cols cfac seg row i = some count ∧
      count ≠ 0) :
    ∃ img ps' pixels, XritFieldsGrib.convert env disk cov ((before ++ [k]).map files) f32 f64 sscanf (prologueDataLay.encode ρ ++ post) scale offs none
        value pack sample blank option old = .ok (some img) ∧
      img.image.sx = side channel ∧ img.image.sy = side channel ∧ img.image.spacecraft = wmo ∧ img.image.channel = channel ∧
      img.datetime = DatetimeSpec.stamp y m d (msec / 3600000 % 24) (msec / 60000 % 60) 0 ∧ img.lon = degrees ∧
      (∀ x y : ℝ, img.gt.x0 + x * img.gt.dx + y * img.gt.rx = (x - side channel / 2) * ps' ∧
        img.gt.y0 + x * img.gt.ry + y * img.gt.dy = (side channel / 2 - y) * ps') ∧ |ps' - ps| < 0.011 ∧ (ps = 3000.40307617188 → ps' = ps) ∧
      img.image.pixels = some pixels ∧ pixels.length = side channel * side channel ∧
      ∀ seg < n, ∀ row < lines, ∀ x < side channel, ∃ (count : Nat) (p : Option Rat),
        (match sampleAt (windows channel cov) cols (seg * lines + row + 1) x with
          | none => some 0
          | some i => fileSample imgs (before ++ [k]) cols cfac seg row i) = some count ∧
        pixels[(side channel - 1 - (seg * lines + row)) * side channel + x]? = some p ∧
        (count = 0 → GribSpec.readMeasure img.image.nodata p = none) ∧
        ∀ r : Rat, (r : ℝ) = count * f64 (slope (channel - 1)) + f64 (offset (channel - 1)) → count ≠ 0 → some (pack r) ≠ img.image.nodata →
          GribSpec.readMeasure img.image.nodata p = some (pack r) := by
  have hconv := grib_fields h before k hpr cov f32 f64 ρ post hr day msec col line slope offset hfields sscanf rs data rest hdk ho sc first hseg
    bpp comp hi lon more hproj hl scale offs none value pack sample blank option old
  obtain ⟨_, hsay⟩ := fields_say (thermal := false) h before k hpr cov f32 f64 ρ post hr day msec col line slope offset hfields sscanf rs data
    rest hdk ho sc first hseg bpp comp hi hbpp lon more hproj hl degrees hdeg sat wmo hsat hsev name w hname hch ps hps (close_about hx)
    (close_about hy) scale offs none value (fun _ => true) id
  obtain ⟨c1, c2⟩ := close_grid (P := ⟨Time.cdsShortOf day msec, (f32 (col false), f32 (line false)), (f32 (col true), f32 (line true)),
    (List.range 12).map fun i => (f64 (slope i), f64 (offset i))⟩) rfl rfl hx hy
  rw [hconv]
  exact C124_solar_partial h (before ++ [k]) hpr (by simp) cov hf _ _ sat wmo name w degrees ps _ _ hsay c1 c2 day msec hday hmsec rfl y m d hyear hv
    hdate scale offs hslope hscale hoffset value pack sample hsample blank option t ht old hsome

/-- **Partial.** xRIT to GRIB, thermal channels, from bytes: the pixel of each sample is the temperature, rounded and packed, whose effective radiance
by Planck's law is the slope in the prologue times the count plus the offset in the prologue, and missing if there is none; date, satellite,
longitude and grid are those of the files.  Missing: as for `C126_solar_partial`, and temperatures that are rounded to 0. -/
theorem C126_temperature_partial (h : Segments env disk files n cols lines channel planned format cfac imgs)
    (before : List Nat) (k : Nat) (hpr : ∀ i ∈ before ++ [k], i < n) (cov : Option Xrit.Coverage) (hf : Full channel n cols lines cov)
    (table : List Nat) (hcols : 0 < cols) (htab : 0 < table.length) (hcounts : ∀ i < n, ∀ v ∈ imgs i, v < table.length)
    (f32 f64 : Nat → ℝ) (ρ : Path → Val) (post : Bytes) (hr : prologueDataLay.InRange ρ) (day msec : Nat) (hday : day < 2 ^ 16)
    (hmsec : msec < 2 ^ 32) (col line : Bool → Nat) (slope offset : Nat → Nat) (hfields : Fields ρ day msec col line slope offset)
    (sscanf : Bytes → Option ℝ) (rs : List Rec) (data rest : Bytes) (hdk : disk (files k) = some (fileOf 0 rs data rest)) (ho : FileOk 0 rs data)
    (sc first : Nat) (hseg : segmentOf rs = some (sc, channel, k + 1, first, planned, format))
    (bpp comp : Nat) (hi : structureOf rs = some (bpp, cols, lines, comp)) (hbpp : bpp < 31)
    (lon more : Bytes) (hproj : projectionText rs = some (str "GEOS(" ++ lon ++ (41 : UInt8) :: more)) (hl : (41 : UInt8) ∉ lon)
    (degrees : ℝ) (hdeg : sscanf lon = some degrees)
    (sat : String) (wmo : Int) (hsat : (sat, wmo, some (sc : Int)) ∈ SatSpec.satellites) (hsev : wmo ∈ SatSpec.seviri)
    (name : String) (w : Int) (hname : ((channel : Int), name, w, true) ∈ SatSpec.channels) (hch : 1 ≤ channel ∧ channel ≤ 12)
    (ps : ℝ) (hps : GeorefSpec.Standard ps) (hx : Close ps |1000 * f32 (col (channel == 12))|) (hy : Close ps |1000 * f32 (line (channel == 12))|)
    (y m d : Nat) (hyear : 1958 ≤ y) (hv : Spec.ValidDate y m d)
    (hdate : Spec.daysBetweenYears 1958 y + Spec.daysBeforeMonth y m + (d - 1) = day + msec / 86400000)
    (value : Nat → Option Rat) (hzero : value 0 = some 0) (round : ℝ → Rat) (h0 : ∀ T, T ≤ 0 → round T ≤ 0) (h1 : ∀ T, 0 < T → 0 ≤ round T)
    (c : ℝ × ℝ × ℝ) (hc : SeviriSpec.constants channel = some c)
    (htable : TableOf value round c (f64 (slope (channel - 1))) (f64 (offset (channel - 1))) table) (pack : Rat → Rat)
    (sample : GribFile.Template → List (String × Int)) (hsample : plainSample sample) (blank : Datetime.Message) (option : Option String)
    (t : GribFile.Template) (ht : GribFile.templateOf option = some t) (old : Option GribFile.Message)
    (hsome : ∃ seg < n, ∃ row < lines, ∃ x < side channel, ∃ i count T,
      sampleAt (windows channel cov) cols (seg * lines + row + 1) x = some i ∧ fileSample imgs (before ++ [k]) cols cfac seg row i = some count ∧
      count < table.length ∧ 0 < T ∧ SeviriSpec.effective c T = count * f64 (slope (channel - 1)) + f64 (offset (channel - 1)) ∧ round T ≠ 0) :
    ∃ img ps' pixels, XritFieldsGrib.convert env disk cov ((before ++ [k]).map files) f32 f64 sscanf (prologueDataLay.encode ρ ++ post) 1 0 (some table)
        value pack sample blank option old = .ok (some img) ∧
      img.image.sx = side channel ∧ img.image.sy = side channel ∧ img.image.spacecraft = wmo ∧ img.image.channel = channel ∧
      img.datetime = DatetimeSpec.stamp y m d (msec / 3600000 % 24) (msec / 60000 % 60) 0 ∧ img.lon = degrees ∧
      (∀ x y : ℝ, img.gt.x0 + x * img.gt.dx + y * img.gt.rx = (x - side channel / 2) * ps' ∧
        img.gt.y0 + x * img.gt.ry + y * img.gt.dy = (side channel / 2 - y) * ps') ∧ |ps' - ps| < 0.011 ∧ (ps = 3000.40307617188 → ps' = ps) ∧
      img.image.pixels = some pixels ∧ pixels.length = side channel * side channel ∧
      ∀ seg < n, ∀ row < lines, ∀ x < side channel, ∃ p : Option Rat,
        pixels[(side channel - 1 - (seg * lines + row)) * side channel + x]? = some p ∧
        match sampleAt (windows channel cov) cols (seg * lines + row + 1) x with
        | none => GribSpec.readMeasure img.image.nodata p = none
        | some i => ∃ count : Nat, fileSample imgs (before ++ [k]) cols cfac seg row i = some count ∧
            (∀ T, 0 < T → SeviriSpec.effective c T = count * f64 (slope (channel - 1)) + f64 (offset (channel - 1)) → round T ≠ 0 →
              some (pack (round T)) ≠ img.image.nodata → GribSpec.readMeasure img.image.nodata p = some (pack (round T))) ∧
            ((¬ ∃ T, 0 < T ∧ SeviriSpec.effective c T = count * f64 (slope (channel - 1)) + f64 (offset (channel - 1))) →
              GribSpec.readMeasure img.image.nodata p = none) := by
  have hconv := grib_fields h before k hpr cov f32 f64 ρ post hr day msec col line slope offset hfields sscanf rs data rest hdk ho sc first hseg
    bpp comp hi lon more hproj hl 1 0 (some table) value pack sample blank option old
  obtain ⟨_, hsay⟩ := fields_say (thermal := true) h before k hpr cov f32 f64 ρ post hr day msec col line slope offset hfields sscanf rs data
    rest hdk ho sc first hseg bpp comp hi hbpp lon more hproj hl degrees hdeg sat wmo hsat hsev name w hname hch ps hps (close_about hx)
    (close_about hy) 1 0 (some table) value (fun _ => true) id
  obtain ⟨c1, c2⟩ := close_grid (P := ⟨Time.cdsShortOf day msec, (f32 (col false), f32 (line false)), (f32 (col true), f32 (line true)),
    (List.range 12).map fun i => (f64 (slope i), f64 (offset i))⟩) rfl rfl hx hy
  rw [hconv]
  exact C124_temperature_partial h (before ++ [k]) hpr (by simp) cov hf table hcols htab hcounts _ _ sat wmo name w degrees ps _ _ hsay c1 c2 day msec
    hday hmsec rfl y m d hyear hv hdate value hzero round h0 h1 c hc htable pack sample hsample blank option t ht old hsome

end

/-- Discrepancy: the conversion to GRIB starts with the prologue as a whole, whose reading is undefined whatever the file has: 63 bytes are copied
into a member of 24.  No conversion has a defined result. -/
theorem C126_violated_whole (env : Env) (disk : Disk) (cov : Option Xrit.Coverage) (names : List Bytes) (f32 f64 : Nat → ℝ)
    (sscanf : Bytes → Option ℝ) (data : Bytes) (scale offset : Rat) (table : Option (List Nat)) (value : Nat → Option Rat) (pack : Rat → Rat)
    (sample : GribFile.Template → List (String × Int)) (blank : Datetime.Message) (option : Option String) (old : Option GribFile.Message) :
    ∀ x, XritFieldsGrib.whole env disk cov names f32 f64 sscanf data scale offset table value pack sample blank option old ≠ .ok x := by
  intro x e
  unfold XritFieldsGrib.whole at e
  obtain ⟨v, hv, _⟩ := Outcome.of_bind_ok e
  exact C123_violated_whole data v hv

open Classical in
/-- An image of channel IR_108, from the bytes of its files. -/
theorem aFieldsMessage : ∃ table img, XritFieldsGrib.convert aDecoder (fun f => if f = [1] then some (fileOf 0 (halfOf 9 0) [9, 9] [])
      else if f = [2] then some (fileOf 0 (halfOf 9 1) [9, 9] []) else none) none
    (([1] ++ [0]).map fun i => if i = 0 then [1] else [2]) (fun v => if v = 0x40400d35 then 3.000403 else 1.000134)
    (fun v => if v = 0x3fc999999999999a then 0.2 else -10.4) (fun t => if t = str "+000.0" then some 0 else none)
    (prologueDataLay.encode someFields ++ []) 1 0 (some table) (fun e => some (if e = 0 then 0 else 1)) id
    (fun _ => []) ⟨0, 0, 0, 0, 0, 0, 0, 0, 0⟩ none none = .ok (some img) ∧ img.image.spacecraft = 57 ∧
    img.datetime = DatetimeSpec.stamp 2014 10 24 12 0 0 := by
  obtain ⟨table, t1, t2⟩ := aTableOf (930.659, 0.9983, 0.627) 0.2 (-10.4)
  have hbound : SeviriSpec.effective (930.659, 0.9983, 0.627) 0 < ((3711 : Nat) : ℝ) * 0.2 + -10.4 := by
    unfold SeviriSpec.effective SeviriSpec.planck
    dsimp only
    have := Real.add_one_le_exp (1.43877 * 930.659 / (0.9983 * 0 + 0.627) : ℝ)
    rw [div_lt_iff₀ (by norm_num at *)]
    norm_num at *
    linarith
  obtain ⟨w1, w2⟩ := written_pos (930.659, 0.9983, 0.627) (constants_sound 9 _ rfl) _ hbound
  obtain ⟨img, _, _, e1, _, _, e4, _, e6, _⟩ := C126_temperature_partial (halves 9 (.inr rfl)) [1] 0 (by simp) none (halves_full 9 (.inr rfl))
    table (by norm_num) (by rw [t1]; norm_num)
    (fun i _ v hv => by have := List.mem_range.1 hv; rw [t1]; omega) (fun v => if v = 0x40400d35 then 3.000403 else 1.000134)
    (fun v => if v = 0x3fc999999999999a then 0.2 else -10.4) someFields [] someFields_ok 20750 43211000 (by norm_num) (by norm_num) _ _ _ _
    someFields_say (fun t => if t = str "+000.0" then some 0 else none) (halfOf 9 0) [9, 9] [] rfl (halfOf_ok 9 0 (.inr rfl) (by norm_num)) 323 1 rfl
    10 1 rfl (by norm_num) (str "+000.0") (List.replicate 20 32) (by decide +kernel) (by decide +kernel) 0 (by simp)
    "MSG3" 57 (by decide +kernel) (by decide +kernel) "IR_108" 108 (by decide +kernel) (by norm_num) 3000.40307617188 (.inl rfl)
    (by unfold Close; simp only [Nat.reduceBEq, Bool.false_eq_true, if_false, if_true]
        rw [abs_le, abs_of_pos (by norm_num)]; constructor <;> norm_num)
    (by unfold Close; simp only [Nat.reduceBEq, Bool.false_eq_true, if_false, if_true]
        rw [abs_le, abs_of_pos (by norm_num)]; constructor <;> norm_num)
    2014 10 24 (by norm_num) (by unfold Spec.ValidDate; decide +kernel) (by decide +kernel) (fun e => some (if e = 0 then 0 else 1)) (by simp)
    (fun T => if 0 < T then 1 else 0) (fun T h => by rw [if_neg (not_lt.2 h)]) (fun T h => by rw [if_pos h]; norm_num)
    (930.659, 0.9983, 0.627) rfl (by simpa using t2) id (fun _ => []) (fun _ _ _ => rfl) ⟨0, 0, 0, 0, 0, 0, 0, 0, 0⟩ none .wmo rfl none
    ⟨1, by norm_num, 1855, by norm_num, 0, by simp [side], 0, 3711, _, by simp [windows, sampleAt], by simp [fileSample], by rw [t1]; norm_num,
      w1, by simpa using w2, by rw [if_pos w1]; norm_num⟩
  exact ⟨table, img, e1, e4, e6⟩

/-- The two segments of an image of channel VIS006, from the bytes of the files. -/
example : ∃ img, XritFieldsGrib.convert aDecoder (fun f => if f = [1] then some (fileOf 0 (halfOf 1 0) [9, 9] [])
      else if f = [2] then some (fileOf 0 (halfOf 1 1) [9, 9] []) else none) none
    (([0] ++ [1]).map fun i => if i = 0 then [1] else [2]) (fun v => if v = 0x40400d35 then 3.000403 else 1.000134)
    (fun v => if v = 0x3fc999999999999a then 0.2 else -10.4) (fun t => if t = str "+000.0" then some 0 else none)
    (prologueDataLay.encode someFields ++ [7]) (1 / 5) (-52 / 5) none (fun _ => none) id
    (fun _ => []) ⟨0, 0, 0, 0, 0, 0, 0, 0, 0⟩ none none = .ok (some img) ∧ img.image.channel = 1 := by
  obtain ⟨img, _, _, e1, _, _, _, e5, _⟩ := C126_solar_partial (halves 1 (.inl rfl)) [0] 1 (by simp) none (halves_full 1 (.inl rfl))
    (fun v => if v = 0x40400d35 then 3.000403 else 1.000134)
    (fun v => if v = 0x3fc999999999999a then 0.2 else -10.4) someFields [7] someFields_ok 20750 43211000 (by norm_num) (by norm_num) _ _ _ _
    someFields_say (fun t => if t = str "+000.0" then some 0 else none) (halfOf 1 1) [9, 9] [] rfl (halfOf_ok 1 1 (.inl rfl) (by norm_num)) 323 1 rfl
    10 1 rfl (by norm_num) (str "+000.0") (List.replicate 20 32) (by decide +kernel) (by decide +kernel) 0 (by simp)
    "MSG3" 57 (by decide +kernel) (by decide +kernel) "VIS006" 6 (by decide +kernel) (by norm_num) 3000.40307617188 (.inl rfl)
    (by unfold Close; simp only [Nat.reduceBEq, Bool.false_eq_true, if_false, if_true]
        rw [abs_le, abs_of_pos (by norm_num)]; constructor <;> norm_num)
    (by unfold Close; simp only [Nat.reduceBEq, Bool.false_eq_true, if_false, if_true]
        rw [abs_le, abs_of_pos (by norm_num)]; constructor <;> norm_num)
    2014 10 24 (by norm_num) (by unfold Spec.ValidDate; decide +kernel) (by decide +kernel) (1 / 5) (-52 / 5) (by norm_num) (by norm_num)
    (by norm_num) (fun _ => none) id (fun _ => []) (fun _ _ _ => rfl) ⟨0, 0, 0, 0, 0, 0, 0, 0, 0⟩ none .wmo rfl none
    ⟨1, by norm_num, 3, by norm_num, 0, by simp [side], 0, 7, by simp [windows, sampleAt], by simp [fileSample], by norm_num⟩
  exact ⟨img, e1, e5⟩

end Msat.Props
