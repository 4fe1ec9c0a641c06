import Verif.Model.GribToNetcdf
import Verif.Props.C125

/-
C129 From GRIB to NetCDF: the same image.
-/
namespace Msat.Props
open Msat Machine Spec Hrit HritSpec
open Msat.Xrit (Coverage)
open Msat.XritSpec (sampleAt)

/-- GRIB to NetCDF: an image of SEVIRI that is opened from a GRIB file, with pixels of the standard size, is converted.  What is opened has the same
satellite, date, longitude (in single precision), geotransform, size, channel with its name and unit, missing value and pixels, without scale and
offset.  Missing for the full property: HRV, where the size of pixels in GRIB is not exactly the standard one (see `C129_hrv_partial`), and other
satellites. -/
theorem C129_image_partial (valid : String → Bool) (single : ℝ → ℝ) (img : XritToGrib.Image) (sat : String) (h : Option Int) (channel : Nat)
    (name : String) (w : Int) (thermal : Bool) (hsat : (sat, img.image.spacecraft, h) ∈ SatSpec.satellites)
    (hsev : img.image.spacecraft ∈ SatSpec.seviri) (hchan : img.image.channel = channel) (hname : ((channel : Int), name, w, thermal) ∈ SatSpec.channels)
    (hvalid : valid name = true) (y mo d ho mi se : Nat) (hdate : img.datetime = DatetimeSpec.stamp y mo d ho mi se)
    (hfits : DatetimeSpec.Fits y mo d ho mi se) (ps : ℝ) (cx cy : ℤ) (hps : GeorefSpec.Standard ps) (hgt : GeorefSpec.OnGrid img.gt ps ps cx cy)
    (hcx : GeorefSpec.Near cx) (hcy : GeorefSpec.Near cy) (hlon : |single img.lon| ≤ 1000) (px : List (Option Rat))
    (hpx : img.image.pixels = some px) :
    ∃ f o b, GribToNetcdf.convert valid single img = .ok (some f) ∧ NetcdfFile.openFile f = some o ∧
      o.spacecraft = some sat ∧ o.spacecraftId = some img.image.spacecraft ∧ o.datetime = img.datetime ∧ o.lon = single img.lon ∧
      o.gt = .ok (some img.gt) ∧ o.nx = img.image.sx.toNat ∧ o.ny = img.image.sy.toNat ∧ o.bands = [b] ∧ b.name = name ∧
      b.channel = some (channel, name) ∧ b.units = (if thermal then "K" else "mW m^-2 sr^-1 (cm^-1)^-1") ∧ b.type = .float64 ∧
      b.nodata = img.image.nodata ∧ b.scale = 1 ∧ b.offset = 0 ∧ NetcdfBand.readBlock b.var = .ok (px.map NetcdfBand.Cell.real) := by
  obtain ⟨hn, _, hu, _⟩ := C16_channel_descriptions img.image.spacecraft channel name w thermal hsev hname
  have hsn : Facts.spacecraftName img.image.spacecraft = sat := (spacecraftName_table _ hsat).1
  obtain ⟨f, o, e1, e2, e3, e4, e5, e6, e7, e8, e9, e10⟩ := C85_round_trip_partial valid single (GribToNetcdf.source img px) sat img.image.spacecraft h
    y mo d ho mi se ps (GribToNetcdf.georef img) (by simp [GribToNetcdf.source, hsn]) hsat (by simp [GribToNetcdf.source, hdate]) hfits rfl hps
    ⟨rfl, cx, cy, hgt, hcx, hcy⟩ hlon (by simp [GribToNetcdf.source])
    (by
      intro b hb
      simp only [GribToNetcdf.source, List.mem_singleton] at hb
      subst hb
      exact ⟨by dsimp only; rw [hchan, hn]; exact hvalid, by simp [NetcdfBandSpec.Plain], trivial⟩)
    (by simp [GribToNetcdf.source])
    (by
      intro b hb
      simp only [GribToNetcdf.source, List.mem_singleton] at hb
      subst hb
      dsimp only
      rw [hchan, hn]
      exact name_not_time hname)
  simp only [GribToNetcdf.source] at e10
  obtain ⟨b, l, hb, hl, hbl⟩ := List.forall₂_cons_left_iff.1 e10
  rw [List.forall₂_nil_left_iff] at hl
  subst hl
  obtain ⟨⟨p1, p2, p3, p4, p5, p6, p7, p8⟩, p9⟩ := hb
  dsimp only at p1 p2 p3 p4 p5 p6 p7 p8
  refine ⟨f, o, b, ?_, e2, e3, e4, by rw [e5, hdate], e6, e7, e8, e9, hbl, by rw [p1, hchan, hn], ?_, by rw [p6, hchan, hu], p2, p3, p4, p5, ?_⟩
  · unfold GribToNetcdf.convert
    rw [hpx]
    exact e1
  · exact p8 channel name w thermal (by rw [hchan]; rfl) hname hsev
  · refine p9 (by simp) fun c hc => ?_
    obtain ⟨v, _, rfl⟩ := List.mem_map.1 hc
    trivial

/-- Discrepancy: a GRIB message that has not as many values as its grid has points is opened, but when it is converted to NetCDF a null pointer is
used. -/
theorem C129_violated_short (valid : String → Bool) (single : ℝ → ℝ) (img : XritToGrib.Image) (m : GribFile.Message)
    (hopen : GribFile.openMessage m = .ok (some img.image)) (hshort : (m.values.length : Int) ≠ img.image.sx * img.image.sy)
    (ps : ℝ) (cx cy : ℤ) (hps : GeorefSpec.Standard ps) (hgt : GeorefSpec.OnGrid img.gt ps ps cx cy)
    (hcx : GeorefSpec.Near cx) (hcy : GeorefSpec.Near cy) : GribToNetcdf.convert valid single img = .ub := by
  have hpx : img.image.pixels = none := by
    unfold GribFile.openMessage at hopen
    split at hopen
    · obtain ⟨c, _, hopen⟩ := Outcome.of_bind_ok hopen
      cases c with
      | none => cases hopen
      | some c =>
        have := Option.some.inj (Outcome.ok.inj hopen)
        rw [← this] at hshort ⊢
        dsimp only at hshort ⊢
        unfold GribFile.readBlock
        rw [if_neg]
        simpa [GribFile.Message.values] using hshort
    · cases hopen
  obtain ⟨g, e1, _⟩ := C44_netcdf single (GribToNetcdf.georef img) ps ps cx cy hgt rfl hps hps hcx hcy
  unfold GribToNetcdf.convert
  rw [hpx]
  dsimp only
  rw [e1]
  rfl

section
variable {env : Env} {disk : Disk} {files : Nat → Bytes} {n cols lines channel planned format : Nat}
  {cfac : Int} {imgs : Nat → List Nat}

/-- The grid of an image whose middle is the point below the satellite. -/
theorem position_grid {gt : Georef.Gt} {ps : ℝ} (h : ∀ x y : ℝ, gt.x0 + x * gt.dx + y * gt.rx = (x - ((3712 : Nat) : ℝ) / 2) * ps ∧
    gt.y0 + x * gt.ry + y * gt.dy = (((3712 : Nat) : ℝ) / 2 - y) * ps) : GeorefSpec.OnGrid gt ps ps 1856 1856 := by
  obtain ⟨x0, dx, rx, y0, ry, dy⟩ := gt
  obtain ⟨a1, a2⟩ := h 0 0
  obtain ⟨b1, b2⟩ := h 1 0
  obtain ⟨c1, c2⟩ := h 0 1
  dsimp only at a1 a2 b1 b2 c1 c2
  unfold GeorefSpec.OnGrid
  rw [Georef.Gt.mk.injEq]
  norm_num at *
  refine ⟨?_, ?_, ?_, ?_, ?_, ?_⟩ <;> linarith

/-- xRIT to GRIB to NetCDF, solar channels except HRV: satellite, date and time to the minute, longitude, size, channel with its name and unit and the
place of the image are those of the files of the product; and the pixel of each sample is missing if the count is 0, and else the radiance that the
calibration in the prologue gives for the count, packed.  Missing: as in `C124_solar_partial`, and HRV. -/
theorem C129_solar_partial (h : Segments env disk files n cols lines channel planned format cfac imgs)
    (present : List Nat) (hpr : ∀ i ∈ present, i < n) (hne : present ≠ []) (cov : Option Coverage) (hf : Full channel n cols lines cov)
    (pro : XritDataset.Prologue) (hd : XritDataset.Header) (sat : String) (wmo : Int) (name : String) (w : Int) (lon ps s o : ℝ)
    (hsay : FilesSay pro hd channel sat wmo name w false lon ps s o)
    (hcx : Close ps |1000 * (if channel = 12 then pro.gridHrv else pro.gridVisIr).1|)
    (hcy : Close ps |1000 * (if channel = 12 then pro.gridHrv else pro.gridVisIr).2|)
    (day msec : Nat) (hday : day < 2 ^ 16) (hmsec : msec < 2 ^ 32) (hstart : pro.start = Time.cdsShortOf day msec)
    (y m d : Nat) (hy : 1958 ≤ y) (hv : ValidDate y m d)
    (hdate : daysBetweenYears 1958 y + daysBeforeMonth y m + (d - 1) = day + msec / 86400000)
    (scale offset : Rat) (hslope : s ≠ 0) (hscale : (scale : ℝ) = s) (hoffset : (offset : ℝ) = o) (value : Nat → Option Rat) (pack : Rat → Rat)
    (sample : GribFile.Template → List (String × Int)) (hsample : plainSample sample) (blank : Datetime.Message) (option : Option String)
    (t : GribFile.Template) (ht : GribFile.templateOf option = some t) (old : Option GribFile.Message)
    (hsome : ∃ seg < n, ∃ row < lines, ∃ x < side channel, ∃ k count,
      sampleAt (windows channel cov) cols (seg * lines + row + 1) x = some k ∧ fileSample imgs present cols cfac seg row k = some count ∧ count ≠ 0)
    (h12 : channel ≠ 12) (hps : ps = 3000.40307617188) (valid : String → Bool) (hvalid : valid name = true) (single : ℝ → ℝ) (hlon : |single lon| ≤ 1000) :
    ∃ (img : XritToGrib.Image) (f : NetcdfFile.File) (out : NetcdfFile.Opened) (b : NetcdfFile.OpenBand) (pixels : List (Option Rat)),
      XritToGrib.convert env disk cov (present.map files) pro hd scale offset none value pack sample blank option old = .ok (some img) ∧
      GribToNetcdf.convert valid single img = .ok (some f) ∧ NetcdfFile.openFile f = some out ∧ out.spacecraft = some sat ∧ out.spacecraftId = some wmo ∧
      out.datetime = DatetimeSpec.stamp y m d (msec / 3600000 % 24) (msec / 60000 % 60) 0 ∧ out.lon = single lon ∧ out.nx = 3712 ∧ out.ny = 3712 ∧
      (∃ gt, out.gt = .ok (some gt) ∧ ∀ x y : ℝ, gt.x0 + x * gt.dx + y * gt.rx = (x - 1856) * ps ∧ gt.y0 + x * gt.ry + y * gt.dy = (1856 - y) * ps) ∧
      out.bands = [b] ∧ b.channel = some (channel, name) ∧ b.units = "mW m^-2 sr^-1 (cm^-1)^-1" ∧ b.scale = 1 ∧ b.offset = 0 ∧
      NetcdfBand.readBlock b.var = .ok (pixels.map NetcdfBand.Cell.real) ∧ pixels.length = 3712 * 3712 ∧
      ∀ seg < n, ∀ row < lines, ∀ x < 3712, ∃ (count : Nat) (p : Option Rat),
        (match sampleAt (windows channel cov) cols (seg * lines + row + 1) x with
          | none => some 0
          | some k => fileSample imgs present cols cfac seg row k) = some count ∧
        pixels[(3712 - 1 - (seg * lines + row)) * 3712 + x]? = some p ∧
        (count = 0 → GribSpec.readMeasure b.nodata p = none) ∧
        ∀ r : Rat, (r : ℝ) = count * s + o → count ≠ 0 → some (pack r) ≠ b.nodata →
          GribSpec.readMeasure b.nodata p = some (pack r) := by
  obtain ⟨img, ps', pixels, e1, e2, e3, e4, e5, e6, e7, e8, _, e10, e11, e12, e13⟩ := C124_solar_partial h present hpr hne
    cov hf pro hd sat wmo name w lon ps s o hsay hcx hcy day msec hday hmsec hstart y m d hy hv hdate scale offset hslope hscale hoffset value pack sample
    hsample blank option t ht old hsome
  have hside : side channel = 3712 := by simp [side, h12]
  have hp : ps' = ps := e10 hps
  subst hp
  obtain ⟨f, out, b, f1, f2, f3, f4, f5, f6, f7, f8, f9, f10, _, f12, f13, _, f15, f16, f17, f18⟩ := C129_image_partial valid single img sat _ channel name w
    false (by rw [e4]; exact hsay.satellite) (by rw [e4]; exact hsay.seviri) e5 hsay.named hvalid y m d _ _ 0 e6 (date_fits day msec hday hmsec y m d hy hv hdate)
    ps' 1856 1856 hsay.standard (by
      exact position_grid (hside ▸ e8)) (by unfold GeorefSpec.Near; norm_num) (by unfold GeorefSpec.Near; norm_num) (by rw [e7]; exact hlon) pixels e11
  rw [hside] at e12 e13
  refine ⟨img, f, out, b, pixels, e1, f1, f2, f3, by rw [f4, e4], by rw [f5, e6], by rw [f6, e7], by rw [f8, e2, hside]; rfl, by rw [f9, e3, hside]; rfl,
    ⟨_, f7, fun x y => ?_⟩, f10, f12, by rw [f13]; rfl, f16, f17, f18, e12, ?_⟩
  · have := e8 x y
    rw [hside] at this
    norm_num at this ⊢
    exact this
  · rw [f15]
    exact e13

/-- xRIT to GRIB to NetCDF, thermal channels: the same, with the temperature, rounded and packed, whose effective radiance by Planck's law is the
slope times the count plus the offset.  Missing: as in `C124_temperature_partial`. -/
theorem C129_temperature_partial (h : Segments env disk files n cols lines channel planned format cfac imgs)
    (present : List Nat) (hpr : ∀ i ∈ present, i < n) (hne : present ≠ []) (cov : Option Coverage) (hf : Full channel n cols lines cov)
    (table : List Nat) (hcols : 0 < cols) (htab : 0 < table.length) (hcounts : ∀ i < n, ∀ v ∈ imgs i, v < table.length)
    (pro : XritDataset.Prologue) (hd : XritDataset.Header) (sat : String) (wmo : Int) (name : String) (w : Int) (lon ps s o : ℝ)
    (hsay : FilesSay pro hd channel sat wmo name w true lon ps s o)
    (hcx : Close ps |1000 * (if channel = 12 then pro.gridHrv else pro.gridVisIr).1|)
    (hcy : Close ps |1000 * (if channel = 12 then pro.gridHrv else pro.gridVisIr).2|)
    (day msec : Nat) (hday : day < 2 ^ 16) (hmsec : msec < 2 ^ 32) (hstart : pro.start = Time.cdsShortOf day msec)
    (y m d : Nat) (hy : 1958 ≤ y) (hv : ValidDate y m d)
    (hdate : daysBetweenYears 1958 y + daysBeforeMonth y m + (d - 1) = day + msec / 86400000)
    (value : Nat → Option Rat) (hzero : value 0 = some 0) (round : ℝ → Rat) (h0 : ∀ T, T ≤ 0 → round T ≤ 0) (h1 : ∀ T, 0 < T → 0 ≤ round T)
    (k : ℝ × ℝ × ℝ) (hk : SeviriSpec.constants channel = some k) (htable : TableOf value round k s o table) (pack : Rat → Rat)
    (sample : GribFile.Template → List (String × Int)) (hsample : plainSample sample) (blank : Datetime.Message) (option : Option String)
    (t : GribFile.Template) (ht : GribFile.templateOf option = some t) (old : Option GribFile.Message)
    (hsome : ∃ seg < n, ∃ row < lines, ∃ x < side channel, ∃ i count T,
      sampleAt (windows channel cov) cols (seg * lines + row + 1) x = some i ∧ fileSample imgs present cols cfac seg row i = some count ∧
      count < table.length ∧ 0 < T ∧ SeviriSpec.effective k T = count * s + o ∧ round T ≠ 0)
    (h12 : channel ≠ 12) (hps : ps = 3000.40307617188) (valid : String → Bool) (hvalid : valid name = true) (single : ℝ → ℝ) (hlon : |single lon| ≤ 1000) :
    ∃ (img : XritToGrib.Image) (f : NetcdfFile.File) (out : NetcdfFile.Opened) (b : NetcdfFile.OpenBand) (pixels : List (Option Rat)),
      XritToGrib.convert env disk cov (present.map files) pro hd 1 0 (some table) value pack sample blank option old = .ok (some img) ∧
      GribToNetcdf.convert valid single img = .ok (some f) ∧ NetcdfFile.openFile f = some out ∧ out.spacecraft = some sat ∧ out.spacecraftId = some wmo ∧
      out.datetime = DatetimeSpec.stamp y m d (msec / 3600000 % 24) (msec / 60000 % 60) 0 ∧ out.lon = single lon ∧ out.nx = 3712 ∧ out.ny = 3712 ∧
      (∃ gt, out.gt = .ok (some gt) ∧ ∀ x y : ℝ, gt.x0 + x * gt.dx + y * gt.rx = (x - 1856) * ps ∧ gt.y0 + x * gt.ry + y * gt.dy = (1856 - y) * ps) ∧
      out.bands = [b] ∧ b.channel = some (channel, name) ∧ b.units = "K" ∧ b.scale = 1 ∧ b.offset = 0 ∧
      NetcdfBand.readBlock b.var = .ok (pixels.map NetcdfBand.Cell.real) ∧ pixels.length = 3712 * 3712 ∧
      ∀ seg < n, ∀ row < lines, ∀ x < 3712, ∃ p : Option Rat,
        pixels[(3712 - 1 - (seg * lines + row)) * 3712 + x]? = some p ∧
        match sampleAt (windows channel cov) cols (seg * lines + row + 1) x with
        | none => GribSpec.readMeasure b.nodata p = none
        | some i => ∃ count : Nat, fileSample imgs present cols cfac seg row i = some count ∧
            (∀ T, 0 < T → SeviriSpec.effective k T = count * s + o → round T ≠ 0 → some (pack (round T)) ≠ b.nodata →
              GribSpec.readMeasure b.nodata p = some (pack (round T))) ∧
            ((¬ ∃ T, 0 < T ∧ SeviriSpec.effective k T = count * s + o) → GribSpec.readMeasure b.nodata p = none) := by
  obtain ⟨img, ps', pixels, e1, e2, e3, e4, e5, e6, e7, e8, _, e10, e11, e12, e13⟩ := C124_temperature_partial h present hpr hne
    cov hf table hcols htab hcounts pro hd sat wmo name w lon ps s o hsay hcx hcy day msec hday hmsec hstart y m d hy hv hdate value hzero round h0 h1 k hk
    htable pack sample hsample blank option t ht old hsome
  have hside : side channel = 3712 := by simp [side, h12]
  have hp : ps' = ps := e10 hps
  subst hp
  obtain ⟨f, out, b, f1, f2, f3, f4, f5, f6, f7, f8, f9, f10, _, f12, f13, _, f15, f16, f17, f18⟩ := C129_image_partial valid single img sat _ channel name w
    true (by rw [e4]; exact hsay.satellite) (by rw [e4]; exact hsay.seviri) e5 hsay.named hvalid y m d _ _ 0 e6 (date_fits day msec hday hmsec y m d hy hv hdate)
    ps' 1856 1856 hsay.standard (by
      exact position_grid (hside ▸ e8)) (by unfold GeorefSpec.Near; norm_num) (by unfold GeorefSpec.Near; norm_num) (by rw [e7]; exact hlon) pixels e11
  rw [hside] at e12 e13
  refine ⟨img, f, out, b, pixels, e1, f1, f2, f3, by rw [f4, e4], by rw [f5, e6], by rw [f6, e7], by rw [f8, e2, hside]; rfl, by rw [f9, e3, hside]; rfl,
    ⟨_, f7, fun x y => ?_⟩, f10, f12, by rw [f13]; rfl, f16, f17, f18, e12, ?_⟩
  · have := e8 x y
    rw [hside] at this
    norm_num at this ⊢
    exact this
  · rw [f15]
    exact e13

end

/-! ### Cases -/

/-- Two pixels of channel IR_108, one of them missing, in the middle of the disk. -/
noncomputable def aGribImage (pixels : Option (List (Option Rat))) : XritToGrib.Image :=
  ⟨⟨2, 1, 57, 9, some 0, pixels⟩, ⟨-(1 : ℤ) * 3000.40307617188, 3000.40307617188, 0, (0 : ℤ) * 3000.40307617188, 0, -3000.40307617188⟩, 0,
    DatetimeSpec.stamp 2014 10 24 12 0 0⟩

example : ∃ f o b, GribToNetcdf.convert (fun n => n ≠ "") id (aGribImage (some [some 290, some 0])) = .ok (some f) ∧ NetcdfFile.openFile f = some o ∧
    o.spacecraft = some "MSG3" ∧ o.bands = [b] ∧ b.units = "K" ∧ NetcdfBand.readBlock b.var = .ok [.real (some 290), .real (some 0)] := by
  obtain ⟨f, o, b, e1, e2, e3, _, _, _, _, _, _, e10, _, _, e13, _, _, _, _, e18⟩ := C129_image_partial (fun n => n ≠ "") id
    (aGribImage (some [some 290, some 0])) "MSG3" (some 323) 9 "IR_108" 108 true (by show ("MSG3", (57 : Int), some (323 : Int)) ∈ _; decide +kernel)
    (by show (57 : Int) ∈ _; decide) rfl (by decide +kernel) (by decide) 2014 10 24 12 0 0 rfl (by unfold DatetimeSpec.Fits; omega) 3000.40307617188 1 0
    (.inl rfl) rfl (by unfold GeorefSpec.Near; omega) (by unfold GeorefSpec.Near; omega) (by simp [aGribImage]) _ rfl
  exact ⟨f, o, b, e1, e2, e3, e10, e13, e18⟩

/-- A message with a grid of two points and one value. -/
def aShortMessage : GribFile.Message :=
  ⟨[("numberOfPointsAlongXAxis", 2), ("numberOfPointsAlongYAxis", 1), ("satelliteNumber", 57), ("channelNumber", 9)], false, none, [some 290]⟩

theorem aShortMessage_open : GribFile.openMessage aShortMessage = .ok (some (aGribImage none).image) := by
  have h : GribFile.defaultScaledMissing 9 = some 0 := by decide +kernel
  have : GribFile.openMessage aShortMessage = .ok (some ⟨2, 1, 57, 9, GribFile.defaultScaledMissing 9, none⟩) := rfl
  rw [this, h]
  rfl

example : GribToNetcdf.convert (fun _ => true) id (aGribImage none) = .ub :=
  C129_violated_short (fun _ => true) id (aGribImage none) aShortMessage aShortMessage_open (by show ((1 : Nat) : Int) ≠ 2 * 1; decide) 3000.40307617188 1 0 (.inl rfl) rfl
    (by unfold GeorefSpec.Near; omega) (by unfold GeorefSpec.Near; omega)

/-- The second of two segments of an image of channel VIS008. -/
example : ∃ img f out, XritToGrib.convert aDecoder (fun f => if f = [1] then some (fileOf 0 (halfOf 2 0) [9, 9] [])
      else if f = [2] then some (fileOf 0 (halfOf 2 1) [9, 9] []) else none) none
    ([1].map fun i => if i = 0 then [1] else [2]) aPrologue ⟨323, 2, 10, some 0⟩ (1 / 5) (-52 / 5) none (fun _ => none) id (fun _ => [])
    ⟨0, 0, 0, 0, 0, 0, 0, 0, 0⟩ none none = .ok (some img) ∧ GribToNetcdf.convert (fun _ => true) id img = .ok (some f) ∧
    NetcdfFile.openFile f = some out ∧ out.nx = 3712 := by
  obtain ⟨img, f, out, _, _, e1, e2, e3, _, _, _, _, e8, _⟩ := C129_solar_partial halves2 [1] (by simp) (by simp) none halves_full2 aPrologue
    ⟨323, 2, 10, some 0⟩ "MSG3" 57 "VIS008" 8 0 3000.40307617188 0.2 (-10.4) halves_say2 aClose.1 aClose.2 20750 43211000 (by norm_num) (by norm_num)
    rfl 2014 10 24 (by norm_num) (by unfold Spec.ValidDate; decide +kernel) (by decide +kernel) (1 / 5) (-52 / 5) (by norm_num) (by norm_num)
    (by norm_num) (fun _ => none) id (fun _ => []) (fun _ _ _ => rfl) ⟨0, 0, 0, 0, 0, 0, 0, 0, 0⟩ none .wmo rfl none
    ⟨1, by norm_num, 3, by norm_num, 0, by simp [side], 0, 7, by simp [windows, sampleAt], by simp [fileSample], by norm_num⟩
    (by norm_num) rfl (fun _ => true) rfl id (by simp)
  exact ⟨img, f, out, e1, e2, e3, e8⟩

open Classical in
/-- An image of channel IR_108, with a table of temperatures. -/
theorem aTemperatureFile : ∃ table img f, XritToGrib.convert aDecoder (fun f => if f = [1] then some (fileOf 0 (halfOf 9 0) [9, 9] [])
      else if f = [2] then some (fileOf 0 (halfOf 9 1) [9, 9] []) else none) none
    ([1, 0].map fun i => if i = 0 then [1] else [2]) aPrologue ⟨323, 9, 10, some 0⟩ 1 0 (some table) (fun e => some (if e = 0 then 0 else 1)) id
    (fun _ => []) ⟨0, 0, 0, 0, 0, 0, 0, 0, 0⟩ none none = .ok (some img) ∧
      GribToNetcdf.convert (fun _ => true) id img = .ok (some f) := by
  obtain ⟨table, t1, t2⟩ := aTableOf (930.659, 0.9983, 0.627) 0.2 (-10.4)
  have hbound : SeviriSpec.effective (930.659, 0.9983, 0.627) 0 < ((3711 : Nat) : ℝ) * 0.2 + -10.4 := by
    unfold SeviriSpec.effective SeviriSpec.planck
    dsimp only
    have := Real.add_one_le_exp (1.43877 * 930.659 / (0.9983 * 0 + 0.627) : ℝ)
    rw [div_lt_iff₀ (by norm_num at *)]
    norm_num at *
    linarith
  obtain ⟨w1, w2⟩ := written_pos (930.659, 0.9983, 0.627) (constants_sound 9 _ rfl) _ hbound
  obtain ⟨img, f, _, _, _, e1, e2, _⟩ := C129_temperature_partial (halves 9 (.inr rfl)) [1, 0] (by simp) (by simp) none
    (halves_full 9 (.inr rfl)) table (by norm_num) (by rw [t1]; norm_num)
    (fun i _ v hv => by have := List.mem_range.1 hv; rw [t1]; omega)
    aPrologue ⟨323, 9, 10, some 0⟩ "MSG3" 57 "IR_108" 108 0 3000.40307617188 0.2 (-10.4)
    (halves_say 9 (.inr ⟨rfl, rfl, rfl, rfl⟩)) aClose.1 aClose.2 20750 43211000 (by norm_num) (by norm_num) rfl 2014 10 24 (by norm_num)
    (by unfold Spec.ValidDate; decide +kernel) (by decide +kernel) (fun e => some (if e = 0 then 0 else 1)) (by simp)
    (fun T => if 0 < T then 1 else 0) (fun T h => by rw [if_neg (not_lt.2 h)]) (fun T h => by rw [if_pos h]; norm_num)
    (930.659, 0.9983, 0.627) rfl t2 id (fun _ => []) (fun _ _ _ => rfl) ⟨0, 0, 0, 0, 0, 0, 0, 0, 0⟩ none .wmo rfl none
    ⟨1, by norm_num, 1855, by norm_num, 0, by simp [side], 0, 3711, _, by simp [windows, sampleAt], by simp [fileSample], by rw [t1]; norm_num,
      w1, w2, by rw [if_pos w1]; norm_num⟩
    (by norm_num) rfl (fun _ => true) rfl id (by simp)
  exact ⟨table, img, f, e1, e2⟩

/-! ### HRV -/

theorem angle_near {θ φ F n : ℝ} (h0 : 0 < θ) (he : φ * n = F * θ) (f1 : n ≤ F) (f2 : F < n + 1) (hn : 39999999 < n) :
    θ ≤ φ ∧ φ ≤ θ * 1.0000001 := by
  have hp : 0 < n := by linarith
  constructor
  · refine le_of_mul_le_mul_right ?_ hp
    rw [he, mul_comm]
    exact mul_le_mul_of_nonneg_right f1 h0.le
  · refine le_of_mul_le_mul_right ?_ hp
    rw [he, mul_comm F, mul_assoc]
    refine mul_le_mul_of_nonneg_left ?_ h0.le
    norm_num
    linarith

theorem tan_near {φ : ℝ} (h0 : 0 < φ) (h1 : φ < 0.00003) : Real.tan φ ≤ φ * 1.0000001 := by
  norm_num at h1
  refine (PixelSize.tan_upper φ h0 (by linarith)).trans ?_
  have hsq : φ ^ 2 ≤ 1 / 1000000000 := by nlinarith
  rw [div_le_iff₀ (by linarith), mul_assoc]
  refine le_mul_of_one_le_right h0.le ?_
  norm_num
  linarith

theorem tan_close {a θ φ : ℝ} (h1 : -0.011 < a - 1000.13433837891) (h2 : a - 1000.13433837891 < 0.011) (h0 : 0 < θ)
    (htan : Real.tan θ = a / 35785863) (hθ : θ < a / 35785863) (hθ1 : θ < 0.000028) (hφ1 : θ ≤ φ) (hφ2 : φ ≤ θ * 1.0000001) :
    |35785863 * Real.tan φ - 1000.13433837891| < 0.012 := by
  have hφ3 : φ < 0.00003 := by
    have e : θ * 1.0000001 < 0.000028 * 1.0000001 := mul_lt_mul_of_pos_right hθ1 (by norm_num)
    exact lt_of_le_of_lt hφ2 (e.trans (by norm_num))
  have t1 := tan_near (by linarith) hφ3
  have t3 : Real.tan θ ≤ Real.tan φ := by
    rcases hφ1.eq_or_lt with q | q
    · rw [q]
    · refine (Real.tan_lt_tan_of_lt_of_lt_pi_div_two (by linarith [Real.pi_pos]) ?_ q).le
      have := Real.pi_gt_three
      have : (0.00003 : ℝ) < 1 := by norm_num
      linarith
  rw [htan, div_le_iff₀ (by norm_num)] at t3
  rw [lt_div_iff₀ (by norm_num)] at hθ
  have t4 : Real.tan φ * 35785863 ≤ a * 1.0000003 := by
    have q1 : φ * 1.0000001 ≤ θ * 1.0000001 * 1.0000001 := mul_le_mul_of_nonneg_right hφ2 (by norm_num)
    have q2 : θ * 1.0000001 * 1.0000001 ≤ θ * 1.0000003 := by
      rw [mul_assoc]
      exact mul_le_mul_of_nonneg_left (by norm_num) h0.le
    calc Real.tan φ * 35785863 ≤ θ * 1.0000003 * 35785863 := mul_le_mul_of_nonneg_right (t1.trans (q1.trans q2)) (by norm_num)
      _ = θ * 35785863 * 1.0000003 := by rw [mul_right_comm]
      _ ≤ a * 1.0000003 := mul_le_mul_of_nonneg_right hθ.le (by norm_num)
  rw [abs_lt]
  constructor
  · linarith
  · have : a * 1.0000003 = a + a * 0.0000003 := by ring
    have q : a * 0.0000003 ≤ 1001 * 0.0000003 := mul_le_mul_of_nonneg_right (by linarith) (by norm_num)
    linarith

/-- The scale factor for a pixel size near that of HRV is rounded down to a whole number, and the size it stands for is nearly the same. -/
theorem hrv_scale (a : ℝ) (h : |a - 1000.13433837891| < 0.011) : 0 < a ∧ ∃ (n : ℤ) (size : ℝ), 0 ≤ n ∧
    PixelSize.toInt (PixelSize.cfacFromPixelHSize a * 2 ^ 16) = .ok n ∧
    PixelSize.pixelHSizeFromCFAC ((n : ℝ) * (2 ^ 16)⁻¹) = .ok size ∧ |size - 1000.13433837891| < 0.012 := by
  obtain ⟨h1, h2⟩ := abs_lt.1 h
  have ha : 0 < a := by norm_num at h1; linarith
  refine ⟨ha, ?_⟩
  by_cases hab : About 1000.13433837891 a
  · obtain ⟨e, _⟩ := about_cfac (.inr rfl) hab
    obtain ⟨n, n1, n2, n3, n4⟩ := standard_scale (.inr rfl : GeorefSpec.Standard 1000.13433837891)
    exact ⟨n, _, n2, by rw [e, n1, PixelSize.toInt_int n (by omega) n3], n4, by rw [sub_self, abs_zero]; norm_num⟩
  have hc : PixelSize.cfacFromPixelHSize a = Real.pi / Real.arctan (a / 35785863) / 180 := by
    unfold About at hab
    unfold PixelSize.cfacFromPixelHSize PixelSize.sizeX PixelSize.sizeXHrv PixelSize.orbitRadius PixelSize.earthRadius
    rw [if_neg, if_neg, if_neg, if_neg]
    · norm_num
    · rw [abs_lt]; rintro ⟨_, q⟩; norm_num at q h1; linarith
    · exact hab
    · rw [abs_lt]; rintro ⟨_, q⟩; norm_num at q h1; linarith
    · rw [abs_lt]; rintro ⟨q, _⟩; norm_num at q h2; linarith
  set θ := Real.arctan (a / 35785863) with hθ
  have htan : Real.tan θ = a / 35785863 := Real.tan_arctan _
  have hθ0 : 0 < θ := Real.arctan_pos.2 (by positivity)
  have hθlt : θ < Real.pi / 2 := Real.arctan_lt_pi_div_two _
  have hθa : θ < a / 35785863 := by rw [← htan]; exact Real.lt_tan hθ0 hθlt
  have hθ1 : θ < 0.000028 := by
    refine lt_of_lt_of_le hθa ?_
    rw [div_le_iff₀ (by norm_num)]
    norm_num at h2 ⊢
    linarith
  have hθ2 : 0.000027 < θ := by
    have := PixelSize.tan_upper θ hθ0 (by norm_num at hθ1; linarith)
    rw [htan, le_div_iff₀ (by norm_num at hθ1; nlinarith)] at this
    by_contra hcon
    rw [not_lt] at hcon
    norm_num at h1 hcon hθ1
    have h3 : a / 35785863 > 0.0000279 := by
      rw [gt_iff_lt, lt_div_iff₀ (by norm_num)]; norm_num; linarith
    norm_num at h3
    nlinarith
  set F := PixelSize.cfacFromPixelHSize a * 2 ^ 16 with hF
  have hFθ : F * θ = Real.pi / 180 * 65536 := by
    rw [hF, hc]
    field_simp
    norm_num
  have p1 := Real.pi_gt_d6
  have p2 := Real.pi_lt_d6
  have hF0 : 0 < F := by
    by_contra hcon
    rw [not_lt] at hcon
    have : F * θ ≤ 0 := mul_nonpos_of_nonpos_of_nonneg hcon hθ0.le
    norm_num at p1
    rw [hFθ] at this
    linarith
  have hF1 : 40000000 < F := by
    by_contra hcon
    rw [not_lt] at hcon
    have : F * θ ≤ 40000000 * θ := mul_le_mul_of_nonneg_right hcon hθ0.le
    norm_num at p1 hθ1
    rw [hFθ] at this
    linarith
  have hF2 : F < 50000000 := by
    by_contra hcon
    rw [not_lt] at hcon
    have : 50000000 * θ ≤ F * θ := mul_le_mul_of_nonneg_right hcon hθ0.le
    norm_num at p2 hθ2
    rw [hFθ] at this
    linarith
  have f1 := Int.floor_le F
  have f2 := Int.lt_floor_add_one F
  have n1 : (39999999 : ℤ) < ⌊F⌋ := by
    have : (39999999 : ℝ) < ⌊F⌋ := by linarith
    exact_mod_cast this
  have n2 : ⌊F⌋ < (50000000 : ℤ) := by
    have : (⌊F⌋ : ℝ) < 50000000 := by linarith
    exact_mod_cast this
  have hint : PixelSize.toInt F = .ok ⌊F⌋ := by
    unfold PixelSize.toInt
    rw [if_pos hF0.le]
    dsimp only
    rw [if_pos (by omega)]
  have hback : ((⌊F⌋ : ℝ) * (2 ^ 16)⁻¹) * 2 ^ 16 = ((⌊F⌋ : ℤ) : ℝ) := by field_simp
  obtain ⟨n, hnF⟩ : ∃ n, n = ⌊F⌋ := ⟨_, rfl⟩
  rw [← hnF] at f1 f2 n1 n2 hint hback
  have hn : (39999999 : ℝ) < n := by exact_mod_cast n1
  by_cases hknown : n = 40927000
  · refine ⟨n, PixelSize.sizeXHrv, by omega, hint, ?_, by unfold PixelSize.sizeXHrv; rw [sub_self, abs_zero]; norm_num⟩
    unfold PixelSize.pixelHSizeFromCFAC
    rw [hback, PixelSize.roundC_int, PixelSize.toInt_int n (by omega) (by omega)]
    simp only [Outcome.ok_bind]
    rw [if_neg (by omega), if_neg (by omega), if_pos hknown]
    rfl
  refine ⟨n, (PixelSize.orbitRadius - PixelSize.earthRadius) * Real.tan (Real.pi / 180.0 / ((n : ℝ) * (2 ^ 16)⁻¹)) * 1000.0, by omega, hint, ?_, ?_⟩
  · unfold PixelSize.pixelHSizeFromCFAC
    rw [hback, PixelSize.roundC_int, PixelSize.toInt_int n (by omega) (by omega)]
    simp only [Outcome.ok_bind]
    rw [if_neg (by omega), if_neg (by omega), if_neg hknown, if_neg (by omega)]
    rfl
  · set φ := Real.pi / 180.0 / ((n : ℝ) * (2 ^ 16)⁻¹) with hφ
    have e : (PixelSize.orbitRadius - PixelSize.earthRadius) * Real.tan φ * 1000.0 = 35785863 * Real.tan φ := by
      unfold PixelSize.orbitRadius PixelSize.earthRadius
      norm_num
      ring
    rw [e]
    have hφn : φ * n = F * θ := by
      rw [hFθ, hφ]
      field_simp
      norm_num
    obtain ⟨hφ1, hφ2⟩ := angle_near hθ0 hφn f1 f2 hn
    exact tan_close h1 h2 hθ0 htan hθa hθ1 hφ1 hφ2

theorem netcdf_hrv (a : ℝ) (h : |a - 1000.13433837891| < 0.011) : ∃ size, |size - 1000.13433837891| < 0.012 ∧
    ∀ (single : ℝ → ℝ) (s : Georef.Source) (cx cy : ℤ), GeorefSpec.OnGrid s.gt a a cx cy → s.height = 35785831 → GeorefSpec.Near cx →
      GeorefSpec.Near cy →
    ∃ f gt, Georef.exportNetcdf single s = .ok (some f) ∧ Georef.openNetcdf f = .ok gt ∧ GeorefSpec.OnGrid gt size size cx cy ∧
      f.longitude = single s.lon := by
  obtain ⟨pa, n, size, n0, n1, n2, n3⟩ := hrv_scale a h
  refine ⟨size, n3, fun single s cx cy hg hh hcx hcy => ?_⟩
  refine ⟨_, { x0 := -(cx : ℝ) * size, dx := size, rx := 0, y0 := (cy : ℝ) * size, ry := 0, dy := -size },
    exportNetcdf_onGrid single s a a cx cy hg hh pa pa hcx hcy, ?_, rfl, rfl⟩
  unfold Georef.openNetcdf
  dsimp only
  rw [PixelSize.lfac_eq_cfac, n1]
  simp only [Outcome.ok_bind]
  rw [abs_of_nonneg (by exact_mod_cast n0 : (0:ℝ) ≤ n), n2, PixelSize.pixelV_eq_pixelH, n2]
  simp only [Outcome.ok_bind]
  refine congrArg Outcome.ok ?_
  congr 1
  · push_cast; ring
  · push_cast; ring

/-- What is opened, whatever the grid is. -/
theorem grib_image (valid : String → Bool) (single : ℝ → ℝ) (img : XritToGrib.Image) (sat : String) (h : Option Int) (channel : Nat)
    (name : String) (w : Int) (thermal : Bool) (hsat : (sat, img.image.spacecraft, h) ∈ SatSpec.satellites)
    (hsev : img.image.spacecraft ∈ SatSpec.seviri) (hchan : img.image.channel = channel) (hname : ((channel : Int), name, w, thermal) ∈ SatSpec.channels)
    (hvalid : valid name = true) (y mo d ho mi se : Nat) (hdate : img.datetime = DatetimeSpec.stamp y mo d ho mi se)
    (hfits : DatetimeSpec.Fits y mo d ho mi se) (g : Georef.NcFile) (gt : Georef.Gt)
    (hg : Georef.exportNetcdf single (GribToNetcdf.georef img) = .ok (some g)) (hgt : Georef.openNetcdf g = .ok gt)
    (hgl : g.longitude = single img.lon) (hlon : |single img.lon| ≤ 1000) (px : List (Option Rat)) (hpx : img.image.pixels = some px) :
    ∃ f o b, GribToNetcdf.convert valid single img = .ok (some f) ∧ NetcdfFile.openFile f = some o ∧
      o.spacecraft = some sat ∧ o.spacecraftId = some img.image.spacecraft ∧ o.datetime = img.datetime ∧ o.lon = single img.lon ∧
      o.gt = .ok (some gt) ∧ o.nx = img.image.sx.toNat ∧ o.ny = img.image.sy.toNat ∧ o.bands = [b] ∧ b.name = name ∧
      b.channel = some (channel, name) ∧ b.units = (if thermal then "K" else "mW m^-2 sr^-1 (cm^-1)^-1") ∧ b.type = .float64 ∧
      b.nodata = img.image.nodata ∧ b.scale = 1 ∧ b.offset = 0 ∧ NetcdfBand.readBlock b.var = .ok (px.map NetcdfBand.Cell.real) := by
  obtain ⟨hn, _, hu, _⟩ := C16_channel_descriptions img.image.spacecraft channel name w thermal hsev hname
  have hsn : Facts.spacecraftName img.image.spacecraft = sat := (spacecraftName_table _ hsat).1
  obtain ⟨vs, w1, w2⟩ := create_geostationary (valid := valid) (single := single) (src := GribToNetcdf.source img px) (s := _) rfl hg
    (by rw [hgl]; exact hlon)
    (by
      intro b hb
      simp only [GribToNetcdf.source, List.mem_singleton] at hb
      subst hb
      exact ⟨by dsimp only; rw [hchan, hn]; exact hvalid, by simp [NetcdfBandSpec.Plain], trivial⟩)
    (by simp [GribToNetcdf.source])
    (by
      intro b hb
      simp only [GribToNetcdf.source, List.mem_singleton] at hb
      subst hb
      dsimp only
      rw [hchan, hn]
      exact name_not_time hname)
  have hspace : Facts.spacecraftID sat = img.image.spacecraft := (C14_id_of_name sat _).2 (.inl ⟨_, hsat⟩)
  have hfil : (NetcdfFile.Var.other "time" [1] :: vs).filter (NetcdfFile.isBand ["time"]) = vs := by
    rw [List.filter_cons_of_neg (by decide)]
    refine NetcdfFileLemmas.filter_written w2 fun b hb => ?_
    simp only [GribToNetcdf.source, List.mem_singleton] at hb
    subst hb
    simpa [hchan, hn] using name_not_time hname
  obtain ⟨o, o1, o2, o3, o4, o5, _, o7, o8, o9⟩ := openFile_eq
    (f := ⟨(GribToNetcdf.source img px).spacecraft, (GribToNetcdf.source img px).datetime.map Datetime.netcdfTime, some g,
      some NetcdfFile.packageVersion, NetcdfFile.Var.other "time" [1] :: vs⟩)
    (sat := sat) (t := DatetimeSpec.stamp y mo d ho mi se) (by simp [GribToNetcdf.source, hsn]) (by
      have : (GribToNetcdf.source img px).datetime = some (DatetimeSpec.stamp y mo d ho mi se) := by
        simp only [GribToNetcdf.source, hdate]
      dsimp only
      rw [this]
      exact C67_round_trip _ _ _ _ _ _ hfits)
  dsimp only at o5 o7 o8 o9
  rw [hfil, NetcdfFileLemmas.sizeFrom_written w2 (by simp [GribToNetcdf.source]), Prod.mk.injEq] at o8
  rw [nonempty_name hsat, if_neg (by decide)] at o2 o3
  rw [hspace] at o3
  have hbands := bands_same img.image.spacecraft w2
  have o9' : o.bands = vs.map (NetcdfFile.openBand img.image.spacecraft) := by
    rw [o9, hfil, o3]
    simp only [fixOffset_version, Option.getD_some]
  rw [← o9'] at hbands
  simp only [GribToNetcdf.source] at hbands
  obtain ⟨b, l, hb, hl, hbl⟩ := List.forall₂_cons_left_iff.1 hbands
  rw [List.forall₂_nil_left_iff] at hl
  subst hl
  obtain ⟨⟨p1, p2, p3, p4, p5, p6, p7, p8⟩, p9⟩ := hb
  dsimp only at p1 p2 p3 p4 p5 p6 p7 p8
  refine ⟨_, o, b, ?_, o1, o2, o3, by rw [o4, hdate], ?_, o7 g _ rfl hgt, o8.1, o8.2, hbl, by rw [p1, hchan, hn], ?_, by rw [p6, hchan, hu], p2, p3, p4,
    p5, ?_⟩
  · unfold GribToNetcdf.convert
    rw [hpx]
    exact w1
  · rw [o5]
    simpa using hgl
  · exact p8 channel name w thermal (by rw [hchan]; rfl) hname hsev
  · refine p9 (by simp) fun c hc => ?_
    obtain ⟨v, _, rfl⟩ := List.mem_map.1 hc
    trivial

section
variable {env : Env} {disk : Disk} {files : Nat → Bytes} {n cols lines channel planned format : Nat}
  {cfac : Int} {imgs : Nat → List Nat}

/-- xRIT to GRIB to NetCDF, HRV: the same as `C129_solar_partial`; the size of the pixels is the standard one to within 12 mm.  Missing: as in
`C124_solar_partial`. -/
theorem C129_hrv_partial (h : Segments env disk files n cols lines channel planned format cfac imgs)
    (present : List Nat) (hpr : ∀ i ∈ present, i < n) (hne : present ≠ []) (cov : Option Coverage) (hf : Full channel n cols lines cov)
    (pro : XritDataset.Prologue) (hd : XritDataset.Header) (sat : String) (wmo : Int) (name : String) (w : Int) (lon ps s o : ℝ)
    (hsay : FilesSay pro hd channel sat wmo name w false lon ps s o)
    (hcx : Close ps |1000 * (if channel = 12 then pro.gridHrv else pro.gridVisIr).1|)
    (hcy : Close ps |1000 * (if channel = 12 then pro.gridHrv else pro.gridVisIr).2|)
    (day msec : Nat) (hday : day < 2 ^ 16) (hmsec : msec < 2 ^ 32) (hstart : pro.start = Time.cdsShortOf day msec)
    (y m d : Nat) (hy : 1958 ≤ y) (hv : ValidDate y m d)
    (hdate : daysBetweenYears 1958 y + daysBeforeMonth y m + (d - 1) = day + msec / 86400000)
    (scale offset : Rat) (hslope : s ≠ 0) (hscale : (scale : ℝ) = s) (hoffset : (offset : ℝ) = o) (value : Nat → Option Rat) (pack : Rat → Rat)
    (sample : GribFile.Template → List (String × Int)) (hsample : plainSample sample) (blank : Datetime.Message) (option : Option String)
    (t : GribFile.Template) (ht : GribFile.templateOf option = some t) (old : Option GribFile.Message)
    (hsome : ∃ seg < n, ∃ row < lines, ∃ x < side channel, ∃ k count,
      sampleAt (windows channel cov) cols (seg * lines + row + 1) x = some k ∧ fileSample imgs present cols cfac seg row k = some count ∧ count ≠ 0)
    (h12 : channel = 12) (hps : ps = 1000.13433837891) (valid : String → Bool) (hvalid : valid name = true) (single : ℝ → ℝ) (hlon : |single lon| ≤ 1000) :
    ∃ (img : XritToGrib.Image) (f : NetcdfFile.File) (out : NetcdfFile.Opened) (b : NetcdfFile.OpenBand) (pixels : List (Option Rat)),
      XritToGrib.convert env disk cov (present.map files) pro hd scale offset none value pack sample blank option old = .ok (some img) ∧
      GribToNetcdf.convert valid single img = .ok (some f) ∧ NetcdfFile.openFile f = some out ∧ out.spacecraft = some sat ∧ out.spacecraftId = some wmo ∧
      out.datetime = DatetimeSpec.stamp y m d (msec / 3600000 % 24) (msec / 60000 % 60) 0 ∧ out.lon = single lon ∧ out.nx = 11136 ∧ out.ny = 11136 ∧
      (∃ gt size, out.gt = .ok (some gt) ∧ |size - ps| < 0.012 ∧ ∀ x y : ℝ, gt.x0 + x * gt.dx + y * gt.rx = (x - 5568) * size ∧
        gt.y0 + x * gt.ry + y * gt.dy = (5568 - y) * size) ∧
      out.bands = [b] ∧ b.channel = some (channel, name) ∧ b.units = "mW m^-2 sr^-1 (cm^-1)^-1" ∧ b.scale = 1 ∧ b.offset = 0 ∧
      NetcdfBand.readBlock b.var = .ok (pixels.map NetcdfBand.Cell.real) ∧ pixels.length = 11136 * 11136 ∧
      ∀ seg < n, ∀ row < lines, ∀ x < 11136, ∃ (count : Nat) (p : Option Rat),
        (match sampleAt (windows channel cov) cols (seg * lines + row + 1) x with
          | none => some 0
          | some k => fileSample imgs present cols cfac seg row k) = some count ∧
        pixels[(11136 - 1 - (seg * lines + row)) * 11136 + x]? = some p ∧
        (count = 0 → GribSpec.readMeasure b.nodata p = none) ∧
        ∀ r : Rat, (r : ℝ) = count * s + o → count ≠ 0 → some (pack r) ≠ b.nodata →
          GribSpec.readMeasure b.nodata p = some (pack r) := by
  obtain ⟨img, ps', pixels, e1, e2, e3, e4, e5, e6, e7, e8, e9, _, e11, e12, e13⟩ := C124_solar_partial h present hpr hne
    cov hf pro hd sat wmo name w lon ps s o hsay hcx hcy day msec hday hmsec hstart y m d hy hv hdate scale offset hslope hscale hoffset value pack sample
    hsample blank option t ht old hsome
  have hside : side channel = 11136 := by simp [side, h12]
  subst hps
  obtain ⟨size, s1, s2⟩ := netcdf_hrv ps' e9
  obtain ⟨g, gt, g1, g2, g3, g4⟩ := s2 single (GribToNetcdf.georef img) 5568 5568 (by
    rw [hside] at e8
    show GeorefSpec.OnGrid img.gt ps' ps' 5568 5568
    generalize img.gt = gt at *
    obtain ⟨x0, dx, rx, y0, ry, dy⟩ := gt
    obtain ⟨a1, a2⟩ := e8 0 0
    obtain ⟨b1, b2⟩ := e8 1 0
    obtain ⟨c1, c2⟩ := e8 0 1
    dsimp only at a1 a2 b1 b2 c1 c2
    unfold GeorefSpec.OnGrid
    rw [Georef.Gt.mk.injEq]
    clear e8 e9 s1 s2 hsay hcx hcy
    norm_num at *
    refine ⟨?_, ?_, ?_, ?_, ?_, ?_⟩ <;> linarith) rfl (by unfold GeorefSpec.Near; norm_num) (by unfold GeorefSpec.Near; norm_num)
  obtain ⟨f, out, b, f1, f2, f3, f4, f5, f6, f7, f8, f9, f10, _, f12, f13, _, f15, f16, f17, f18⟩ := grib_image valid single img sat _ channel name w
    false (by rw [e4]; exact hsay.satellite) (by rw [e4]; exact hsay.seviri) e5 hsay.named hvalid y m d _ _ 0 e6 (date_fits day msec hday hmsec y m d hy hv hdate)
    g gt g1 g2 g4 (by rw [e7]; exact hlon) pixels e11
  rw [hside] at e12 e13
  refine ⟨img, f, out, b, pixels, e1, f1, f2, f3, by rw [f4, e4], by rw [f5, e6], by rw [f6, e7], by rw [f8, e2, hside]; rfl, by rw [f9, e3, hside]; rfl,
    ⟨_, size, f7, s1, fun x y => ?_⟩, f10, f12, by rw [f13]; rfl, f16, f17, f18, e12, ?_⟩
  · unfold GeorefSpec.OnGrid at g3
    rw [g3]
    push_cast
    constructor <;> ring
  · rw [f15]
    exact e13

end

/-! ### A case -/

def hrvHalf (i : Nat) : List Rec :=
  [.imageStructure 10 2 5568 1, .segmentId 323 12 (i + 1) 1 2 2,
   .navigation (str "GEOS(+000.0)" ++ List.replicate 20 32) (-40927000) (-40927000) 5566 5566]

theorem hrvHalf_ok (i : Nat) (hi : i < 2) : FileOk 0 (hrvHalf i) [9, 9] := by
  have : i = 0 ∨ i = 1 := by omega
  rcases this with rfl | rfl
  all_goals
    refine fileOk_plain (by decide) (by decide) (by decide +kernel) ?_ (by simp [hrvHalf])
    intro r hr
    simp only [hrvHalf, List.mem_cons, List.not_mem_nil, or_false] at hr
    rcases hr with rfl | rfl | rfl <;> simp only [Rec.InRange] <;> decide +kernel

theorem hrvHalves : Segments aDecoder
    (fun f => if f = [1] then some (fileOf 0 (hrvHalf 0) [9, 9] [])
      else if f = [2] then some (fileOf 0 (hrvHalf 1) [9, 9] []) else none)
    (fun i => if i = 0 then [1] else [2]) 2 2 5568 12 2 2 (-40927000) (fun _ => List.range (2 * 5568)) := by
  refine ⟨fun i hi => by split <;> simp, by decide, fun _ => rfl, fun i hi => ?_⟩
  refine ⟨hrvHalf i, [9, 9], [], 10, 1, 323, 1, -40927000, 5566, 5566, ?_, hrvHalf_ok i hi,
    rfl, by decide, rfl, rfl, rfl, by simp⟩
  have : i = 0 ∨ i = 1 := by omega
  rcases this with rfl | rfl <;> simp

/-- Windows of two columns. -/
def aNarrowCoverage : Coverage := ⟨1, 8064, 2825, 2826, 8065, 11136, 1500, 1501⟩

theorem hrvHalves_full : Full 12 2 2 5568 (some aNarrowCoverage) := by
  refine ⟨fun _ => rfl, by decide, by decide, ?_, fun g hg => ?_⟩
  · show ValidCoverage aNarrowCoverage 2
    exact ⟨⟨by decide, by decide, by decide⟩, .inl ⟨⟨by decide, by decide, by decide⟩, by decide⟩⟩
  · have hg : g < 11136 := hg
    simp only [windows, if_true, XritSpec.OnGrid, aNarrowCoverage]
    omega

/-- A prologue with the grid of HRV. -/
noncomputable def aHrvPrologue : XritDataset.Prologue := { aPrologue with gridHrv := (1.00013433837891, 1.00013433837891) }

theorem aCloseHrv : Close 1000.13433837891 |1000 * aHrvPrologue.gridHrv.1| ∧ Close 1000.13433837891 |1000 * aHrvPrologue.gridHrv.2| := by
  constructor <;>
    (unfold Close
     simp only [aHrvPrologue]
     rw [abs_le, abs_of_pos (by norm_num)]
     norm_num)

theorem hrvHalves_say : FilesSay aHrvPrologue ⟨323, 12, 10, some 0⟩ 12 "MSG3" 57 "HRV" 7 false 0 1000.13433837891 0.2 (-10.4) :=
  ⟨⟨by simp, by simp, by simp [aHrvPrologue, aPrologue], by simp⟩, rfl,
    by show ("MSG3", (57 : Int), some ((323 : Nat) : Int)) ∈ _; decide +kernel, by decide +kernel, by decide +kernel, rfl, .inr rfl,
    close_about aCloseHrv.1, close_about aCloseHrv.2, by simp [aHrvPrologue, aPrologue]⟩

/-- The second of two segments of an image of HRV. -/
example : ∃ img f out, XritToGrib.convert aDecoder (fun f => if f = [1] then some (fileOf 0 (hrvHalf 0) [9, 9] [])
      else if f = [2] then some (fileOf 0 (hrvHalf 1) [9, 9] []) else none) (some aNarrowCoverage)
    ([1].map fun i => if i = 0 then [1] else [2]) aHrvPrologue ⟨323, 12, 10, some 0⟩ (1 / 5) (-52 / 5) none (fun _ => none) id (fun _ => [])
    ⟨0, 0, 0, 0, 0, 0, 0, 0, 0⟩ none none = .ok (some img) ∧ GribToNetcdf.convert (fun _ => true) id img = .ok (some f) ∧
    NetcdfFile.openFile f = some out ∧ out.nx = 11136 := by
  obtain ⟨img, f, out, _, _, e1, e2, e3, _, _, _, _, e8, _⟩ := C129_hrv_partial hrvHalves [1] (by simp) (by simp) (some aNarrowCoverage) hrvHalves_full
    aHrvPrologue ⟨323, 12, 10, some 0⟩ "MSG3" 57 "HRV" 7 0 1000.13433837891 0.2 (-10.4) hrvHalves_say aCloseHrv.1 aCloseHrv.2 20750 43211000 (by norm_num)
    (by norm_num) rfl 2014 10 24 (by norm_num) (by unfold Spec.ValidDate; decide +kernel) (by decide +kernel) (1 / 5) (-52 / 5) (by norm_num)
    (by norm_num) (by norm_num) (fun _ => none) id (fun _ => []) (fun _ _ _ => rfl) ⟨0, 0, 0, 0, 0, 0, 0, 0, 0⟩ none .wmo rfl none
    ⟨1, by norm_num, 3, by norm_num, 11136 - 2826, by simp [side], 0, 7, by decide +kernel, by simp [fileSample], by norm_num⟩
    rfl rfl (fun _ => true) rfl id (by simp)
  exact ⟨img, f, out, e1, e2, e3, e8⟩

end Msat.Props
