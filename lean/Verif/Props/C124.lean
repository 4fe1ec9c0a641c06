import Verif.Model.XritToGrib
import Verif.Props.C44
import Verif.Props.C78
import Verif.Props.C122

/-
C124 From xRIT files to GRIB: what is opened afterwards is what the files have.
-/
namespace Msat.Props
open Msat Machine Spec Hrit HritSpec XritToNetcdf
open Msat.PixelSize (sizeX sizeY sizeXHrv sizeYHrv seviriDXFromPixelHSize seviriDYFromPixelVSize nearbyint_int toInt_int seviriDY_eq_seviriDX gridSize)
open Msat.Xrit (Coverage)
open Msat.XritSpec (sampleAt)

/-! ### Pixel sizes -/

/-- Pixel sizes that GRIB takes for a standard one. -/
def Close (ps a : ℝ) : Prop := |a - ps| ≤ 0.0001

theorem close_about {ps a : ℝ} (h : Close ps a) : About ps a := lt_of_le_of_lt h (by norm_num)

theorem close_dx {ps : ℝ} (hps : GeorefSpec.Standard ps) :
    ∃ d ps', PixelSize.pixelHSizeFromSeviriDX d = .ok ps' ∧ |ps' - ps| < 0.011 ∧ (ps = 3000.40307617188 → ps' = ps) ∧
      ∀ a, Close ps a → seviriDXFromPixelHSize a = .ok d := by
  rcases hps with rfl | rfl
  · refine ⟨3622, sizeX, dx_sizeX.2, by unfold sizeX; norm_num, fun _ => rfl, fun a h => ?_⟩
    unfold seviriDXFromPixelHSize
    rw [if_pos (show |a - sizeX| < 0.001 from close_about h)]
  · refine ⟨10867, gridSize 10867, dx_sizeXHrv.2, ?_, fun h => absurd h (by norm_num), fun a h => ?_⟩
    · obtain ⟨h1, h2⟩ := PixelSize.hrv_size
      rw [abs_lt]
      norm_num at *
      constructor <;> linarith
    · have hab := close_about h
      obtain ⟨e, _⟩ := about_cfac (.inr rfl) hab
      have e2 := dx_sizeXHrv.1
      unfold seviriDXFromPixelHSize at e2 ⊢
      unfold About at hab
      obtain ⟨h1, h2⟩ := abs_lt.1 hab
      rw [if_neg (by unfold sizeX sizeXHrv; rw [abs_lt]; norm_num)] at e2
      rw [if_neg (by unfold sizeX; rw [abs_lt]; norm_num at *; intro; linarith), e]
      exact e2

theorem close_offset {ps : ℝ} (hps : GeorefSpec.Standard ps) : ∃ c : ℤ, 0 ≤ c ∧ c ≤ 6000 ∧
    ∀ (gt : Georef.Gt) (a b : ℝ) (cx cy : ℤ), GeorefSpec.OnGrid gt a b cx cy → Close ps a → Close ps b → Georef.gridOffset gt = some c := by
  rcases hps with rfl | rfl
  · refine ⟨1856, by norm_num, by norm_num, fun gt a b cx cy hg ha hb => ?_⟩
    unfold GeorefSpec.OnGrid at hg
    unfold Georef.gridOffset
    rw [hg]
    dsimp only
    have hb' : |-b - -3000.40307617188| = |b - 3000.40307617188| := by rw [← abs_neg]; congr 1; ring
    obtain ⟨h1, h2⟩ := abs_le.1 ha
    rw [if_pos, if_neg, if_neg]
    · rfl
    · rw [not_lt]; unfold sizeY; exact hb'.trans_le hb
    · rw [not_lt]; exact ha
    · unfold sizeXHrv; rw [lt_abs]; left; norm_num at *; linarith
  · refine ⟨5568, by norm_num, by norm_num, fun gt a b cx cy hg ha hb => ?_⟩
    unfold GeorefSpec.OnGrid at hg
    unfold Georef.gridOffset
    rw [hg]
    dsimp only
    have hb' : |-b - -1000.13433837891| = |b - 1000.13433837891| := by rw [← abs_neg]; congr 1; ring
    rw [if_neg, if_neg]
    · rfl
    · rw [not_lt]; unfold sizeYHrv; exact hb'.trans_le hb
    · rw [not_lt]; exact ha

/-- GRIB: pixel sizes near a standard one become the standard one, nearly for HRV. -/
theorem grib_about (ps : ℝ) (hps : GeorefSpec.Standard ps) : ∃ ps', |ps' - ps| < 0.011 ∧ (ps = 3000.40307617188 → ps' = ps) ∧
    ∀ (s : Georef.Source) (a b : ℝ) (cx cy : ℤ), GeorefSpec.OnGrid s.gt a b cx cy → s.height = 35785831 → Close ps a → Close ps b →
      GeorefSpec.Near cx → GeorefSpec.Near cy →
    ∃ g gt, Georef.exportGrib s = .ok (some g) ∧ Georef.openGrib g = .ok gt ∧ GeorefSpec.OnGrid gt ps' ps' cx cy ∧ g.lon = s.lon := by
  obtain ⟨d, ps', d2, d3, d4, d1⟩ := close_dx hps
  obtain ⟨c, c3, c4, hc⟩ := close_offset hps
  refine ⟨ps', d3, d4, fun s a b cx cy hg hh ha hb hcx hcy => ?_⟩
  have hc := hc s.gt a b cx cy hg ha hb
  obtain ⟨_, pa⟩ := about_cfac hps (close_about ha)
  obtain ⟨_, pb⟩ := about_cfac hps (close_about hb)
  obtain ⟨gt, hgt, hgt'⟩ := gtOf_onGrid c cx cy d s.lon ps' d2
  refine ⟨⟨c - cx, c - cy, d, d, c, c, s.lon⟩, gt, ?_, hgt, hgt', rfl⟩
  unfold Georef.exportGrib
  rw [if_neg (by rw [hh]; simp [Georef.orbitRadiusForGdal])]
  unfold Georef.gridOf
  rw [hc]
  unfold GeorefSpec.OnGrid at hg
  rw [hg]
  dsimp only
  rw [if_neg (by simp), if_neg (by simp), neg_neg]
  have e1 : (c : ℝ) + -(cx : ℝ) * a / a = ((c - cx : ℤ) : ℝ) := by
    push_cast; field_simp; ring
  have e2 : (c : ℝ) - (cy : ℝ) * b / b = ((c - cy : ℤ) : ℝ) := by
    push_cast; field_simp
  unfold GeorefSpec.Near at hcx hcy
  rw [e1, e2, nearbyint_int, nearbyint_int, toInt_int _ (by omega) (by omega), toInt_int _ (by omega) (by omega), seviriDY_eq_seviriDX, d1 a ha,
    d1 b hb]
  rfl

/-! ### From the files of the product to the image that is opened -/

section
variable {env : Env} {disk : Disk} {files : Nat → Bytes} {n cols lines channel planned format : Nat}
  {cfac : Int} {imgs : Nat → List Nat}

theorem index_lt {c g x : Nat} (hx : x < side c) : (side c - 1 - g) * side c + x < side c * side c := by
  have hpos : 0 < side c := by unfold side; split <;> norm_num
  have : side c - 1 - g + 1 ≤ side c := by omega
  calc _ < (side c - 1 - g) * side c + side c := by omega
    _ = (side c - 1 - g + 1) * side c := by ring
    _ ≤ _ := Nat.mul_le_mul_right _ this

/-- The image of xRIT files, as other drivers see it. -/
theorem xrit_image (h : Segments env disk files n cols lines channel planned format cfac imgs)
    (present : List Nat) (hpr : ∀ i ∈ present, i < n) (hne : present ≠ []) (cov : Option Coverage) (hf : Full channel n cols lines cov)
    (table : Option (List Nat)) (look : Nat → Option Nat) (hlook : Looks imgs n cols table look)
    (pro : XritDataset.Prologue) (hd : XritDataset.Header) (sat : String) (wmo : Int) (name : String) (w : Int) (thermal : Bool) (lon ps s o : ℝ)
    (hsay : FilesSay pro hd channel sat wmo name w thermal lon ps s o)
    (day msec : Nat) (hstart : pro.start = Time.cdsShortOf day msec) (y m d : Nat) (hy : 1958 ≤ y) (hv : ValidDate y m d)
    (hdate : daysBetweenYears 1958 y + daysBeforeMonth y m + (d - 1) = day + msec / 86400000) :
    ∃ da ds px, Hrit.scanFiles disk cov (present.map files) = .ok da ∧ XritDataset.init da.hrv pro hd = .ok ds ∧
      readLines da (segDisk env disk) ds.band.blockX table [] (List.range ds.ny) = .ok (some px) ∧
      ds.nx = side channel ∧ ds.ny = side channel ∧ ds.spacecraftId = wmo ∧ ds.band.channelId = channel ∧ ds.band.linear = !thermal ∧ ds.sublon = lon ∧
      (ds.datetime.map fun c => UInt8.ofNat c.toNat) = DatetimeSpec.stamp y m d (msec / 3600000 % 24) (msec / 60000 % 60) 0 ∧
      GeorefSpec.OnGrid (matrix ds.geotransform) |1000 * (if channel = 12 then pro.gridHrv else pro.gridVisIr).1|
        |1000 * (if channel = 12 then pro.gridHrv else pro.gridVisIr).2| (side channel / 2 : ℕ) (side channel / 2 : ℕ) ∧
      px.length = side channel * side channel ∧
      ∀ seg < n, ∀ row < lines, ∀ x < side channel, ∃ v,
        (match sampleAt (windows channel cov) cols (seg * lines + row + 1) x with
          | none => some 0
          | some k => (fileSample imgs present cols cfac seg row k).bind look) = some v ∧
        px[(side channel - 1 - (seg * lines + row)) * side channel + x]? = some v := by
  obtain ⟨da, px, e1, ehrv, e2, hlen, hpx⟩ := lines_ok h present hpr hne cov hf table look hlook
  obtain ⟨ds, d1, d2, d3, d4, d5, d6, d7, d8, d9, d10, d11, d12⟩ := C82_description (channel == 12) pro hd hsay.readable sat wmo hsay.satellite
    hsay.seviri name w thermal (by rw [hsay.ofChannel]; exact hsay.named)
  obtain ⟨lon', b', i1, _, i3⟩ := init_ok (channel == 12) pro hd hsay.readable
  have hds := d1.symm.trans i3
  injection hds with hds
  have hgt : ds.geotransform = XritDataset.geotransformOf (channel == 12) pro := by rw [hds]
  have hdt : ds.datetime = XritDataset.dateText pro.start.unixtime := by rw [hds]
  have hsl : ds.sublon = lon := by
    rw [hsay.below] at d6
    exact (Option.some.inj d6).symm
  have hnx : ds.nx = side channel := by rw [d2]; unfold side; by_cases hc : channel = 12 <;> simp [hc]
  have hlin : ds.band.linear = !thermal := by
    cases ht : thermal <;> cases hl : ds.band.linear <;> simp_all
  have hgrid := matrix_onGrid (channel == 12) pro
  rw [← hgt] at hgrid
  have hwhich : (if (channel == 12) = true then pro.gridHrv else pro.gridVisIr) = if channel = 12 then pro.gridHrv else pro.gridVisIr := by
    by_cases hc : channel = 12 <;> simp [hc]
  have hhalf : (if (channel == 12) = true then (5568 : ℤ) else 1856) = ((side channel / 2 : ℕ) : ℤ) := by
    unfold side
    by_cases hc : channel = 12 <;> simp [hc]
  rw [hwhich, hhalf] at hgrid
  refine ⟨da, ds, px, e1, by rw [ehrv]; exact d1, by rw [d11, d3, hnx]; exact e2, hnx, by rw [d3, hnx], d4, by rw [d7, hsay.ofChannel], hlin, hsl, ?_,
    hgrid, hlen, ?_⟩
  · rw [hdt, hstart]
    exact dateText_stamp day msec y m d hy hv hdate
  · intro seg hs row hr x hx
    have he := hpx seg hs row hr x hx
    rw [List.getElem?_eq_getElem (by rw [hlen]; exact index_lt hx)] at he ⊢
    exact ⟨_, he.symm, rfl⟩

theorem half_near (channel : Nat) : GeorefSpec.Near ((side channel / 2 : ℕ) : ℤ) := by
  unfold GeorefSpec.Near side
  split <;> omega

theorem toGrib (h : Segments env disk files n cols lines channel planned format cfac imgs)
    (present : List Nat) (hpr : ∀ i ∈ present, i < n) (hne : present ≠ []) (cov : Option Coverage) (hf : Full channel n cols lines cov)
    (table : Option (List Nat)) (look : Nat → Option Nat) (hlook : Looks imgs n cols table look)
    (pro : XritDataset.Prologue) (hd : XritDataset.Header) (sat : String) (wmo : Int) (name : String) (w : Int) (thermal : Bool) (lon ps s o : ℝ)
    (hsay : FilesSay pro hd channel sat wmo name w thermal lon ps s o)
    (hcx : Close ps |1000 * (if channel = 12 then pro.gridHrv else pro.gridVisIr).1|)
    (hcy : Close ps |1000 * (if channel = 12 then pro.gridHrv else pro.gridVisIr).2|)
    (day msec : Nat) (hday : day < 2 ^ 16) (hmsec : msec < 2 ^ 32) (hstart : pro.start = Time.cdsShortOf day msec)
    (y m d : Nat) (hy : 1958 ≤ y) (hv : ValidDate y m d)
    (hdate : daysBetweenYears 1958 y + daysBeforeMonth y m + (d - 1) = day + msec / 86400000)
    (scale offset : Rat) (hscale : scale ≠ 0) (value : Nat → Option Rat) (pack : Rat → Rat) (sample : GribFile.Template → List (String × Int))
    (hsample : plainSample sample) (blank : Datetime.Message) (option : Option String) (t : GribFile.Template)
    (ht : GribFile.templateOf option = some t) (old : Option GribFile.Message)
    (hsome : ∃ seg < n, ∃ row < lines, ∃ x < side channel, ∃ v,
      (match sampleAt (windows channel cov) cols (seg * lines + row + 1) x with
        | none => some 0
        | some k => (fileSample imgs present cols cfac seg row k).bind look) = some v ∧ XritToGrib.number (!thermal) value v ≠ 0) :
    ∃ img ps' pixels, XritToGrib.convert env disk cov (present.map files) pro hd scale offset table value pack sample blank option old = .ok (some img) ∧
      img.image.sx = side channel ∧ img.image.sy = side channel ∧ img.image.spacecraft = wmo ∧ img.image.channel = channel ∧
      img.datetime = DatetimeSpec.stamp y m d (msec / 3600000 % 24) (msec / 60000 % 60) 0 ∧ img.lon = lon ∧
      GeorefSpec.OnGrid img.gt ps' ps' (side channel / 2 : ℕ) (side channel / 2 : ℕ) ∧ |ps' - ps| < 0.011 ∧
      (ps = 3000.40307617188 → ps' = ps) ∧ img.image.pixels = some pixels ∧ pixels.length = side channel * side channel ∧
      img.image.nodata = GribFile.defaultScaledMissing channel ∧
      ∀ seg < n, ∀ row < lines, ∀ x < side channel, ∃ v,
        (match sampleAt (windows channel cov) cols (seg * lines + row + 1) x with
          | none => some 0
          | some k => (fileSample imgs present cols cfac seg row k).bind look) = some v ∧
        pixels[(side channel - 1 - (seg * lines + row)) * side channel + x]? =
          some (if XritToGrib.number (!thermal) value v = 0 then GribFile.defaultScaledMissing channel
            else some (pack (XritToGrib.number (!thermal) value v * scale + offset))) := by
  obtain ⟨da, ds, px, e1, d1, e2, hnx, hny, d4, d7, hlin, hsl, hstamp, hgrid, hlen, hpixel⟩ := xrit_image h present hpr hne cov hf table look hlook pro
    hd sat wmo name w thermal lon ps s o hsay day msec hstart y m d hy hv hdate
  obtain ⟨ps', g4, g5, hgrib⟩ := grib_about ps hsay.standard
  obtain ⟨g, gt, g1, g2, g3, g6⟩ := hgrib ⟨matrix ds.geotransform, Georef.orbitRadiusForGdal, ds.sublon, ds.spacecraftId⟩ _ _ _ _ hgrid rfl hcx hcy
    (half_near channel) (half_near channel)
  obtain ⟨time, t1, t2⟩ := C45_round_trip_partial { blank with edition := XritToGrib.edition t } y m d (msec / 3600000 % 24) (msec / 60000 % 60) 0
    (date_fits day msec hday hmsec y m d hy hv hdate) (by cases t <;> simp [XritToGrib.edition])
  have hwmo : ((wmo.toNat : ℕ) : ℤ) = wmo := by
    have : wmo = 55 ∨ wmo = 56 ∨ wmo = 57 ∨ wmo = 70 := by simpa [SatSpec.seviri] using hsay.seviri
    omega
  obtain ⟨msg, c1, c2⟩ := open_created pack sample hsample t (XritToGrib.source ds scale offset value px) rfl
    ⟨px.map (XritToGrib.number ds.band.linear value), some 0, scale, offset, some ds.band.channelId⟩ [] rfl wmo.toNat channel
    (by simp only [XritToGrib.source]; rw [d4]) (by dsimp only; rw [d7])
    (fun _ => ⟨by rw [hwmo]; exact hsay.seviri, _, hsay.named, rfl⟩)
    (by simp only [XritToGrib.source, List.length_map]; rw [hlen, hny, hnx]) hscale
    (by
      obtain ⟨seg, hs, row, hr, x, hx, v, v1, v2⟩ := hsome
      obtain ⟨v', v3, v4⟩ := hpixel seg hs row hr x hx
      have : v' = v := Option.some.inj (v3.symm.trans v1)
      subst this
      refine ⟨XritToGrib.number ds.band.linear value v', List.mem_map_of_mem (List.mem_of_getElem? v4), ?_⟩
      rw [hlin]
      simpa using v2)
  have hcopy := copy_created pack sample option t ht old _ msg c1 _ c2
  dsimp only at hcopy
  refine ⟨⟨⟨side channel, side channel, wmo.toNat, channel, GribFile.defaultScaledMissing channel, some ((px.map (XritToGrib.number ds.band.linear value)).map
      fun v => if some v = some 0 then GribFile.defaultScaledMissing channel else some (pack (v * scale + offset)))⟩, gt, g.lon,
      DatetimeSpec.stamp y m d (msec / 3600000 % 24) (msec / 60000 % 60) 0⟩, ps', _, ?_, rfl, rfl, hwmo, rfl, rfl, ?_, g3, g4, g5, rfl, ?_, rfl, ?_⟩
  rotate_left
  · rw [g6, hsl]
  · rw [List.length_map, List.length_map, hlen]
  · intro seg hs row hr x hx
    obtain ⟨v, v1, v2⟩ := hpixel seg hs row hr x hx
    refine ⟨v, v1, ?_⟩
    rw [List.getElem?_map, List.getElem?_map, v2, hlin]
    simp
  · unfold XritToGrib.convert
    rw [e1]
    simp only [Outcome.ok_bind]
    rw [d1]
    simp only [Outcome.ok_bind]
    rw [ht]
    dsimp only
    rw [e2]
    simp only [Outcome.ok_bind]
    rw [g1]
    simp only [Outcome.ok_bind]
    rw [hstamp, t1]
    simp only [Outcome.ok_bind]
    rw [hcopy]
    simp only [Outcome.ok_bind]
    rw [g2]
    simp only [Outcome.ok_bind]
    rw [t2]
    simp only [XritToGrib.source, hny, hnx]
    rfl

/-- xRIT to GRIB, solar channels: the segments of a product that were found, in any order, are converted, with any of the templates.  What is
opened has the satellite, the channel, the date and time to the minute, the longitude and the size of the product; the middle of the image is
the point below the satellite, with pixels of the standard size, or nearly for HRV; and the pixel of each sample is missing if the count is 0,
and else the radiance that the calibration in the prologue gives for the count, packed.  Missing: radiances that are packed to the missing
value of the channel (`C124_violated_zero`), images with no sample above 0 (`C124_violated_blank`), and pixel sizes further than a tenth of a millimetre from
the standard ones. -/
theorem C124_solar_partial (h : Segments env disk files n cols lines channel planned format cfac imgs)
    (present : List Nat) (hpr : ∀ i ∈ present, i < n) (hne : present ≠ []) (cov : Option Coverage) (hf : Full channel n cols lines cov)
    (pro : XritDataset.Prologue) (hd : XritDataset.Header) (sat : String) (wmo : Int) (name : String) (w : Int) (lon ps s o : ℝ)
    (hsay : FilesSay pro hd channel sat wmo name w false lon ps s o)
    (hcx : Close ps |1000 * (if channel = 12 then pro.gridHrv else pro.gridVisIr).1|)
    (hcy : Close ps |1000 * (if channel = 12 then pro.gridHrv else pro.gridVisIr).2|)
    (day msec : Nat) (hday : day < 2 ^ 16) (hmsec : msec < 2 ^ 32) (hstart : pro.start = Time.cdsShortOf day msec)
    (y m d : Nat) (hy : 1958 ≤ y) (hv : ValidDate y m d)
    (hdate : daysBetweenYears 1958 y + daysBeforeMonth y m + (d - 1) = day + msec / 86400000)
    (scale offset : Rat) (hslope : s ≠ 0) (hscale : (scale : ℝ) = s) (hoffset : (offset : ℝ) = o) (value : Nat → Option Rat) (pack : Rat → Rat)
    (sample : GribFile.Template → List (String × Int)) (hsample : plainSample sample) (blank : Datetime.Message) (option : Option String)
    (t : GribFile.Template) (ht : GribFile.templateOf option = some t) (old : Option GribFile.Message)
    (hsome : ∃ seg < n, ∃ row < lines, ∃ x < side channel, ∃ k count,
      sampleAt (windows channel cov) cols (seg * lines + row + 1) x = some k ∧ fileSample imgs present cols cfac seg row k = some count ∧ count ≠ 0) :
    ∃ img ps' pixels, XritToGrib.convert env disk cov (present.map files) pro hd scale offset none value pack sample blank option old = .ok (some img) ∧
      img.image.sx = side channel ∧ img.image.sy = side channel ∧ img.image.spacecraft = wmo ∧ img.image.channel = channel ∧
      img.datetime = DatetimeSpec.stamp y m d (msec / 3600000 % 24) (msec / 60000 % 60) 0 ∧ img.lon = lon ∧
      (∀ x y : ℝ, img.gt.x0 + x * img.gt.dx + y * img.gt.rx = (x - side channel / 2) * ps' ∧
        img.gt.y0 + x * img.gt.ry + y * img.gt.dy = (side channel / 2 - y) * ps') ∧ |ps' - ps| < 0.011 ∧ (ps = 3000.40307617188 → ps' = ps) ∧
      img.image.pixels = some pixels ∧ pixels.length = side channel * side channel ∧
      ∀ seg < n, ∀ row < lines, ∀ x < side channel, ∃ (count : Nat) (p : Option Rat),
        (match sampleAt (windows channel cov) cols (seg * lines + row + 1) x with
          | none => some 0
          | some k => fileSample imgs present cols cfac seg row k) = some count ∧
        pixels[(side channel - 1 - (seg * lines + row)) * side channel + x]? = some p ∧
        (count = 0 → GribSpec.readMeasure img.image.nodata p = none) ∧
        ∀ r : Rat, (r : ℝ) = count * s + o → count ≠ 0 → some (pack r) ≠ img.image.nodata →
          GribSpec.readMeasure img.image.nodata p = some (pack r) := by
  obtain ⟨img, ps', pixels, e1, e2, e3, e4, e5, e6, e7, e8, e9, e10, e11, e12, e13, e14⟩ := toGrib h present hpr hne cov hf none some .counts pro hd
    sat wmo name w false lon ps s o hsay hcx hcy day msec hday hmsec hstart y m d hy hv hdate scale offset
    (by rintro rfl; exact hslope (by rw [← hscale]; simp)) value pack sample hsample blank option t ht old (by
      obtain ⟨seg, hs, row, hr, x, hx, k, count, k1, k2, k3⟩ := hsome
      refine ⟨seg, hs, row, hr, x, hx, count, by rw [k1]; simp [k2], ?_⟩
      simpa [XritToGrib.number] using k3)
  refine ⟨img, ps', pixels, e1, e2, e3, e4, e5, e6, e7, gt_position e8, e9, e10, e11, e12, fun seg hs row hr x hx => ?_⟩
  obtain ⟨v, v1, v2⟩ := e14 seg hs row hr x hx
  refine ⟨v, _, ?_, v2, ?_, ?_⟩
  · rw [← v1]
    cases sampleAt (windows channel cov) cols (seg * lines + row + 1) x <;> simp
  · rintro rfl
    simp [GribSpec.readMeasure, XritToGrib.number, e13]
  · intro r hr' h0 hclear
    have hr2 : r = v * scale + offset := by
      rw [← hscale, ← hoffset] at hr'
      exact_mod_cast hr'
    have hn : XritToGrib.number (!false) value v = v := by simp [XritToGrib.number]
    rw [hn, if_neg (by exact_mod_cast h0), ← hr2]
    unfold GribSpec.readMeasure
    rw [if_neg hclear]

/-- xRIT to GRIB, thermal channels, with the calibration table that the prologue gives: the pixel of each sample in the GRIB file is the
temperature, rounded and packed, whose effective radiance by Planck's law is the slope times the count plus the offset; it is missing if there
is none, and where there are no samples.  Missing: temperatures that are rounded to 0 or packed to the missing value of the channel, images with
no temperature, and pixel sizes further than a tenth of a millimetre from the standard ones. -/
theorem C124_temperature_partial (h : Segments env disk files n cols lines channel planned format cfac imgs)
    (present : List Nat) (hpr : ∀ i ∈ present, i < n) (hne : present ≠ []) (cov : Option Coverage) (hf : Full channel n cols lines cov)
    (table : List Nat) (hcols : 0 < cols) (htab : 0 < table.length) (hcounts : ∀ i < n, ∀ v ∈ imgs i, v < table.length)
    (pro : XritDataset.Prologue) (hd : XritDataset.Header) (sat : String) (wmo : Int) (name : String) (w : Int) (lon ps s o : ℝ)
    (hsay : FilesSay pro hd channel sat wmo name w true lon ps s o)
    (hcx : Close ps |1000 * (if channel = 12 then pro.gridHrv else pro.gridVisIr).1|)
    (hcy : Close ps |1000 * (if channel = 12 then pro.gridHrv else pro.gridVisIr).2|)
    (day msec : Nat) (hday : day < 2 ^ 16) (hmsec : msec < 2 ^ 32) (hstart : pro.start = Time.cdsShortOf day msec)
    (y m d : Nat) (hy : 1958 ≤ y) (hv : ValidDate y m d)
    (hdate : daysBetweenYears 1958 y + daysBeforeMonth y m + (d - 1) = day + msec / 86400000)
    (value : Nat → Option Rat) (hzero : value 0 = some 0) (round : ℝ → Rat) (h0 : ∀ T, T ≤ 0 → round T ≤ 0) (h1 : ∀ T, 0 < T → 0 ≤ round T)
    (k : ℝ × ℝ × ℝ) (hk : SeviriSpec.constants channel = some k) (htable : TableOf value round k s o table) (pack : Rat → Rat)
    (sample : GribFile.Template → List (String × Int)) (hsample : plainSample sample) (blank : Datetime.Message) (option : Option String)
    (t : GribFile.Template) (ht : GribFile.templateOf option = some t) (old : Option GribFile.Message)
    (hsome : ∃ seg < n, ∃ row < lines, ∃ x < side channel, ∃ i count T,
      sampleAt (windows channel cov) cols (seg * lines + row + 1) x = some i ∧ fileSample imgs present cols cfac seg row i = some count ∧
      count < table.length ∧ 0 < T ∧ SeviriSpec.effective k T = count * s + o ∧ round T ≠ 0) :
    ∃ img ps' pixels, XritToGrib.convert env disk cov (present.map files) pro hd 1 0 (some table) value pack sample blank option old = .ok (some img) ∧
      img.image.sx = side channel ∧ img.image.sy = side channel ∧ img.image.spacecraft = wmo ∧ img.image.channel = channel ∧
      img.datetime = DatetimeSpec.stamp y m d (msec / 3600000 % 24) (msec / 60000 % 60) 0 ∧ img.lon = lon ∧
      (∀ x y : ℝ, img.gt.x0 + x * img.gt.dx + y * img.gt.rx = (x - side channel / 2) * ps' ∧
        img.gt.y0 + x * img.gt.ry + y * img.gt.dy = (side channel / 2 - y) * ps') ∧ |ps' - ps| < 0.011 ∧ (ps = 3000.40307617188 → ps' = ps) ∧
      img.image.pixels = some pixels ∧ pixels.length = side channel * side channel ∧
      ∀ seg < n, ∀ row < lines, ∀ x < side channel, ∃ p : Option Rat,
        pixels[(side channel - 1 - (seg * lines + row)) * side channel + x]? = some p ∧
        match sampleAt (windows channel cov) cols (seg * lines + row + 1) x with
        | none => GribSpec.readMeasure img.image.nodata p = none
        | some i => ∃ count : Nat, fileSample imgs present cols cfac seg row i = some count ∧
            (∀ T, 0 < T → SeviriSpec.effective k T = count * s + o → round T ≠ 0 → some (pack (round T)) ≠ img.image.nodata →
              GribSpec.readMeasure img.image.nodata p = some (pack (round T))) ∧
            ((¬ ∃ T, 0 < T ∧ SeviriSpec.effective k T = count * s + o) → GribSpec.readMeasure img.image.nodata p = none) := by
  have key := fun count entry => entry_temperature (constants_sound _ _ hk) htable hzero h0 h1 count entry
  obtain ⟨img, ps', pixels, e1, e2, e3, e4, e5, e6, e7, e8, e9, e10, e11, e12, e13, e14⟩ := toGrib h present hpr hne cov hf (some table) _
    (.table table htab hcols hcounts) pro hd sat wmo name w true lon ps s o hsay hcx hcy day msec hday hmsec hstart y m d hy hv hdate 1 0
    (by norm_num) value pack sample hsample blank option t ht old (by
      obtain ⟨seg, hs, row, hr, x, hx, i, count, T, k1, k2, k3, k4, k5, k6⟩ := hsome
      have hget := List.getElem?_eq_getElem k3
      refine ⟨seg, hs, row, hr, x, hx, notNegative table[count], by rw [k1]; simp [k2, hget], ?_⟩
      rw [XritToGrib.number, if_neg (by decide), (key count _ hget).1 T k4 k5]
      exact k6)
  refine ⟨img, ps', pixels, e1, e2, e3, e4, e5, e6, e7, gt_position e8, e9, e10, e11, e12, fun seg hs row hr x hx => ?_⟩
  obtain ⟨v, v1, v2⟩ := e14 seg hs row hr x hx
  have hn : XritToGrib.number (!true) value v = (value v).getD 0 := rfl
  rw [hn, mul_one, add_zero] at v2
  refine ⟨_, v2, ?_⟩
  cases hsa : sampleAt (windows channel cov) cols (seg * lines + row + 1) x with
  | none =>
    rw [hsa] at v1
    have : v = 0 := (Option.some.inj v1).symm
    subst this
    dsimp only
    rw [hzero, Option.getD_some, if_pos rfl, e13]
    simp [GribSpec.readMeasure]
  | some i =>
    rw [hsa] at v1
    dsimp only at v1 ⊢
    obtain ⟨count, d1, d2⟩ := Option.bind_eq_some_iff.1 v1
    obtain ⟨entry, f1, f2⟩ := Option.map_eq_some_iff.1 d2
    obtain ⟨t1, t2⟩ := key count entry f1
    rw [f2] at t1 t2
    refine ⟨count, d1, fun T hT heff hr0 hclear => ?_, fun hno => ?_⟩
    · rw [t1 T hT heff, Option.getD_some, if_neg hr0]
      unfold GribSpec.readMeasure
      rw [if_neg hclear]
    · rw [t2 hno, Option.getD_some, if_pos rfl, e13]
      simp [GribSpec.readMeasure]

/-- Discrepancy: the missing value of an opened GRIB file is 0 in the channels 2 and 3, whatever the bitmap of the message says: a sample that was
measured, with a count whose radiance is 0, is missing after the conversion. -/
theorem C124_violated_zero (h : Segments env disk files n cols lines channel planned format cfac imgs) (hch : channel = 2 ∨ channel = 3)
    (present : List Nat) (hpr : ∀ i ∈ present, i < n) (hne : present ≠ []) (hf : Full channel n cols lines none)
    (pro : XritDataset.Prologue) (hd : XritDataset.Header) (sat : String) (wmo : Int) (name : String) (w : Int) (lon ps s o : ℝ)
    (hsay : FilesSay pro hd channel sat wmo name w false lon ps s o)
    (hcx : Close ps |1000 * pro.gridVisIr.1|) (hcy : Close ps |1000 * pro.gridVisIr.2|)
    (day msec : Nat) (hday : day < 2 ^ 16) (hmsec : msec < 2 ^ 32) (hstart : pro.start = Time.cdsShortOf day msec)
    (y m d : Nat) (hy : 1958 ≤ y) (hv : ValidDate y m d)
    (hdate : daysBetweenYears 1958 y + daysBeforeMonth y m + (d - 1) = day + msec / 86400000)
    (scale offset : Rat) (hslope : s ≠ 0) (hscale : (scale : ℝ) = s) (hoffset : (offset : ℝ) = o) (value : Nat → Option Rat) (pack : Rat → Rat)
    (hpack : pack 0 = 0) (sample : GribFile.Template → List (String × Int)) (hsample : plainSample sample) (blank : Datetime.Message)
    (option : Option String) (t : GribFile.Template) (ht : GribFile.templateOf option = some t) (old : Option GribFile.Message)
    (seg row x count : Nat) (hseg : seg < n) (hrow : row < lines) (hx : x < cols) (hcount : fileSample imgs present cols cfac seg row x = some count)
    (hpos : count ≠ 0) (hzero : count * s + o = 0) :
    ∃ img pixels p, XritToGrib.convert env disk none (present.map files) pro hd scale offset none value pack sample blank option old =
        .ok (some img) ∧ img.image.pixels = some pixels ∧ pixels[(3711 - (seg * lines + row)) * 3712 + x]? = some p ∧
      GribSpec.readMeasure img.image.nodata p = none := by
  have h12 : channel ≠ 12 := by omega
  have hside : side channel = 3712 := by simp [side, h12]
  have hwin : windows channel none = none := by simp [windows]
  have hcols : cols ≤ 3712 := by
    have := hf.width
    rw [hwin] at this
    exact this
  have hsa : sampleAt (windows channel none) cols (seg * lines + row + 1) x = some x := by
    rw [hwin]
    simp [sampleAt, hx]
  obtain ⟨img, _, pixels, e1, _, _, _, _, _, _, _, _, _, e11, _, e13, e14⟩ := toGrib h present hpr hne none hf none some .counts pro hd
    sat wmo name w false lon ps s o hsay (by rw [if_neg h12]; exact hcx) (by rw [if_neg h12]; exact hcy) day msec hday hmsec hstart y m d hy hv hdate
    scale offset (by rintro rfl; exact hslope (by rw [← hscale]; simp)) value pack sample hsample blank option t ht old
    ⟨seg, hseg, row, hrow, x, by omega, count, by rw [hsa]; simp [hcount], by simpa [XritToGrib.number] using hpos⟩
  obtain ⟨v, v1, v2⟩ := e14 seg hseg row hrow x (by omega)
  rw [hsa] at v1
  dsimp only at v1
  rw [hcount] at v1
  have : count = v := Option.some.inj v1
  subst this
  have hn : XritToGrib.number (!false) value count = count := by simp [XritToGrib.number]
  have hq : (count : Rat) * scale + offset = 0 := by
    rw [← hscale, ← hoffset] at hzero
    exact_mod_cast hzero
  have hmiss : GribFile.defaultScaledMissing channel = some 0 := by rcases hch with rfl | rfl <;> decide +kernel
  rw [hn, if_neg (by exact_mod_cast hpos), hq, hpack, hside] at v2
  refine ⟨img, pixels, some 0, e1, e11, v2, ?_⟩
  unfold GribSpec.readMeasure
  rw [e13, hmiss, if_pos rfl]

/-- All pixels are those of lines of segments. -/
theorem pixels_ext {cov : Option Coverage} (hf : Full channel n cols lines cov) {α : Type} {p q : List α}
    (hp : p.length = side channel * side channel) (hq : q.length = side channel * side channel)
    (h : ∀ seg < n, ∀ row < lines, ∀ x < side channel, p[(side channel - 1 - (seg * lines + row)) * side channel + x]? =
      q[(side channel - 1 - (seg * lines + row)) * side channel + x]?) : p = q := by
  apply List.ext_getElem?
  intro i
  by_cases hi : i < side channel * side channel
  · have hpos : 0 < side channel := by unfold side; split <;> norm_num
    have hlines : 0 < lines := by
      rcases Nat.eq_zero_or_pos lines with h0 | h0
      · have := hf.covers; rw [h0] at this; omega
      · exact h0
    have hy : i / side channel < side channel := by rw [Nat.div_lt_iff_lt_mul hpos]; exact hi
    have hseg : (side channel - 1 - i / side channel) / lines < n := by
      rw [Nat.div_lt_iff_lt_mul hlines, hf.covers]
      exact lt_of_le_of_lt (Nat.sub_le _ _) (Nat.sub_lt hpos one_pos)
    have hsum : (side channel - 1 - i / side channel) / lines * lines + (side channel - 1 - i / side channel) % lines =
      side channel - 1 - i / side channel := Nat.div_add_mod' _ _
    have := h _ hseg ((side channel - 1 - i / side channel) % lines) (Nat.mod_lt _ hlines) (i % side channel) (Nat.mod_lt i hpos)
    rwa [hsum, Nat.sub_sub_self (Nat.le_sub_one_of_lt hy), Nat.div_add_mod'] at this
  · rw [List.getElem?_eq_none (by omega), List.getElem?_eq_none (by omega)]

/-- A message without values is not made. -/
theorem not_created (pack : Rat → Rat) (sample : GribFile.Template → List (String × Int)) (option : Option String) (t : GribFile.Template)
    (ht : GribFile.templateOf option = some t) (old : Option GribFile.Message) (src : GribFile.Source)
    (hsrs : src.srs = some true) (b : GribFile.Band) (bs : List GribFile.Band) (hb : src.bands = b :: bs) (s c : Nat) (hsp : src.spacecraft = some s)
    (hch : b.channel = some c) (hw : writes t s c) (hall : ∀ v ∈ b.values, some v = b.nodata) :
    GribFile.createCopy true pack sample option true true old src = .ok (none, old) := by
  have hd : ∀ m, GribFile.dataSection pack b (GribFile.bitMapSection b m) = none := by
    intro m
    unfold GribFile.dataSection
    rw [if_pos]
    unfold GribFile.countMissing GribFile.scaled
    rw [List.length_map, List.countP_eq_length]
    exact fun v hv => decide_eq_true (hall v hv)
  by_cases htw : t = .wmo
  · subst htw
    obtain ⟨hs, e, he, hec⟩ := hw rfl
    obtain ⟨n, hn, _⟩ := wave_round s hs e he
    rw [hec] at hn
    have hc : GribFile.create pack sample .wmo src = .ok none := by
      unfold GribFile.create
      rw [hsrs, hb]
      dsimp only
      unfold GribFile.productWMO
      rw [hsp, hch]
      dsimp only
      rw [hn]
      simp only [Outcome.ok_bind]
      show Outcome.ok _ = _
      rw [hd]
    unfold GribFile.createCopy
    rw [if_pos rfl, ht]
    dsimp only
    rw [hc]
    rfl
  · exact (C78_refused pack sample option true true old src).2.1 t b bs ht htw hsrs hb hall

/-- Discrepancy: a product that was found and whose samples all have no measure (count 0, or a count whose entry in the table is 0) is not converted to
an image without measures: there is no image, and the file that was there is left as it was. -/
theorem C124_violated_blank (h : Segments env disk files n cols lines channel planned format cfac imgs)
    (present : List Nat) (hpr : ∀ i ∈ present, i < n) (hne : present ≠ []) (cov : Option Coverage) (hf : Full channel n cols lines cov)
    (table : Option (List Nat)) (look : Nat → Option Nat) (hlook : Looks imgs n cols table look)
    (pro : XritDataset.Prologue) (hd : XritDataset.Header) (sat : String) (wmo : Int) (name : String) (w : Int) (thermal : Bool) (lon ps s o : ℝ)
    (hsay : FilesSay pro hd channel sat wmo name w thermal lon ps s o)
    (hcx : Close ps |1000 * (if channel = 12 then pro.gridHrv else pro.gridVisIr).1|)
    (hcy : Close ps |1000 * (if channel = 12 then pro.gridHrv else pro.gridVisIr).2|)
    (day msec : Nat) (hday : day < 2 ^ 16) (hmsec : msec < 2 ^ 32) (hstart : pro.start = Time.cdsShortOf day msec)
    (y m d : Nat) (hy : 1958 ≤ y) (hv : ValidDate y m d)
    (hdate : daysBetweenYears 1958 y + daysBeforeMonth y m + (d - 1) = day + msec / 86400000)
    (scale offset : Rat) (value : Nat → Option Rat) (pack : Rat → Rat) (sample : GribFile.Template → List (String × Int))
    (blank : Datetime.Message) (option : Option String) (t : GribFile.Template)
    (ht : GribFile.templateOf option = some t) (old : Option GribFile.Message) (hzero : value 0 = some 0)
    (hnone : ∀ seg < n, ∀ row < lines, ∀ x < side channel, ∀ i v, sampleAt (windows channel cov) cols (seg * lines + row + 1) x = some i →
      (fileSample imgs present cols cfac seg row i).bind look = some v → v = 0) :
    XritToGrib.convert env disk cov (present.map files) pro hd scale offset table value pack sample blank option old = .ok none := by
  obtain ⟨da, ds, px, e1, d1, e2, hnx, hny, d4, d7, hlin, hsl, hstamp, hgrid, hlen, hpixel⟩ := xrit_image h present hpr hne cov hf table look hlook pro
    hd sat wmo name w thermal lon ps s o hsay day msec hstart y m d hy hv hdate
  obtain ⟨_, _, _, hgrib⟩ := grib_about ps hsay.standard
  obtain ⟨g, gt, g1, g2, g3, g6⟩ := hgrib ⟨matrix ds.geotransform, Georef.orbitRadiusForGdal, ds.sublon, ds.spacecraftId⟩ _ _ _ _ hgrid rfl hcx hcy
    (half_near channel) (half_near channel)
  obtain ⟨time, t1, t2⟩ := C45_round_trip_partial { blank with edition := XritToGrib.edition t } y m d (msec / 3600000 % 24) (msec / 60000 % 60) 0
    (date_fits day msec hday hmsec y m d hy hv hdate) (by cases t <;> simp [XritToGrib.edition])
  have hwmo : ((wmo.toNat : ℕ) : ℤ) = wmo := by
    have : wmo = 55 ∨ wmo = 56 ∨ wmo = 57 ∨ wmo = 70 := by simpa [SatSpec.seviri] using hsay.seviri
    omega
  have hpx : px = List.replicate (side channel * side channel) 0 := by
    refine pixels_ext hf hlen List.length_replicate fun seg hs row hr x hx => ?_
    obtain ⟨v, v1, v2⟩ := hpixel seg hs row hr x hx
    have hv0 : v = 0 := by
      cases hsa : sampleAt (windows channel cov) cols (seg * lines + row + 1) x with
      | none => rw [hsa] at v1; exact (Option.some.inj v1).symm
      | some i => rw [hsa] at v1; exact hnone seg hs row hr x hx i v hsa v1
    rw [v2, hv0, List.getElem?_replicate, if_pos (index_lt hx)]
  have hcopy := not_created pack sample option t ht old (XritToGrib.source ds scale offset value px) rfl
    ⟨px.map (XritToGrib.number ds.band.linear value), some 0, scale, offset, some ds.band.channelId⟩ [] rfl wmo.toNat channel
    (by simp only [XritToGrib.source]; rw [d4]) (by dsimp only; rw [d7])
    (fun _ => ⟨by rw [hwmo]; exact hsay.seviri, _, hsay.named, rfl⟩)
    (by
      intro v hv
      dsimp only at hv ⊢
      rw [hpx, List.map_replicate] at hv
      rw [List.eq_of_mem_replicate hv]
      unfold XritToGrib.number
      rw [hzero]
      split <;> rfl)
  unfold XritToGrib.convert
  rw [e1]
  simp only [Outcome.ok_bind]
  rw [d1]
  simp only [Outcome.ok_bind]
  rw [ht]
  dsimp only
  rw [e2]
  simp only [Outcome.ok_bind]
  rw [g1]
  simp only [Outcome.ok_bind]
  rw [hstamp, t1]
  simp only [Outcome.ok_bind]
  rw [hcopy]
  rfl

end

/-! ### Cases -/

theorem halfOf_ok2 (i : Nat) (hi : i < 2) : FileOk 0 (halfOf 2 i) [9, 9] := by
  have : i = 0 ∨ i = 1 := by omega
  rcases this with rfl | rfl
  all_goals
    refine fileOk_plain (by decide) (by decide) (by decide +kernel) ?_ (by simp [halfOf])
    intro r hr
    simp only [halfOf, List.mem_cons, List.not_mem_nil, or_false] at hr
    rcases hr with rfl | rfl | rfl <;> simp only [Rec.InRange] <;> decide +kernel

theorem halves2 : Segments aDecoder
    (fun f => if f = [1] then some (fileOf 0 (halfOf 2 0) [9, 9] [])
      else if f = [2] then some (fileOf 0 (halfOf 2 1) [9, 9] []) else none)
    (fun i => if i = 0 then [1] else [2]) 2 2 1856 2 2 2 (-13642337) (fun _ => List.range (2 * 1856)) := by
  refine ⟨fun i hi => by split <;> simp, by decide, fun _ => rfl, fun i hi => ?_⟩
  refine ⟨halfOf 2 i, [9, 9], [], 10, 1, 323, 1, -13642337, 1856, 1856, ?_, halfOf_ok2 i hi,
    rfl, by decide, rfl, rfl, rfl, by simp⟩
  have : i = 0 ∨ i = 1 := by omega
  rcases this with rfl | rfl <;> simp

theorem halves_full2 : Full 2 2 2 1856 none :=
  ⟨by decide, by decide, by decide, by simp [windows], fun _ _ => by simp [windows, XritSpec.OnGrid]⟩

theorem aClose : Close 3000.40307617188 |1000 * aPrologue.gridVisIr.1| ∧ Close 3000.40307617188 |1000 * aPrologue.gridVisIr.2| := by
  constructor <;>
    (unfold Close
     simp only [aPrologue]
     rw [abs_le, abs_of_pos (by norm_num)]
     norm_num)

theorem halves_say2 : FilesSay aPrologue ⟨323, 2, 10, some 0⟩ 2 "MSG3" 57 "VIS008" 8 false 0 3000.40307617188 0.2 (-10.4) :=
  ⟨⟨by simp, by simp, by simp [aPrologue], by simp⟩, rfl,
    by show ("MSG3", (57 : Int), some ((323 : Nat) : Int)) ∈ _; decide +kernel, by decide +kernel, by decide +kernel, rfl, .inl rfl,
    close_about aClose.1, close_about aClose.2, by simp [aPrologue]⟩

/-- The second of two segments of an image of channel VIS008, of the 24th of October 2014 at 12:00, is converted with the default template. -/
example : ∃ img, XritToGrib.convert aDecoder (fun f => if f = [1] then some (fileOf 0 (halfOf 2 0) [9, 9] [])
      else if f = [2] then some (fileOf 0 (halfOf 2 1) [9, 9] []) else none) none
    ([1].map fun i => if i = 0 then [1] else [2]) aPrologue ⟨323, 2, 10, some 0⟩ (1 / 5) (-52 / 5) none (fun _ => none) id (fun _ => [])
    ⟨0, 0, 0, 0, 0, 0, 0, 0, 0⟩ none none = .ok (some img) ∧ img.datetime = DatetimeSpec.stamp 2014 10 24 12 0 0 ∧ img.image.channel = 2 := by
  obtain ⟨img, _, _, e1, _, _, _, e5, e6, _⟩ := C124_solar_partial halves2 [1] (by simp) (by simp) none halves_full2 aPrologue ⟨323, 2, 10, some 0⟩
    "MSG3" 57 "VIS008" 8 0 3000.40307617188 0.2 (-10.4) halves_say2 aClose.1 aClose.2 20750 43211000 (by norm_num) (by norm_num) rfl 2014 10 24
    (by norm_num) (by unfold Spec.ValidDate; decide +kernel) (by decide +kernel) (1 / 5) (-52 / 5) (by norm_num) (by norm_num) (by norm_num)
    (fun _ => none) id (fun _ => []) (fun _ _ _ => rfl) ⟨0, 0, 0, 0, 0, 0, 0, 0, 0⟩ none .wmo rfl none
    ⟨1, by norm_num, 3, by norm_num, 0, by simp [side], 0, 7, by simp [windows, sampleAt], by simp [fileSample], by norm_num⟩
  exact ⟨img, e1, e6, e5⟩

/-- In that image, count 52, in line 26 of the first segment, has radiance 0: it becomes missing. -/
example : ∃ img pixels p, XritToGrib.convert aDecoder (fun f => if f = [1] then some (fileOf 0 (halfOf 2 0) [9, 9] [])
      else if f = [2] then some (fileOf 0 (halfOf 2 1) [9, 9] []) else none) none
    ([0].map fun i => if i = 0 then [1] else [2]) aPrologue ⟨323, 2, 10, some 0⟩ (1 / 5) (-52 / 5) none (fun _ => none) id (fun _ => [])
    ⟨0, 0, 0, 0, 0, 0, 0, 0, 0⟩ (some "msat/ecmwf") none = .ok (some img) ∧ img.image.pixels = some pixels ∧
    pixels[(3711 - (0 * 1856 + 26)) * 3712 + 1]? = some p ∧ GribSpec.readMeasure img.image.nodata p = none :=
  C124_violated_zero halves2 (.inl rfl) [0] (by simp) (by simp) halves_full2 aPrologue ⟨323, 2, 10, some 0⟩
    "MSG3" 57 "VIS008" 8 0 3000.40307617188 0.2 (-10.4) halves_say2 aClose.1 aClose.2 20750 43211000 (by norm_num) (by norm_num) rfl 2014 10 24
    (by norm_num) (by unfold Spec.ValidDate; decide +kernel) (by decide +kernel) (1 / 5) (-52 / 5) (by norm_num) (by norm_num) (by norm_num)
    (fun _ => none) id rfl (fun _ => []) (fun _ _ _ => rfl) ⟨0, 0, 0, 0, 0, 0, 0, 0, 0⟩ (some "msat/ecmwf") .ecmwf (by decide) none
    0 26 1 52 (by norm_num) (by norm_num) (by norm_num) (by simp [fileSample]) (by norm_num) (by norm_num)

open Classical in
/-- An image of channel IR_108, with a table of temperatures. -/
theorem aTemperatureMessage : ∃ table img, XritToGrib.convert aDecoder (fun f => if f = [1] then some (fileOf 0 (halfOf 9 0) [9, 9] [])
      else if f = [2] then some (fileOf 0 (halfOf 9 1) [9, 9] []) else none) none
    ([1, 0].map fun i => if i = 0 then [1] else [2]) aPrologue ⟨323, 9, 10, some 0⟩ 1 0 (some table) (fun e => some (if e = 0 then 0 else 1)) id
    (fun _ => []) ⟨0, 0, 0, 0, 0, 0, 0, 0, 0⟩ none none = .ok (some img) ∧ img.image.spacecraft = 57 := by
  obtain ⟨table, t1, t2⟩ := aTableOf (930.659, 0.9983, 0.627) 0.2 (-10.4)
  have hbound : SeviriSpec.effective (930.659, 0.9983, 0.627) 0 < ((3711 : Nat) : ℝ) * 0.2 + -10.4 := by
    unfold SeviriSpec.effective SeviriSpec.planck
    dsimp only
    have := Real.add_one_le_exp (1.43877 * 930.659 / (0.9983 * 0 + 0.627) : ℝ)
    rw [div_lt_iff₀ (by norm_num at *)]
    norm_num at *
    linarith
  obtain ⟨w1, w2⟩ := written_pos (930.659, 0.9983, 0.627) (constants_sound 9 _ rfl) _ hbound
  obtain ⟨img, _, _, e1, _, _, e4, _⟩ := C124_temperature_partial (halves 9 (.inr rfl)) [1, 0] (by simp) (by simp) none
    (halves_full 9 (.inr rfl)) table (by norm_num) (by rw [t1]; norm_num)
    (fun i _ v hv => by have := List.mem_range.1 hv; rw [t1]; omega)
    aPrologue ⟨323, 9, 10, some 0⟩ "MSG3" 57 "IR_108" 108 0 3000.40307617188 0.2 (-10.4)
    (halves_say 9 (.inr ⟨rfl, rfl, rfl, rfl⟩)) aClose.1 aClose.2 20750 43211000 (by norm_num) (by norm_num) rfl 2014 10 24 (by norm_num)
    (by unfold Spec.ValidDate; decide +kernel) (by decide +kernel) (fun e => some (if e = 0 then 0 else 1)) (by simp)
    (fun T => if 0 < T then 1 else 0) (fun T h => by rw [if_neg (not_lt.2 h)]) (fun T h => by rw [if_pos h]; norm_num)
    (930.659, 0.9983, 0.627) rfl t2 id (fun _ => []) (fun _ _ _ => rfl) ⟨0, 0, 0, 0, 0, 0, 0, 0, 0⟩ none .wmo rfl none
    ⟨1, by norm_num, 1855, by norm_num, 0, by simp [side], 0, 3711, _, by simp [windows, sampleAt], by simp [fileSample], by rw [t1]; norm_num,
      w1, w2, by rw [if_pos w1]; norm_num⟩
  exact ⟨table, img, e1, e4⟩

/-- A library that makes an image of zeroes of everything. -/
def aDark : Env := { aDecoder with decode := fun _ _ c l _ => .ok (List.replicate (c * l) 0) }

theorem halves_dark : Segments aDark
    (fun f => if f = [1] then some (fileOf 0 (halfOf 2 0) [9, 9] [])
      else if f = [2] then some (fileOf 0 (halfOf 2 1) [9, 9] []) else none)
    (fun i => if i = 0 then [1] else [2]) 2 2 1856 2 2 2 (-13642337) (fun _ => List.replicate (2 * 1856) 0) := by
  refine ⟨fun i hi => by split <;> simp, by decide, fun _ => rfl, fun i hi => ?_⟩
  refine ⟨halfOf 2 i, [9, 9], [], 10, 1, 323, 1, -13642337, 1856, 1856, ?_, halfOf_ok2 i hi,
    rfl, by decide, rfl, rfl, rfl, List.length_replicate⟩
  have : i = 0 ∨ i = 1 := by omega
  rcases this with rfl | rfl <;> simp

/-- An image of channel VIS008 taken at night: all counts are 0, and nothing is written. -/
example : XritToGrib.convert aDark (fun f => if f = [1] then some (fileOf 0 (halfOf 2 0) [9, 9] [])
      else if f = [2] then some (fileOf 0 (halfOf 2 1) [9, 9] []) else none) none
    ([1, 0].map fun i => if i = 0 then [1] else [2]) aPrologue ⟨323, 2, 10, some 0⟩ (1 / 5) (-52 / 5) none (fun _ => some 0) id (fun _ => [])
    ⟨0, 0, 0, 0, 0, 0, 0, 0, 0⟩ none none = .ok none :=
  C124_violated_blank halves_dark [1, 0] (by simp) (by simp) none halves_full2 none some .counts aPrologue ⟨323, 2, 10, some 0⟩
    "MSG3" 57 "VIS008" 8 false 0 3000.40307617188 0.2 (-10.4) halves_say2 aClose.1 aClose.2 20750 43211000 (by norm_num) (by norm_num) rfl 2014 10 24
    (by norm_num) (by unfold Spec.ValidDate; decide +kernel) (by decide +kernel) (1 / 5) (-52 / 5) (fun _ => some 0) id (fun _ => [])
    ⟨0, 0, 0, 0, 0, 0, 0, 0, 0⟩ none .wmo rfl none rfl (by
      intro seg _ row _ x _ i v _ hv
      rw [Option.bind_fun_some] at hv
      unfold fileSample at hv
      split at hv
      · exact List.eq_of_mem_replicate (List.mem_of_getElem? hv)
      · exact (Option.some.inj hv).symm)

end Msat.Props
