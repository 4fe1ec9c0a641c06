import Verif.Model.NetcdfToGrib
import Verif.Props.C124

/-
C125 From xRIT files to GRIB through NetCDF: the same as without it.
-/
namespace Msat.Props
open Msat Machine Spec Hrit HritSpec
open Msat.Xrit (Coverage)
open Msat.XritSpec (sampleAt)

section
variable {env : Env} {disk : Disk} {files : Nat → Bytes} {n cols lines channel planned format : Nat}
  {cfac : Int} {imgs : Nat → List Nat}

/-- GRIB refuses pixel sizes that are not so near the standard ones. -/
theorem far_grid {ps a b : ℝ} {cx cy : ℤ} (hps : GeorefSpec.Standard ps) (s : Georef.Source) (hg : GeorefSpec.OnGrid s.gt a b cx cy) (ha : About ps a)
    (hc : ¬ Close ps a) : Georef.exportGrib s = .ok none := by
  unfold Georef.exportGrib
  by_cases hh : s.height ≠ Georef.orbitRadiusForGdal
  · rw [if_pos hh]
  rw [if_neg hh]
  unfold GeorefSpec.OnGrid at hg
  have ho : Georef.gridOffset s.gt = none := by
    unfold Georef.gridOffset
    rw [hg]
    dsimp only
    unfold Close at hc
    rw [not_le] at hc
    unfold About at ha
    obtain ⟨h1, h2⟩ := abs_lt.1 ha
    rcases hps with rfl | rfl
    · rw [if_pos, if_pos (show 0.0001 < |a - PixelSize.sizeX| from hc)]
      unfold PixelSize.sizeXHrv
      rw [lt_abs]
      left
      norm_num at *
      linarith
    · rw [if_pos (show 0.0001 < |a - PixelSize.sizeXHrv| from hc), if_pos]
      unfold PixelSize.sizeX
      rw [lt_abs]
      right
      norm_num at *
      linarith
  unfold Georef.gridOf
  rw [ho]
  dsimp only
  split
  · rfl
  split <;> rfl

theorem number_cell (linear : Bool) (value : Nat → Option Rat) (v : Nat) :
    NetcdfToGrib.number (XritToNetcdf.cell linear value v) = XritToGrib.number linear value v := by
  cases linear <;> simp [NetcdfToGrib.number, XritToNetcdf.cell, XritToGrib.number]

theorem through (h : Segments env disk files n cols lines channel planned format cfac imgs)
    (present : List Nat) (hpr : ∀ i ∈ present, i < n) (hne : present ≠ []) (cov : Option Coverage) (hf : Full channel n cols lines cov)
    (hbits : ∀ i < n, ∀ v ∈ imgs i, v < 65536) (table : Option (List Nat)) (look : Nat → Option Nat) (hlook : Looks imgs n cols table look)
    (pro : XritDataset.Prologue) (hd : XritDataset.Header) (sat : String) (wmo : Int) (name : String) (w : Int) (thermal : Bool) (lon ps s o : ℝ)
    (hsay : FilesSay pro hd channel sat wmo name w thermal lon ps s o) (hth : thermal = false → look = some)
    (day msec : Nat) (hday : day < 2 ^ 16) (hmsec : msec < 2 ^ 32) (hstart : pro.start = Time.cdsShortOf day msec)
    (y m d : Nat) (hy : 1958 ≤ y) (hv : ValidDate y m d)
    (hdate : daysBetweenYears 1958 y + daysBeforeMonth y m + (d - 1) = day + msec / 86400000)
    (scale offset : Rat) (value : Nat → Option Rat) (valid : String → Bool) (hvalid : valid name = true)
    (single : ℝ → ℝ) (hlon : |single lon| ≤ 1000) (pack : Rat → Rat) (sample : GribFile.Template → List (String × Int)) (blank : Datetime.Message)
    (option : Option String) (old : Option GribFile.Message) :
    ∃ f, XritToNetcdf.convert env disk cov (present.map files) pro hd scale offset table value valid single = .ok (some f) ∧
      (Close ps |1000 * (if channel = 12 then pro.gridHrv else pro.gridVisIr).1| →
        Close ps |1000 * (if channel = 12 then pro.gridHrv else pro.gridVisIr).2| →
        NetcdfToGrib.convert f pack sample blank option old =
          XritToGrib.convert env disk cov (present.map files) pro hd scale offset table value pack sample blank option old >>= fun r =>
            .ok (r.map fun i => { i with lon := single i.lon })) ∧
      ((∃ t, GribFile.templateOf option = some t) → scale ≠ 0 → plainSample sample →
        (∃ seg < n, ∃ row < lines, ∃ x < side channel, ∃ v,
          (match sampleAt (windows channel cov) cols (seg * lines + row + 1) x with
            | none => some 0
            | some k => (fileSample imgs present cols cfac seg row k).bind look) = some v ∧ XritToGrib.number (!thermal) value v ≠ 0) →
        ∃ img, NetcdfToGrib.convert f pack sample blank option old = .ok (some img)) ∧
      (Close ps |1000 * (if channel = 12 then pro.gridHrv else pro.gridVisIr).1| ∨
        XritToGrib.convert env disk cov (present.map files) pro hd scale offset table value pack sample blank option old = .ok none) := by
  obtain ⟨f, img, b, gt, cells, e1, e2, _, e4, e5, e6, e7, e8, e9, e10, e11, _, e13, e14, e15, e16, _, _, e19, e20, e21⟩ :=
    converted h present hpr hne cov hf hbits table look hlook pro hd sat wmo name w thermal lon ps s o hsay hth day msec hday hmsec
      hstart y m d hy hv hdate scale offset value valid hvalid single hlon
  obtain ⟨da, ds, px, i1, i2, i3, hnx, hny, d4, d7, hlin, hsl, hstamp, hgrid, hlen, hpixel⟩ := xrit_image h present hpr hne cov hf table look hlook pro
    hd sat wmo name w thermal lon ps s o hsay day msec hstart y m d hy hv hdate
  obtain ⟨ps', _, _, hgrib⟩ := grib_about ps hsay.standard
  have hself : Close ps ps := by unfold Close; rw [sub_self, abs_zero]; norm_num
  obtain ⟨g', gt1', g1', g2', g3', g6'⟩ := hgrib ⟨gt, Georef.orbitRadiusForGdal, img.lon, img.spacecraftId.getD 0⟩ _ _ _ _ e8 rfl hself hself
    (half_near channel) (half_near channel)
  have htime := fun t => C45_round_trip_partial { blank with edition := XritToGrib.edition t } y m d (msec / 3600000 % 24) (msec / 60000 % 60) 0
    (date_fits day msec hday hmsec y m d hy hv hdate) (by cases t <;> simp [XritToGrib.edition])
  have hcells : cells.map NetcdfToGrib.number = px.map (XritToGrib.number ds.band.linear value) := by
    refine pixels_ext hf (by rw [List.length_map, e20]) (by rw [List.length_map, hlen]) fun seg hs row hr x hx => ?_
    obtain ⟨v, v1, v2⟩ := hpixel seg hs row hr x hx
    rw [List.getElem?_map, List.getElem?_map, (e21 seg hs row hr x hx).trans (congrArg (Option.map (XritToNetcdf.cell (!thermal) value)) v1), v2, hlin]
    simp [number_cell]
  have hsrc : NetcdfToGrib.source img b cells = XritToGrib.source ds scale offset value px := by
    unfold NetcdfToGrib.source XritToGrib.source
    rw [hcells, e9, e10, e4, e13, e14, e15, e16, hnx, hny, d4, d7]
    rfl
  refine ⟨f, e1, fun hcx hcy => ?_, ?_, ?_⟩
  rotate_left
  · rintro ⟨t, ht⟩ hscale hsample hsome
    obtain ⟨time, t1, t2⟩ := htime t
    have hwmo : ((wmo.toNat : ℕ) : ℤ) = wmo := by
      have : wmo = 55 ∨ wmo = 56 ∨ wmo = 57 ∨ wmo = 70 := by simpa [SatSpec.seviri] using hsay.seviri
      omega
    obtain ⟨msg, c1, c2⟩ := open_created pack sample hsample t (XritToGrib.source ds scale offset value px) rfl
      ⟨px.map (XritToGrib.number ds.band.linear value), some 0, scale, offset, some ds.band.channelId⟩ [] rfl wmo.toNat channel
      (by simp only [XritToGrib.source]; rw [d4]) (by dsimp only; rw [d7])
      (fun _ => ⟨by rw [hwmo]; exact hsay.seviri, _, hsay.named, rfl⟩)
      (by simp only [XritToGrib.source, List.length_map]; rw [hlen, hny, hnx]) hscale
      (by
        obtain ⟨seg, hs, row, hr, x, hx, v, v1, v2⟩ := hsome
        obtain ⟨v', v3, v4⟩ := hpixel seg hs row hr x hx
        have : v' = v := Option.some.inj (v3.symm.trans v1)
        subst this
        refine ⟨XritToGrib.number ds.band.linear value v', List.mem_map_of_mem (List.mem_of_getElem? v4), ?_⟩
        rw [hlin]
        simpa using v2)
    obtain ⟨dd, hcopy⟩ : ∃ dd, GribFile.createCopy true pack sample option true true old (XritToGrib.source ds scale offset value px) =
      .ok (some dd, some msg) := ⟨_, copy_created pack sample option t ht old _ msg c1 _ c2⟩
    refine ⟨⟨dd, gt1', g'.lon, DatetimeSpec.stamp y m d (msec / 3600000 % 24) (msec / 60000 % 60) 0⟩, ?_⟩
    unfold NetcdfToGrib.convert
    rw [e2, ht]
    dsimp only
    rw [e11, e7]
    simp only [Outcome.ok_bind]
    rw [e19]
    simp only [Outcome.ok_bind]
    rw [g1']
    simp only [Outcome.ok_bind]
    rw [e5, t1, hsrc]
    simp only [Outcome.ok_bind]
    rw [hcopy]
    simp only [Outcome.ok_bind]
    rw [g2']
    simp only [Outcome.ok_bind]
    rw [t2]
    rfl
  · by_cases hc : Close ps |1000 * (if channel = 12 then pro.gridHrv else pro.gridVisIr).1|
    · exact .inl hc
    right
    unfold XritToGrib.convert
    rw [i1]
    simp only [Outcome.ok_bind]
    rw [i2]
    simp only [Outcome.ok_bind]
    cases ht : GribFile.templateOf option with
    | none => rfl
    | some t =>
      dsimp only
      rw [i3]
      simp only [Outcome.ok_bind]
      rw [far_grid hsay.standard _ hgrid hsay.sizeX hc]
      rfl
  obtain ⟨g, gt1, g1, g2, g3, g6⟩ := hgrib ⟨XritToNetcdf.matrix ds.geotransform, Georef.orbitRadiusForGdal, ds.sublon, ds.spacecraftId⟩ _ _ _ _ hgrid rfl
    hcx hcy (half_near channel) (half_near channel)
  have hgt : gt1' = gt1 := onGrid_unique g3' g3
  unfold NetcdfToGrib.convert XritToGrib.convert
  rw [e2, i1]
  simp only [Outcome.ok_bind]
  rw [i2]
  simp only [Outcome.ok_bind]
  cases ht : GribFile.templateOf option with
  | none => rfl
  | some t =>
    obtain ⟨time, t1, t2⟩ := htime t
    dsimp only
    rw [e11, e7]
    simp only [Outcome.ok_bind]
    rw [e19, i3]
    simp only [Outcome.ok_bind]
    rw [g1, g1']
    simp only [Outcome.ok_bind]
    rw [hstamp, e5, t1, hsrc]
    simp only [Outcome.ok_bind]
    cases GribFile.createCopy true pack sample option true true old (XritToGrib.source ds scale offset value px) with
    | ok r =>
      obtain ⟨r1, r2⟩ := r
      cases r1 with
      | none => rfl
      | some image =>
        simp only [Outcome.ok_bind]
        rw [g2, g2', hgt]
        simp only [Outcome.ok_bind]
        rw [t2, g6, g6', hsl, e6]
        rfl
    | _ => rfl

/-- xRIT to GRIB through NetCDF, solar channels: the segments of a product that were found, in any order, are converted to NetCDF; converting that file
to GRIB does just what converting the segments to GRIB does, with any option, sample message and packing: it is refused if the other is, and
gives the same pixels, the same missing ones, size, satellite, channel, geotransform, date and time; the longitude of the satellite is rounded to
a `float`.  Missing: pixel sizes further than a tenth of a millimetre from the standard ones (`C125_violated_size`). -/
theorem C125_solar_partial (h : Segments env disk files n cols lines channel planned format cfac imgs)
    (present : List Nat) (hpr : ∀ i ∈ present, i < n) (hne : present ≠ []) (cov : Option Coverage) (hf : Full channel n cols lines cov)
    (hbits : ∀ i < n, ∀ v ∈ imgs i, v < 65536) (pro : XritDataset.Prologue) (hd : XritDataset.Header) (sat : String) (wmo : Int) (name : String)
    (w : Int) (lon ps s o : ℝ) (hsay : FilesSay pro hd channel sat wmo name w false lon ps s o)
    (hcx : Close ps |1000 * (if channel = 12 then pro.gridHrv else pro.gridVisIr).1|)
    (hcy : Close ps |1000 * (if channel = 12 then pro.gridHrv else pro.gridVisIr).2|)
    (day msec : Nat) (hday : day < 2 ^ 16) (hmsec : msec < 2 ^ 32) (hstart : pro.start = Time.cdsShortOf day msec)
    (y m d : Nat) (hy : 1958 ≤ y) (hv : ValidDate y m d)
    (hdate : daysBetweenYears 1958 y + daysBeforeMonth y m + (d - 1) = day + msec / 86400000)
    (scale offset : Rat) (value : Nat → Option Rat)
    (valid : String → Bool) (hvalid : valid name = true) (single : ℝ → ℝ) (hlon : |single lon| ≤ 1000) (pack : Rat → Rat)
    (sample : GribFile.Template → List (String × Int)) (blank : Datetime.Message) (option : Option String) (old : Option GribFile.Message) :
    ∃ f, XritToNetcdf.convert env disk cov (present.map files) pro hd scale offset none value valid single = .ok (some f) ∧
      NetcdfToGrib.convert f pack sample blank option old =
        XritToGrib.convert env disk cov (present.map files) pro hd scale offset none value pack sample blank option old >>= fun r =>
          .ok (r.map fun i => { i with lon := single i.lon }) := by
  obtain ⟨f, e1, e2, _⟩ := through h present hpr hne cov hf hbits none some .counts pro hd sat wmo name w false lon ps s o hsay (fun _ => rfl) day msec
    hday hmsec hstart y m d hy hv hdate scale offset value valid hvalid single hlon pack sample blank option old
  exact ⟨f, e1, e2 hcx hcy⟩

/-- xRIT to GRIB through NetCDF, thermal channels: the same, with any calibration table. -/
theorem C125_thermal_partial (h : Segments env disk files n cols lines channel planned format cfac imgs)
    (present : List Nat) (hpr : ∀ i ∈ present, i < n) (hne : present ≠ []) (cov : Option Coverage) (hf : Full channel n cols lines cov)
    (hbits : ∀ i < n, ∀ v ∈ imgs i, v < 65536) (table : List Nat) (hcols : 0 < cols) (htab : 0 < table.length)
    (hcounts : ∀ i < n, ∀ v ∈ imgs i, v < table.length) (pro : XritDataset.Prologue) (hd : XritDataset.Header) (sat : String) (wmo : Int)
    (name : String) (w : Int) (lon ps s o : ℝ) (hsay : FilesSay pro hd channel sat wmo name w true lon ps s o)
    (hcx : Close ps |1000 * (if channel = 12 then pro.gridHrv else pro.gridVisIr).1|)
    (hcy : Close ps |1000 * (if channel = 12 then pro.gridHrv else pro.gridVisIr).2|)
    (day msec : Nat) (hday : day < 2 ^ 16) (hmsec : msec < 2 ^ 32) (hstart : pro.start = Time.cdsShortOf day msec)
    (y m d : Nat) (hy : 1958 ≤ y) (hv : ValidDate y m d)
    (hdate : daysBetweenYears 1958 y + daysBeforeMonth y m + (d - 1) = day + msec / 86400000)
    (value : Nat → Option Rat)
    (valid : String → Bool) (hvalid : valid name = true) (single : ℝ → ℝ) (hlon : |single lon| ≤ 1000) (pack : Rat → Rat)
    (sample : GribFile.Template → List (String × Int)) (blank : Datetime.Message) (option : Option String) (old : Option GribFile.Message) :
    ∃ f, XritToNetcdf.convert env disk cov (present.map files) pro hd 1 0 (some table) value valid single = .ok (some f) ∧
      NetcdfToGrib.convert f pack sample blank option old =
        XritToGrib.convert env disk cov (present.map files) pro hd 1 0 (some table) value pack sample blank option old >>= fun r =>
          .ok (r.map fun i => { i with lon := single i.lon }) := by
  obtain ⟨f, e1, e2, _⟩ := through h present hpr hne cov hf hbits (some table) _ (.table table htab hcols hcounts) pro hd sat wmo name w true lon ps s o
    hsay (fun h => by cases h) day msec hday hmsec hstart y m d hy hv hdate 1 0 value valid hvalid single hlon pack sample blank option old
  exact ⟨f, e1, e2 hcx hcy⟩

/-- Discrepancy: pixel sizes between a tenth of a millimetre and a millimetre from the standard ones are taken for those when a NetCDF file is written,
but are refused when a GRIB file is: a product that cannot be converted to GRIB can be converted to NetCDF, and that to GRIB. -/
theorem C125_violated_size (h : Segments env disk files n cols lines channel planned format cfac imgs)
    (present : List Nat) (hpr : ∀ i ∈ present, i < n) (hne : present ≠ []) (cov : Option Coverage) (hf : Full channel n cols lines cov)
    (hbits : ∀ i < n, ∀ v ∈ imgs i, v < 65536) (pro : XritDataset.Prologue) (hd : XritDataset.Header) (sat : String) (wmo : Int) (name : String)
    (w : Int) (lon ps s o : ℝ) (hsay : FilesSay pro hd channel sat wmo name w false lon ps s o)
    (hfar : ¬ Close ps |1000 * (if channel = 12 then pro.gridHrv else pro.gridVisIr).1|)
    (day msec : Nat) (hday : day < 2 ^ 16) (hmsec : msec < 2 ^ 32) (hstart : pro.start = Time.cdsShortOf day msec)
    (y m d : Nat) (hy : 1958 ≤ y) (hv : ValidDate y m d)
    (hdate : daysBetweenYears 1958 y + daysBeforeMonth y m + (d - 1) = day + msec / 86400000)
    (scale offset : Rat) (hscale : scale ≠ 0) (value : Nat → Option Rat)
    (valid : String → Bool) (hvalid : valid name = true) (single : ℝ → ℝ) (hlon : |single lon| ≤ 1000) (pack : Rat → Rat)
    (sample : GribFile.Template → List (String × Int)) (blank : Datetime.Message) (option : Option String) (old : Option GribFile.Message)
    (t : GribFile.Template) (ht : GribFile.templateOf option = some t) (hsample : plainSample sample)
    (hsome : ∃ seg < n, ∃ row < lines, ∃ x < side channel, ∃ k count,
      sampleAt (windows channel cov) cols (seg * lines + row + 1) x = some k ∧ fileSample imgs present cols cfac seg row k = some count ∧ count ≠ 0) :
    XritToGrib.convert env disk cov (present.map files) pro hd scale offset none value pack sample blank option old = .ok none ∧
    ∃ f img, XritToNetcdf.convert env disk cov (present.map files) pro hd scale offset none value valid single = .ok (some f) ∧
      NetcdfToGrib.convert f pack sample blank option old = .ok (some img) := by
  obtain ⟨f, e1, _, e3, e4⟩ := through h present hpr hne cov hf hbits none some .counts pro hd sat wmo name w false lon ps s o hsay (fun _ => rfl) day msec
    hday hmsec hstart y m d hy hv hdate scale offset value valid hvalid single hlon pack sample blank option old
  obtain ⟨img, e3⟩ := e3 ⟨t, ht⟩ hscale hsample (by
    obtain ⟨seg, hs, row, hr, x, hx, k, count, k1, k2, k3⟩ := hsome
    refine ⟨seg, hs, row, hr, x, hx, count, by rw [k1]; simp [k2], ?_⟩
    simpa [XritToGrib.number] using k3)
  exact ⟨e4.resolve_left hfar, f, img, e1, e3⟩

end

/-! ### Cases -/

/-- The second of two segments of an image of channel VIS008. -/
example : ∃ f img, XritToNetcdf.convert aDecoder (fun f => if f = [1] then some (fileOf 0 (halfOf 2 0) [9, 9] [])
      else if f = [2] then some (fileOf 0 (halfOf 2 1) [9, 9] []) else none) none
    ([1].map fun i => if i = 0 then [1] else [2]) aPrologue ⟨323, 2, 10, some 0⟩ (1 / 5) (-52 / 5) none (fun _ => none) (fun _ => true) id = .ok (some f) ∧
    NetcdfToGrib.convert f id (fun _ => []) ⟨0, 0, 0, 0, 0, 0, 0, 0, 0⟩ none none = .ok (some img) ∧ img.image.channel = 2 := by
  obtain ⟨img, _, _, e1, _, _, _, e5, _⟩ := C124_solar_partial halves2 [1] (by simp) (by simp) none halves_full2 aPrologue ⟨323, 2, 10, some 0⟩
    "MSG3" 57 "VIS008" 8 0 3000.40307617188 0.2 (-10.4) halves_say2 aClose.1 aClose.2 20750 43211000 (by norm_num) (by norm_num) rfl 2014 10 24
    (by norm_num) (by unfold Spec.ValidDate; decide +kernel) (by decide +kernel) (1 / 5) (-52 / 5) (by norm_num) (by norm_num) (by norm_num)
    (fun _ => none) id (fun _ => []) (fun _ _ _ => rfl) ⟨0, 0, 0, 0, 0, 0, 0, 0, 0⟩ none .wmo rfl none
    ⟨1, by norm_num, 3, by norm_num, 0, by simp [side], 0, 7, by simp [windows, sampleAt], by simp [fileSample], by norm_num⟩
  obtain ⟨f, f1, f2⟩ := C125_solar_partial halves2 [1] (by simp) (by simp) none halves_full2 (fun i _ v hv => by have := List.mem_range.1 hv; omega)
    aPrologue ⟨323, 2, 10, some 0⟩
    "MSG3" 57 "VIS008" 8 0 3000.40307617188 0.2 (-10.4) halves_say2 aClose.1 aClose.2 20750 43211000 (by norm_num) (by norm_num) rfl 2014 10 24
    (by norm_num) (by unfold Spec.ValidDate; decide +kernel) (by decide +kernel) (1 / 5) (-52 / 5)
    (fun _ => none) (fun _ => true) rfl id (by simp) id (fun _ => []) ⟨0, 0, 0, 0, 0, 0, 0, 0, 0⟩ none none
  rw [e1] at f2
  exact ⟨f, _, f1, f2, e5⟩

/-- The same for IR_108, where the hypotheses are those of C122. -/
example : ∃ f, XritToNetcdf.convert aDecoder (fun f => if f = [1] then some (fileOf 0 (halfOf 9 0) [9, 9] [])
      else if f = [2] then some (fileOf 0 (halfOf 9 1) [9, 9] []) else none) none
    ([1, 0].map fun i => if i = 0 then [1] else [2]) aPrologue ⟨323, 9, 10, some 0⟩ 1 0 (some (List.range 4096)) (fun v => some v) (fun _ => true) id =
      .ok (some f) := by
  obtain ⟨f, f1, _⟩ := C125_thermal_partial (halves 9 (.inr rfl)) [1, 0] (by simp) (by simp) none (halves_full 9 (.inr rfl))
    (fun i _ v hv => by have := List.mem_range.1 hv; omega) (List.range 4096) (by norm_num) (by rw [List.length_range]; norm_num)
    (fun i _ v hv => by have := List.mem_range.1 hv; rw [List.length_range]; omega)
    aPrologue ⟨323, 9, 10, some 0⟩ "MSG3" 57 "IR_108" 108 0 3000.40307617188 0.2 (-10.4)
    (halves_say 9 (.inr ⟨rfl, rfl, rfl, rfl⟩)) aClose.1 aClose.2 20750 43211000 (by norm_num) (by norm_num) rfl 2014 10 24 (by norm_num)
    (by unfold Spec.ValidDate; decide +kernel) (by decide +kernel) (fun v => some v) (fun _ => true) rfl
    id (by simp) id (fun _ => []) ⟨0, 0, 0, 0, 0, 0, 0, 0, 0⟩ none none
  exact ⟨f, f1⟩

/-- A prologue with pixels that are half a millimetre larger. -/
noncomputable def aLargerPrologue : XritDataset.Prologue := { aPrologue with gridVisIr := (3.0004035, 3.0004035) }

example : (∃ img, XritToGrib.convert aDecoder (fun f => if f = [1] then some (fileOf 0 (halfOf 2 0) [9, 9] [])
      else if f = [2] then some (fileOf 0 (halfOf 2 1) [9, 9] []) else none) none
    ([1].map fun i => if i = 0 then [1] else [2]) aLargerPrologue ⟨323, 2, 10, some 0⟩ (1 / 5) (-52 / 5) none (fun _ => none) id (fun _ => [])
    ⟨0, 0, 0, 0, 0, 0, 0, 0, 0⟩ none none = .ok img ∧ img = none) ∧
    ∃ f img, XritToNetcdf.convert aDecoder (fun f => if f = [1] then some (fileOf 0 (halfOf 2 0) [9, 9] [])
      else if f = [2] then some (fileOf 0 (halfOf 2 1) [9, 9] []) else none) none
    ([1].map fun i => if i = 0 then [1] else [2]) aLargerPrologue ⟨323, 2, 10, some 0⟩ (1 / 5) (-52 / 5) none (fun _ => none) (fun _ => true) id =
      .ok (some f) ∧ NetcdfToGrib.convert f id (fun _ => []) ⟨0, 0, 0, 0, 0, 0, 0, 0, 0⟩ none none = .ok (some img) := by
  have hab : About 3000.40307617188 |1000 * aLargerPrologue.gridVisIr.1| := by
    unfold About
    simp only [aLargerPrologue]
    rw [abs_lt, abs_of_pos (by norm_num)]
    constructor <;> norm_num
  obtain ⟨e1, e2⟩ := C125_violated_size halves2 [1] (by simp) (by simp) none halves_full2 (fun i _ v hv => by have := List.mem_range.1 hv; omega)
    aLargerPrologue ⟨323, 2, 10, some 0⟩
    "MSG3" 57 "VIS008" 8 0 3000.40307617188 0.2 (-10.4)
    ⟨⟨by simp, by simp, by simp [aLargerPrologue, aPrologue], by simp⟩, rfl,
      by show ("MSG3", (57 : Int), some ((323 : Nat) : Int)) ∈ _; decide +kernel, by decide +kernel, by decide +kernel, rfl, .inl rfl,
      hab, hab, by simp [aLargerPrologue, aPrologue]⟩
    (by
      rw [if_neg (by decide)]
      unfold Close
      simp only [aLargerPrologue]
      rw [not_le, lt_abs, abs_of_pos (by norm_num)]
      left
      norm_num)
    20750 43211000 (by norm_num) (by norm_num) rfl 2014 10 24
    (by norm_num) (by unfold Spec.ValidDate; decide +kernel) (by decide +kernel) (1 / 5) (-52 / 5) (by norm_num)
    (fun _ => none) (fun _ => true) rfl id (by simp) id (fun _ => []) ⟨0, 0, 0, 0, 0, 0, 0, 0, 0⟩ none none .wmo rfl (fun _ _ _ => rfl)
    ⟨1, by norm_num, 3, by norm_num, 0, by simp [side], 0, 7, by simp [windows, sampleAt], by simp [fileSample], by norm_num⟩
  exact ⟨⟨_, e1, rfl⟩, e2⟩

end Msat.Props
