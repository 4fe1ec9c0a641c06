import Verif.Lemmas.NetcdfFile
import Verif.Props.C44
import Verif.Props.C45
import Verif.Props.C13_C16
import Verif.Lemmas.Outcome

/-
C85 Images exported to NetCDF are the same when they are opened again.
-/
namespace Msat.Props
open Msat NetcdfFile NetcdfFileSpec NetcdfFileLemmas DatetimeSpec SatSpec

theorem projname_ok {l : ℝ} (h : |l| ≤ 1000) : projname l = .ok () := by
  obtain ⟨h1, h2⟩ := abs_le.1 h
  unfold projname
  rw [if_pos]
  constructor <;> norm_num <;> linarith

theorem create_geostationary {valid : String → Bool} {single : ℝ → ℝ} {src : Source} {s : Georef.Source} {f : Georef.NcFile}
    (hr : src.ref = .geostationary s) (he : Georef.exportNetcdf single s = .ok (some f)) (hl : |f.longitude| ≤ 1000)
    (hb : ∀ b ∈ src.bands, Exportable valid b) (hn : (src.bands.map Band.name).Nodup) (ht : ∀ b ∈ src.bands, b.name ≠ "time") :
    ∃ vs, create valid single src = .ok (some ⟨src.spacecraft, src.datetime.map Datetime.netcdfTime, some f, some packageVersion,
        Var.other "time" [1] :: vs⟩) ∧ List.Forall₂ (Written src.nx src.ny) src.bands vs := by
  obtain ⟨vs, e, hw⟩ := addBands_ok src.nx src.ny src.bands [Var.other "time" [1]] hb hn (by
    intro b hm
    simp only [List.map_cons, List.map_nil, List.mem_singleton]
    exact ht b hm)
  refine ⟨vs, ?_, hw⟩
  unfold create exportRef
  rw [hr]
  dsimp only
  rw [he]
  simp only [Outcome.ok_bind, projname_ok hl, Outcome.pure_eq, List.nil_append]
  rw [e]
  rfl

theorem fixOffset_version (b : OpenBand) : fixOffset (some packageVersion) b = b := by
  unfold fixOffset
  rw [if_neg]
  rintro ⟨h, _⟩
  exact absurd h (by decide)

theorem nonempty_name {name : String} {id : Int} {h : Option Int} (hm : (name, id, h) ∈ satellites) : name.isEmpty = false := by
  have key : ∀ e ∈ satellites, e.1.isEmpty = false := by decide +kernel
  exact key _ hm

theorem bands_same {nx ny : Nat} {bs : List Band} {vs : List Var} (s : Int) (h : List.Forall₂ (Written nx ny) bs vs) :
    List.Forall₂ (fun b o => SameBand s b o ∧ SamePixels b o) bs (vs.map (openBand s)) := by
  induction h with
  | nil => exact .nil
  | cons h _ ih => exact .cons (openBand_same s h) ih

/-- What is opened. -/
theorem openFile_eq {f : File} {sat : String} {t : Bytes} (hs : f.satellite = some sat)
    (ht : Datetime.netcdfReadTime (f.time.getD (str "0000-00-00 00:00:00 UTC")) = some t) :
    ∃ o, openFile f = some o ∧ o.spacecraft = (if sat.isEmpty then none else some sat) ∧
      o.spacecraftId = (if sat.isEmpty then none else some (Facts.spacecraftID sat)) ∧ o.datetime = t ∧
      o.lon = (f.georef.map Georef.NcFile.longitude).getD 0 ∧
      (f.georef = none → o.gt = .ok none) ∧ (∀ g gt, f.georef = some g → Georef.openNetcdf g = .ok gt → o.gt = .ok (some gt)) ∧
      (o.nx, o.ny) = sizeFrom (f.vars.filter (isBand ["time"])) ∧
      o.bands = (f.vars.filter (isBand ["time"])).map fun v => fixOffset f.version (openBand (o.spacecraftId.getD 0) v) := by
  unfold openFile
  rw [hs]
  dsimp only
  rw [ht]
  dsimp only
  refine ⟨_, rfl, ?_, rfl, rfl, rfl, ?_, ?_, rfl, rfl⟩
  · split <;> rfl
  · intro h
    dsimp only
    rw [h]
  · intro g gt h e
    dsimp only
    rw [h]
    dsimp only
    rw [e]
    rfl

/-- NetCDF: an image of a known satellite, of Meteosat at either resolution, with a date, and bands with different names that are allowed
and plain types, is written; when the file is opened the satellite, its number, the date, the size, the projection, the geotransform,
and all the bands, in the same order, are the same.  Missing for the full property: images without satellite or date, images with
latitude and longitude, bands with the same name, bands without missing value. -/
theorem C85_round_trip_partial (valid : String → Bool) (single : ℝ → ℝ) (src : Source) (name : String) (id : Int) (h : Option Int)
    (y mo d ho mi se : Nat) (ps : ℝ) (s : Georef.Source)
    (hsat : src.spacecraft = some name) (hid : (name, id, h) ∈ satellites)
    (hdate : src.datetime = some (stamp y mo d ho mi se)) (hfits : Fits y mo d ho mi se)
    (href : src.ref = .geostationary s) (hps : GeorefSpec.Standard ps) (hm : OfMeteosat ps s) (hlon : |single s.lon| ≤ 1000)
    (hne : src.bands ≠ []) (hb : ∀ b ∈ src.bands, Exportable valid b) (hn : (src.bands.map Band.name).Nodup)
    (ht : ∀ b ∈ src.bands, b.name ≠ "time") :
    ∃ f o, create valid single src = .ok (some f) ∧ openFile f = some o ∧
      o.spacecraft = some name ∧ o.spacecraftId = some id ∧ o.datetime = stamp y mo d ho mi se ∧
      o.lon = single s.lon ∧ o.gt = .ok (some s.gt) ∧ o.nx = src.nx ∧ o.ny = src.ny ∧
      List.Forall₂ (fun b o => SameBand id b o ∧ SamePixels b o) src.bands o.bands := by
  obtain ⟨hh, cx, cy, hg, hcx, hcy⟩ := hm
  obtain ⟨g, e1, e2, e3⟩ := C44_netcdf single s ps ps cx cy hg hh hps hps hcx hcy
  obtain ⟨vs, e4, hw⟩ := create_geostationary href e1 (by rw [e3]; exact hlon) hb hn ht
  have hspace : Facts.spacecraftID name = id := (C14_id_of_name name id).2 (.inl ⟨h, hid⟩)
  have hf : (Var.other "time" [1] :: vs).filter (isBand ["time"]) = vs := by
    rw [List.filter_cons_of_neg (by decide)]
    exact filter_written hw fun b hm => by simpa using ht b hm
  obtain ⟨o, o1, o2, o3, o4, o5, _, o7, o8, o9⟩ := openFile_eq
    (f := ⟨src.spacecraft, src.datetime.map Datetime.netcdfTime, some g, some packageVersion, Var.other "time" [1] :: vs⟩)
    (sat := name) (t := stamp y mo d ho mi se) hsat (by
      dsimp only
      rw [hdate]
      exact C67_round_trip y mo d ho mi se hfits)
  dsimp only at o5 o7 o8 o9
  rw [hf, sizeFrom_written hw hne, Prod.mk.injEq] at o8
  rw [nonempty_name hid, if_neg (by decide)] at o2 o3
  rw [hspace] at o3
  refine ⟨_, o, e4, o1, o2, o3, o4, ?_, o7 g _ rfl e2, o8.1, o8.2, ?_⟩
  · rw [o5]
    exact e3
  · rw [o9, hf, o3]
    simp only [fixOffset_version]
    exact bands_same id hw

/-- Files of old versions have no version: an offset of 1 is a mistake of the program that wrote them, and is read as 0.  All the other
offsets, and all the offsets of files with a version, are read as they are; what is not there is 0, and 1 for the scale. -/
theorem C85_offsets (f : File) (o : Opened) (ho : openFile f = some o) (i : Nat) (b : OpenBand) (hb : o.bands[i]? = some b) :
    ∃ v, (f.vars.filter fun v => v.name ≠ "time" ∧ v.dims.length = 3 ∧ v.dims.head? = some 1)[i]? = some v ∧ b.name = v.name ∧
      b.scale = v.scale.getD 1 ∧
      (b.offset = v.offset.getD 0 ∨ (f.version = none ∨ f.version = some "0") ∧ v.offset = some 1 ∧ b.offset = 0) ∧
      ((f.version = none ∨ f.version = some "0") → b.offset ≠ 1) := by
  unfold openFile at ho
  cases hs : f.satellite with
  | none => rw [hs] at ho; cases ho
  | some sat =>
    rw [hs] at ho
    dsimp only at ho
    cases ht : Datetime.netcdfReadTime (f.time.getD (str "0000-00-00 00:00:00 UTC")) with
    | none => rw [ht] at ho; cases ho
    | some t =>
      rw [ht] at ho
      dsimp only at ho
      cases ho
      dsimp only at hb
      have hfil : f.vars.filter (isBand ["time"]) =
          f.vars.filter fun v => v.name ≠ "time" ∧ v.dims.length = 3 ∧ v.dims.head? = some 1 := by
        apply List.filter_congr
        intro v _
        unfold isBand
        rw [Bool.eq_iff_iff]
        simp [and_assoc]
      rw [hfil] at hb
      generalize (f.vars.filter fun v => v.name ≠ "time" ∧ v.dims.length = 3 ∧ v.dims.head? = some 1) = l at hb
      rw [List.getElem?_map] at hb
      cases hv : l[i]? with
      | none => rw [hv] at hb; cases hb
      | some v =>
        rw [hv, Option.map_some, Option.some.injEq] at hb
        subst hb
        refine ⟨v, rfl, ?_⟩
        have hver : f.version.getD "0" = "0" ↔ (f.version = none ∨ f.version = some "0") := by
          cases f.version <;> simp
        unfold fixOffset
        simp only [hver]
        generalize (if sat.isEmpty = true then none else some (Facts.spacecraftID sat) : Option Int) = id
        have ho : (openBand (id.getD 0) v).offset = v.offset.getD 0 := rfl
        split
        · rename_i hc
          refine ⟨rfl, rfl, .inr ⟨hc.1, ?_, rfl⟩, fun _ => (by decide : (0 : Rat) ≠ 1)⟩
          rw [ho] at hc
          cases hvo : v.offset with
          | none => rw [hvo] at hc; exact absurd hc.2 (by decide)
          | some q => rw [hvo] at hc; exact congrArg some hc.2
        · rename_i hc
          exact ⟨rfl, rfl, .inl rfl, fun hv h1 => hc ⟨hv, h1⟩⟩

/-! ### Cases -/

def aNetcdfBand : Band := ⟨⟨.uint16, some 0, some 9, [.bits 512, .bits 65535]⟩, "IR_108", 1 / 4, -10, "K"⟩

noncomputable def aNetcdfSource : Source :=
  ⟨some "MSG3", some 57, some (stamp 2014 10 24 12 0 0),
    .geostationary ⟨⟨-(1856 : ℤ) * 3000.40307617188, 3000.40307617188, 0, (1856 : ℤ) * 3000.40307617188, 0, -3000.40307617188⟩, 35785831, 0,
      57⟩, 2, 1, [aNetcdfBand]⟩

example : Exportable (fun n => n ≠ "") aNetcdfBand ∧ aNetcdfBand.name ≠ "time" ∧
    (∀ c ∈ aNetcdfBand.raster.pixels, NetcdfBandSpec.HasType aNetcdfBand.raster.type c) := by
  refine ⟨⟨by decide, by unfold NetcdfBandSpec.Plain; decide, 0, rfl, by decide, by decide⟩, by decide, ?_⟩
  intro c hc
  simp only [aNetcdfBand, List.mem_cons, List.not_mem_nil, or_false] at hc
  rcases hc with rfl | rfl <;> exact ⟨by decide, by decide⟩

example : ∃ s, aNetcdfSource.ref = .geostationary s ∧ OfMeteosat 3000.40307617188 s ∧ |id s.lon| ≤ 1000 ∧
    ("MSG3", 57, some 323) ∈ satellites ∧ Fits 2014 10 24 12 0 0 := by
  refine ⟨_, rfl, ⟨rfl, 1856, 1856, rfl, ?_, ?_⟩, ?_, by decide, ?_⟩
  · unfold GeorefSpec.Near; omega
  · unfold GeorefSpec.Near; omega
  · norm_num
  · unfold Fits; omega

/-! ### What is wrong -/

/-- NetCDF: an image without the name of a satellite is written, but the driver cannot open what it wrote. -/
theorem C85_violated_satellite (valid : String → Bool) (single : ℝ → ℝ) (src : Source) (h : src.spacecraft = none) (f : File)
    (hf : create valid single src = .ok (some f)) : openFile f = none := by
  unfold create at hf
  obtain ⟨r, _, hf⟩ := Outcome.of_bind_ok hf
  cases r with
  | none => cases hf
  | some p =>
    obtain ⟨g, vars⟩ := p
    obtain ⟨vs, _, hf⟩ := Outcome.of_bind_ok hf
    cases hf
    unfold openFile
    dsimp only
    rw [h]

/-- NetCDF: an image without a date is written, and when it is opened has a date: the year 0, month 0 and day 0. -/
theorem C85_violated_date (valid : String → Bool) (single : ℝ → ℝ) (src : Source) (h : src.datetime = none) (f : File)
    (hf : create valid single src = .ok (some f)) (hs : src.spacecraft.isSome = true) :
    ∃ o, openFile f = some o ∧ o.datetime = stamp 0 0 0 0 0 0 := by
  obtain ⟨name, hs⟩ := Option.isSome_iff_exists.1 hs
  unfold create at hf
  obtain ⟨r, _, hf⟩ := Outcome.of_bind_ok hf
  cases r with
  | none => cases hf
  | some p =>
    obtain ⟨g, vars⟩ := p
    obtain ⟨vs, _, hf⟩ := Outcome.of_bind_ok hf
    cases hf
    unfold openFile
    dsimp only
    rw [h, hs]
    have ht : Datetime.netcdfReadTime (((none : Option Bytes).map Datetime.netcdfTime).getD (str "0000-00-00 00:00:00 UTC")) =
        some (stamp 0 0 0 0 0 0) := by
      have := C67_round_trip 0 0 0 0 0 0 ⟨by omega, by omega, by omega, by omega, by omega, by omega⟩
      exact this
    dsimp only
    rw [ht]
    exact ⟨_, rfl, rfl⟩

/-- NetCDF and NetCDF-24: if the name of a band is that of another band, or of a variable that is in every file (`time`), or is not allowed
(an empty name), then the variable cannot be made, and this is not checked: a null pointer is used if the band has a channel; if not, the
file is written without the band. -/
theorem C85_violated_names (valid : String → Bool) (nx ny : Nat) (vars : List Var) (b : Band) (bs : List Band)
    (h : b.name ∈ vars.map Var.name ∨ valid b.name = false) :
    (b.raster.channel.isSome = true → addBands valid nx ny vars (b :: bs) = .ub) ∧
    (b.raster.channel = none → addBands valid nx ny vars (b :: bs) = addBands valid nx ny vars bs) := by
  have hv : bandVar valid (vars.map Var.name) nx ny b = .ok none := by
    unfold bandVar
    cases NetcdfBand.ncTypeFor b.raster.type with
    | none => rfl
    | some p =>
      dsimp only
      rw [if_pos]
      rcases h with h | h
      · simp only [Bool.or_eq_true]
        right
        simpa using h
      · simp [h]
  constructor
  · intro hc
    obtain ⟨c, hc⟩ := Option.isSome_iff_exists.1 hc
    unfold addBands
    rw [hv, hc]
    rfl
  · intro hc
    conv_lhs => unfold addBands
    rw [hv, hc]
    rfl

/-- The same for an image of Meteosat with two bands with the same name: the program stops, or the second is not in the file. -/
theorem C85_violated_two (valid : String → Bool) (single : ℝ → ℝ) (src : Source) (s : Georef.Source) (g : Georef.NcFile) (a b : Band)
    (hr : src.ref = .geostationary s) (he : Georef.exportNetcdf single s = .ok (some g)) (hl : |g.longitude| ≤ 1000)
    (ha : Exportable valid a) (hbs : src.bands = [a, b]) (hn : a.name = b.name) (ht : a.name ≠ "time") :
    (b.raster.channel.isSome = true → create valid single src = .ub) ∧
    (b.raster.channel = none → create valid single src = create valid single { src with bands := [a] }) := by
  have hused : a.name ∉ [Var.other "time" [1]].map Var.name := by
    simp only [List.map_cons, List.map_nil, List.mem_singleton]
    exact ht
  obtain ⟨v, e, hw⟩ := bandVar_ok src.nx src.ny ha hused
  obtain ⟨k1, k2⟩ := C85_violated_names valid src.nx src.ny
    ([Var.other "time" [1]] ++ [{ v with raster := { v.raster with chnum := a.raster.channel } }]) b []
    (.inl (by rw [List.map_append, List.mem_append]; right; rw [List.map_singleton, List.mem_singleton]; exact hn.symm.trans hw.1.symm))
  have hc : ∀ bs : List Band, create valid single { src with bands := a :: bs } = (addBands valid src.nx src.ny
      ([Var.other "time" [1]] ++ [{ v with raster := { v.raster with chnum := a.raster.channel } }]) bs >>= fun vars =>
      pure (some ⟨src.spacecraft, src.datetime.map Datetime.netcdfTime, some g, some packageVersion, vars⟩)) := by
    intro bs
    unfold create exportRef
    dsimp only
    rw [hr]
    dsimp only
    rw [he]
    simp only [Outcome.ok_bind, projname_ok hl, Outcome.pure_eq, List.nil_append]
    rw [addBands, e]
    simp only [Outcome.ok_bind]
  have hsrc : src = { src with bands := [a, b] } := by rw [← hbs]
  constructor
  · intro h
    rw [hsrc, hc, k1 h]
    rfl
  · intro h
    rw [hsrc]
    dsimp only
    rw [hc, hc, k2 h]

/-- NetCDF: every image with latitude and longitude is written, and when it is opened it is geostationary, over longitude 0, and without
geotransform. -/
theorem C85_violated_latlon (valid : String → Bool) (single : ℝ → ℝ) (src : Source) (h : src.ref = .latlon true)
    (hb : ∀ b ∈ src.bands, Exportable valid b) (hn : (src.bands.map Band.name).Nodup)
    (hnames : ∀ b ∈ src.bands, b.name ∉ ["longitude", "latitude", "time"])
    (name : String) (hs : src.spacecraft = some name) (y mo d ho mi se : Nat)
    (hdate : src.datetime = some (stamp y mo d ho mi se)) (hfits : Fits y mo d ho mi se) :
    ∃ f o, create valid single src = .ok (some f) ∧ openFile f = some o ∧ o.lon = 0 ∧ o.gt = .ok none := by
  obtain ⟨vs, e, hw⟩ := addBands_ok src.nx src.ny src.bands
    ([Var.other "longitude" [src.nx], Var.other "latitude" [src.ny]] ++ [Var.other "time" [1]]) hb hn (by
      intro b hm
      have := hnames b hm
      simp only [List.mem_cons, List.not_mem_nil, or_false] at this
      simp only [List.map_append, List.map_cons, List.map_nil, List.mem_append, List.mem_cons, List.not_mem_nil, or_false]
      intro hc
      apply this
      rcases hc with (hc | hc) | hc
      · exact .inl hc
      · exact .inr (.inl hc)
      · exact .inr (.inr hc))
  obtain ⟨o, o1, _, _, _, o5, o6, _⟩ := openFile_eq
    (f := ⟨src.spacecraft, src.datetime.map Datetime.netcdfTime, none, some packageVersion,
      ([Var.other "longitude" [src.nx], Var.other "latitude" [src.ny]] ++ [Var.other "time" [1]]) ++ vs⟩)
    (sat := name) (t := stamp y mo d ho mi se) hs (by
      dsimp only
      rw [hdate]
      exact C67_round_trip y mo d ho mi se hfits)
  refine ⟨_, o, ?_, o1, o5, o6 rfl⟩
  unfold create exportRef
  rw [h]
  simp only [if_true, Outcome.ok_bind]
  rw [e]
  rfl

/-- NetCDF: an image without a spatial reference uses a null pointer. -/
theorem C85_violated_null (valid : String → Bool) (single : ℝ → ℝ) (src : Source) (h : src.ref = .missing) :
    create valid single src = .ub := by
  unfold create exportRef
  rw [h]
  rfl

/-- NetCDF and NetCDF-24: a band of integers without missing value is converted with the number that GDAL has for it, which is undefined. -/
theorem C85_violated_unset (valid : String → Bool) (nx ny : Nat) (vars : List Var) (b : Band) (bs : List Band)
    (hv : valid b.name = true) (hn : b.name ∉ vars.map Var.name) (hu : b.raster.nodata = some unset)
    (ht : b.raster.type = .byte ∨ b.raster.type = .int16 ∨ b.raster.type = .uint16 ∨ b.raster.type = .int32 ∨
      b.raster.type = .uint32) : addBands valid nx ny vars (b :: bs) = .ub := by
  have hc : ∀ w, w = 8 ∨ w = 16 ∨ w = 32 → NetcdfBand.toIntType w (some unset) = .ub := by
    intro w hw
    have : unset = ((-10000000000 : Int) : Rat) := by decide
    rw [this, toIntType_int]
    rcases hw with rfl | rfl | rfl <;> rfl
  have hr : NetcdfBand.rasterBandToNcVar b.raster = .ub := by
    unfold NetcdfBand.rasterBandToNcVar
    rw [hu]
    rcases ht with ht | ht | ht | ht | ht <;> rw [ht] <;> simp [NetcdfBand.ncTypeFor, NetcdfBand.fillFor, NetcdfBand.NcType.width, hc]
  have hp : ∃ p, NetcdfBand.ncTypeFor b.raster.type = some p := by
    rcases ht with ht | ht | ht | ht | ht <;> rw [ht] <;> exact ⟨_, rfl⟩
  obtain ⟨p, hp⟩ := hp
  unfold addBands bandVar
  rw [hp]
  dsimp only
  rw [if_neg (by simp only [Bool.or_eq_true]; simp [hv]; simpa using hn), hr]
  rfl

end Msat.Props
