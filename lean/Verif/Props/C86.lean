import Verif.Props.C85

/-
C86 Images exported to NetCDF-24 are the same when they are opened again.
-/
namespace Msat.Props
open Msat NetcdfFile NetcdfFileSpec NetcdfFileLemmas DatetimeSpec SatSpec

theorem date24_stamp {y mo d h mi s : Nat} (f : Fits y mo d h mi s) :
    date24 (some (stamp y mo d h mi s)) = some (some [(y : Int), mo, d, h, mi, s]) := by
  unfold date24
  dsimp only
  rw [scan_stamp f]
  rfl

theorem create24_geostationary {valid : String → Bool} {single : ℝ → ℝ} {src : Source} {s : Georef.Source} {id : Int}
    {p : Georef.Nc24File} {date : Option (List Int)} (hid : src.spacecraftId = some id) (hd : date24 src.datetime = some date)
    (hr : src.ref = .geostationary s) (he : Georef.exportNetcdf24 single { s with spacecraft := id } = .ok (some p))
    (hb : ∀ b ∈ src.bands, Exportable valid b) (hn : (src.bands.map Band.name).Nodup)
    (ht : ∀ b ∈ src.bands, b.name ≠ "time" ∧ b.name ≠ "Projection") :
    ∃ vs, create24 valid single src = .ok (some ⟨id, date, p, Var.other "Projection" [] :: Var.other "time" [1] :: vs⟩) ∧
      List.Forall₂ (Written src.nx src.ny) src.bands vs ∧
      (Var.other "Projection" [] :: Var.other "time" [1] :: vs).filter (isBand ["Projection", "time"]) = vs := by
  obtain ⟨vs, e, hw⟩ := addBands_ok src.nx src.ny src.bands [Var.other "Projection" [], Var.other "time" [1]] hb hn (by
    intro b hm
    simp only [List.map_cons, List.map_nil, List.mem_cons, List.not_mem_nil, or_false]
    rintro (h | h)
    · exact (ht b hm).2 h
    · exact (ht b hm).1 h)
  refine ⟨vs, ?_, hw, ?_⟩
  · unfold create24
    rw [hid, hd, hr]
    dsimp only
    rw [he]
    simp only [Outcome.ok_bind]
    rw [e]
    rfl
  · rw [List.filter_cons_of_neg (by decide), List.filter_cons_of_neg (by decide)]
    refine filter_written hw fun b hm => ?_
    simp only [List.mem_cons, List.not_mem_nil, or_false, not_or]
    exact ⟨(ht b hm).2, (ht b hm).1⟩

/-- What is opened. -/
theorem openFile24_eq {f : File24} {gt : Georef.Gt} (h : Georef.openNetcdf24 f.projection = .ok (some gt)) (hs : f.satellite ≠ 0) :
    ∃ o, openFile24 f = .ok (some o) ∧ o.spacecraft = some (Facts.spacecraftName f.satellite) ∧ o.spacecraftId = some f.satellite ∧
      o.datetime = stamp24 f.date ∧ o.lon = f.projection.grid.lon ∧ o.gt = .ok (some gt) ∧
      (o.nx, o.ny) = sizeFrom (f.vars.filter (isBand ["Projection", "time"])) ∧
      o.bands = (f.vars.filter (isBand ["Projection", "time"])).map (openBand f.satellite) := by
  unfold openFile24
  rw [h]
  simp only [Outcome.ok_bind, Outcome.pure_eq]
  refine ⟨_, rfl, ?_, ?_, rfl, rfl, rfl, rfl, rfl⟩
  · dsimp only
    rw [if_neg hs]
    rfl
  · dsimp only
    rw [if_neg hs]

/-- NetCDF-24: an image of Meteosat 8 or 9, at the low resolution, with a date, and bands with different names that are allowed and plain
types, is written; when the file is opened the satellite, its name, the date, the size, the projection, the geotransform and all the
bands, in the same order, are the same.  Missing for the full property: other satellites, images without date, bands with the same name
and bands without missing value; at the high resolution the size of the pixels is not exactly the same (see C44). -/
theorem C86_round_trip_partial (valid : String → Bool) (single : ℝ → ℝ) (src : Source) (id : Int)
    (y mo d ho mi se : Nat) (s : Georef.Source) (hsat : src.spacecraftId = some id) (hid : id = 55 ∨ id = 56)
    (hdate : src.datetime = some (stamp y mo d ho mi se)) (hfits : Fits y mo d ho mi se)
    (href : src.ref = .geostationary s) (hm : OfMeteosat 3000.40307617188 s)
    (hne : src.bands ≠ []) (hb : ∀ b ∈ src.bands, Exportable valid b) (hn : (src.bands.map Band.name).Nodup)
    (ht : ∀ b ∈ src.bands, b.name ≠ "time" ∧ b.name ≠ "Projection") :
    ∃ f o, create24 valid single src = .ok (some f) ∧ openFile24 f = .ok (some o) ∧
      (∃ name h, o.spacecraft = some name ∧ (name, id, h) ∈ satellites) ∧ o.spacecraftId = some id ∧
      o.datetime = stamp y mo d ho mi se ∧ o.lon = single s.lon ∧ o.gt = .ok (some s.gt) ∧ o.nx = src.nx ∧ o.ny = src.ny ∧
      List.Forall₂ (fun b o => SameBand id b o ∧ SamePixels b o) src.bands o.bands := by
  obtain ⟨hh, cx, cy, hg, hcx, hcy⟩ := hm
  obtain ⟨p, e1, e2, e3⟩ := C44_netcdf24_partial single { s with spacecraft := id } cx cy hg hh hcx hcy hid
  obtain ⟨vs, e4, hw, hf⟩ := create24_geostationary hsat (by rw [hdate]; exact date24_stamp hfits) href e1 hb hn ht
  obtain ⟨o, o1, o2, o3, o4, o5, o6, o7, o8⟩ := openFile24_eq
    (f := ⟨id, some [(y : Int), mo, d, ho, mi, se], p, Var.other "Projection" [] :: Var.other "time" [1] :: vs⟩) e2 (by
      show id ≠ 0
      omega)
  dsimp only at o2 o3 o4 o5 o7 o8
  rw [hf, sizeFrom_written hw hne, Prod.mk.injEq] at o7
  refine ⟨_, o, e4, o1, ?_, o3, ?_, ?_, o6, o7.1, o7.2, ?_⟩
  · rcases hid with rfl | rfl
    · exact ⟨"MSG1", some 321, o2, by decide⟩
    · exact ⟨"MSG2", some 322, o2, by decide⟩
  · rw [o4]
    exact format_stamp hfits
  · rw [o5]
    exact e3
  · rw [o8, hf]
    exact bands_same id hw

/-- An image without the number of a satellite, or with a date that is not understood, or that is not geostationary, is not written. -/
theorem C86_refused (valid : String → Bool) (single : ℝ → ℝ) (src : Source)
    (h : src.spacecraftId = none ∨ (∃ t, src.datetime = some t ∧ (Text.scanf Datetime.stampFormat t).length ≠ 6) ∨
      ((∃ b, src.ref = .latlon b) ∨ src.ref = .other)) : create24 valid single src = .ok none := by
  unfold create24
  cases hs : src.spacecraftId with
  | none => rfl
  | some id =>
    dsimp only
    cases hd : date24 src.datetime with
    | none => rfl
    | some date =>
      dsimp only
      rcases h with h | ⟨t, h1, h2⟩ | ⟨b, h⟩ | h
      · rw [hs] at h; cases h
      · rw [h1] at hd
        unfold date24 at hd
        dsimp only at hd
        rw [if_neg h2] at hd
        cases hd
      · rw [h]
      · rw [h]

/-! ### Cases -/

example : OfMeteosat 3000.40307617188
    ⟨⟨-(1856 : ℤ) * 3000.40307617188, 3000.40307617188, 0, (1856 : ℤ) * 3000.40307617188, 0, -3000.40307617188⟩, 35785831, 0, 55⟩ := by
  refine ⟨rfl, 1856, 1856, rfl, ?_, ?_⟩ <;> unfold GeorefSpec.Near <;> omega

/-! ### What is wrong -/

/-- NetCDF-24: an image of Meteosat 10 or 11, or of any other satellite, is written, and the file that was written is refused: the number of
the satellite is written as the type of the level, which has to be 55 or 56. -/
theorem C86_violated_satellite (valid : String → Bool) (single : ℝ → ℝ) (src : Source) (id : Int) (date : Option (List Int))
    (s : Georef.Source) (hsat : src.spacecraftId = some id) (hid : id ≠ 55 ∧ id ≠ 56) (hd : date24 src.datetime = some date)
    (href : src.ref = .geostationary s) (hm : OfMeteosat 3000.40307617188 s)
    (hb : ∀ b ∈ src.bands, Exportable valid b) (hn : (src.bands.map Band.name).Nodup)
    (ht : ∀ b ∈ src.bands, b.name ≠ "time" ∧ b.name ≠ "Projection") :
    ∃ f, create24 valid single src = .ok (some f) ∧ openFile24 f = .ok none := by
  obtain ⟨hh, cx, cy, hg, hcx, hcy⟩ := hm
  obtain ⟨p, e1, e2⟩ := C44_violated_satellite single { s with spacecraft := id } cx cy hg hh hcx hcy hid.1 hid.2
  obtain ⟨vs, e4, _⟩ := create24_geostationary hsat hd href e1 hb hn ht
  refine ⟨_, e4, ?_⟩
  unfold openFile24
  dsimp only
  rw [e2]
  rfl

/-- NetCDF-24: an image without a date has a date when it is opened: the year 0, month 0 and day 0. -/
theorem C86_violated_date (valid : String → Bool) (single : ℝ → ℝ) (src : Source) (h : src.datetime = none) (f : File24) (o : Opened)
    (hf : create24 valid single src = .ok (some f)) (ho : openFile24 f = .ok (some o)) : o.datetime = stamp 0 0 0 0 0 0 := by
  have hdate : f.date = none := by
    unfold create24 at hf
    rw [h] at hf
    cases hs : src.spacecraftId with
    | none => rw [hs] at hf; cases hf
    | some id =>
      rw [hs] at hf
      simp only [date24] at hf
      cases hr : src.ref with
      | missing => rw [hr] at hf; cases hf
      | latlon b => rw [hr] at hf; cases hf
      | other => rw [hr] at hf; cases hf
      | geostationary s =>
        rw [hr] at hf
        dsimp only at hf
        obtain ⟨q, _, hf⟩ := Outcome.of_bind_ok hf
        cases q with
        | none => cases hf
        | some p =>
          obtain ⟨vs, _, hf⟩ := Outcome.of_bind_ok hf
          cases hf
          rfl
  unfold openFile24 at ho
  obtain ⟨q, _, ho⟩ := Outcome.of_bind_ok ho
  cases q with
  | none => cases ho
  | some gt =>
    cases ho
    dsimp only
    rw [hdate]
    exact format_stamp (y := 0) (mo := 0) (d := 0) (h := 0) (mi := 0) (s := 0)
      ⟨by omega, by omega, by omega, by omega, by omega, by omega⟩

/-- NetCDF-24: an image without a spatial reference uses a null pointer. -/
theorem C86_violated_null (valid : String → Bool) (single : ℝ → ℝ) (src : Source) (h : src.ref = .missing) (id : Int)
    (hs : src.spacecraftId = some id) (date : Option (List Int)) (hd : date24 src.datetime = some date) :
    create24 valid single src = .ub := by
  unfold create24
  rw [hs, hd, h]

end Msat.Props
