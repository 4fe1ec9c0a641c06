import Verif.Model.XritToNetcdf
import Verif.Model.GribFile
import Verif.Model.Datetime

/-
From xRIT files to a GRIB file: `msat --conv=MsatGRIB`, as the parts of it that are modelled elsewhere put together.
-/
namespace Msat.XritToGrib
open Msat
open Msat.Xrit (Coverage)
open Msat.XritToNetcdf (readLines matrix)

/-- The pixel of gdal/grib/grib.cpp:337-341 `RasterIO` as `double`: a count, or the number of the bits of a `float`; those are numbers in an
image of xRIT files (gdal/xrit/rasterband.cpp:85-100). -/
def number (linear : Bool) (value : Nat → Option Rat) (v : Nat) : Rat := if linear then v else (value v).getD 0

/-- gdal/xrit/dataset.cpp:30-105 and gdal/xrit/rasterband.cpp:22-69: what the image is for the driver of GRIB.  Its spatial reference is the one
of msat/gdal/dataset.cpp `set_spaceview`, that the driver accepts. -/
noncomputable def source (ds : XritDataset.Dataset) (scale offset : Rat) (value : Nat → Option Rat) (px : List Nat) : GribFile.Source where
  sx := ds.nx
  sy := ds.ny
  srs := some true
  spacecraft := some ds.spacecraftId.toNat
  bands := [⟨px.map (number ds.band.linear value), some 0, scale, offset, some ds.band.channelId⟩]

/-- The edition of the messages of a template: gdal/grib/grib.cpp:394-625 and 628-835. -/
def edition : GribFile.Template → Int
  | .wmo => 2
  | .ecmwf | .msat => 1

/-- What is opened at last: size, satellite, channel and pixels, geotransform, the longitude of the satellite in the message, date and time. -/
structure Image where
  image : GribFile.Dataset
  gt : Georef.Gt
  lon : ℝ
  datetime : Bytes

/-- tools/msat.cpp:688-722, for an xRIT image and the driver of GRIB, with a trace file that can be opened and a file that can be written: the
image is opened, all its lines are read, the message is made of its grid, its date and its pixels, written, and opened.  `sample` are the keys of
the sample messages, `blank` the date of the sample message. -/
noncomputable def convert (env : Hrit.Env) (disk : Hrit.Disk) (cov : Option Coverage) (names : List Bytes) (pro : XritDataset.Prologue)
    (h : XritDataset.Header) (scale offset : Rat) (table : Option (List Nat)) (value : Nat → Option Rat) (pack : Rat → Rat)
    (sample : GribFile.Template → List (String × Int)) (blank : Datetime.Message) (option : Option String) (old : Option GribFile.Message) :
    Outcome (Option Image) := do
  let da ← Hrit.scanFiles disk cov names
  let ds ← XritDataset.init da.hrv pro h
  match GribFile.templateOf option with
  | none => pure none
  | some t =>
    match ← readLines da (Hrit.segDisk env disk) ds.band.blockX table [] (List.range ds.ny) with
    | none => pure none
    | some px =>
      match ← Georef.exportGrib ⟨matrix ds.geotransform, Georef.orbitRadiusForGdal, ds.sublon, ds.spacecraftId⟩ with
      | none => pure none
      | some g => do
        let time ← Datetime.setTime { blank with edition := edition t } (ds.datetime.map fun c => UInt8.ofNat c.toNat)
        let r ← GribFile.createCopy true pack sample option true true old (source ds scale offset value px)
        match r.1 with
        | none => pure none
        | some d => do
          let gt ← Georef.openGrib g
          let stamp ← Datetime.formatTime time
          pure (some ⟨d, gt, g.lon, stamp⟩)

end Msat.XritToGrib
