import Verif.Model.HritFile
import Verif.Model.DataAccess
import Verif.Model.XritDataset
import Verif.Model.NetcdfFile

/-
From xRIT files to a NetCDF file: `msat --conv=MsatNetCDF`, as the parts of it that are modelled elsewhere put together.

Parts of the prologue and of the header of the last segment are given as they are (their reading from bytes is in C04 and C05).
-/
namespace Msat.XritToNetcdf
open Msat
open Msat.Xrit (DataAccess SegData Cache Coverage readBlock)

/-- gdal/netcdf/utils.cpp:192-209 `copy_data`: `RasterIO` of the whole band, for a band with blocks of one line (gdal/xrit/rasterband.cpp:22-32):
GDAL reads them from the first one.  `none` if a block fails. -/
def readLines (da : DataAccess) (disk : Bytes → Outcome SegData) (blockX : Nat) (calibration : Option (List Nat)) :
    Cache → List Nat → Outcome (Option (List Nat))
  | _, [] => .ok (some [])
  | cache, y :: ys =>
    let r := readBlock da disk cache blockX calibration 0 y
    do
      match ← r.1 with
      | .failure => pure none
      | .none row =>
        match ← readLines da disk blockX calibration r.2 ys with
        | none => pure none
        | some rest => pure (some (row ++ rest))

/-- A pixel: 16 bits, or a `float`, of which `value` gives the number. -/
def cell (linear : Bool) (value : Nat → Option Rat) (v : Nat) : NetcdfBand.Cell := if linear then .bits v else .real (value v)

/-- The six numbers of a geotransform. -/
def matrix (g : Fin 6 → ℝ) : Georef.Gt := { x0 := g 0, dx := g 1, rx := g 2, y0 := g 3, ry := g 4, dy := g 5 }

/-- gdal/xrit/dataset.cpp:30-105 and gdal/xrit/rasterband.cpp:22-69: what the image is for the other drivers of GDAL: its metadata, the
projection of msat/gdal/dataset.cpp `set_spaceview`, the geotransform, and one band with the name of the channel.  `scale` and `offset` are the
numbers of the band. -/
noncomputable def source (ds : XritDataset.Dataset) (scale offset : Rat) (value : Nat → Option Rat) (px : List Nat) : NetcdfFile.Source where
  spacecraft := some ds.spacecraft
  spacecraftId := some ds.spacecraftId
  datetime := some (ds.datetime.map fun c => UInt8.ofNat c.toNat)
  ref := .geostationary ⟨matrix ds.geotransform, Georef.orbitRadiusForGdal, ds.sublon, ds.spacecraftId⟩
  nx := ds.nx
  ny := ds.ny
  bands := [⟨⟨if ds.band.linear then .uint16 else .float32, some 0, some ds.band.channelId, px.map (cell ds.band.linear value)⟩, ds.band.channel,
    scale, offset, ds.band.units⟩]

/-- tools/msat.cpp:688-722, for an xRIT image and the driver of NetCDF: the image is opened, all its lines are read, and the file is made.  `names`
are the files of the segments that were found, `table` is the calibration table as bits of `float`s. -/
noncomputable def convert (env : Hrit.Env) (disk : Hrit.Disk) (cov : Option Coverage) (names : List Bytes) (pro : XritDataset.Prologue)
    (h : XritDataset.Header) (scale offset : Rat) (table : Option (List Nat)) (value : Nat → Option Rat) (valid : String → Bool) (single : ℝ → ℝ) :
    Outcome (Option NetcdfFile.File) := do
  let da ← Hrit.scanFiles disk cov names
  let ds ← XritDataset.init da.hrv pro h
  match ← readLines da (Hrit.segDisk env disk) ds.band.blockX table [] (List.range ds.ny) with
  | none => pure none
  | some px => NetcdfFile.create valid single (source ds scale offset value px)

end Msat.XritToNetcdf
