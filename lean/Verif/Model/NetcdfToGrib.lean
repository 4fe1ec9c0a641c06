import Verif.Model.XritToGrib

/-
From a NetCDF file to a GRIB file: `msat --conv=MsatGRIB` of a NetCDF file, as the parts of it that are modelled elsewhere put together.
-/
namespace Msat.NetcdfToGrib
open Msat

/-- The pixel of gdal/grib/grib.cpp:337-341 `RasterIO` as `double`.  Simplified: a `float` that is not a number is 0. -/
def number : NetcdfBand.Cell → Rat
  | .bits n => n
  | .real x => x.getD 0

/-- gdal/netcdf/netcdf.cpp:117-223 and gdal/netcdf/utils.cpp:62-209: what the image of a NetCDF file is for the driver of GRIB, that uses the first
band only; its spatial reference is the one of msat/gdal/dataset.cpp `set_spaceview`. -/
def source (img : NetcdfFile.Opened) (b : NetcdfFile.OpenBand) (cells : List NetcdfBand.Cell) : GribFile.Source where
  sx := img.nx
  sy := img.ny
  srs := some true
  spacecraft := img.spacecraftId.map Int.toNat
  bands := [⟨cells.map number, b.nodata, b.scale, b.offset, b.channel.map (·.1)⟩]

/-- tools/msat.cpp:688-722, for a NetCDF file and the driver of GRIB, with a trace file that can be opened and a file that can be written.  A file
without georeference is refused (gdal/grib/grib.cpp:322-327). -/
noncomputable def convert (file : NetcdfFile.File) (pack : Rat → Rat) (sample : GribFile.Template → List (String × Int)) (blank : Datetime.Message)
    (option : Option String) (old : Option GribFile.Message) : Outcome (Option XritToGrib.Image) :=
  match NetcdfFile.openFile file with
  | none => .ok none
  | some img =>
    match GribFile.templateOf option with
    | none => .ok none
    | some t =>
      match img.bands with
      | [] => .ub
      | b :: _ => do
        match ← img.gt with
        | none => pure none
        | some gt => do
          let cells ← NetcdfBand.readBlock b.var
          match ← Georef.exportGrib ⟨gt, Georef.orbitRadiusForGdal, img.lon, img.spacecraftId.getD 0⟩ with
          | none => pure none
          | some g => do
            let time ← Datetime.setTime { blank with edition := XritToGrib.edition t } img.datetime
            let r ← GribFile.createCopy true pack sample option true true old (source img b cells)
            match r.1 with
            | none => pure none
            | some d => do
              let gt ← Georef.openGrib g
              let stamp ← Datetime.formatTime time
              pure (some ⟨d, gt, g.lon, stamp⟩)

end Msat.NetcdfToGrib
