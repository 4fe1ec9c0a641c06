import Verif.Model.XritToGrib

/-
From a GRIB file to a NetCDF file: `msat --conv=MsatNetCDF` of a GRIB file, as the parts of it that are modelled elsewhere put together.
-/
namespace Msat.GribToNetcdf
open Msat

/-- What `GetSpatialRef` and `GetGeoTransform` of gdal/grib/grib.cpp:115-155 give. -/
noncomputable def georef (img : XritToGrib.Image) : Georef.Source := ⟨img.gt, Georef.orbitRadiusForGdal, img.lon, img.image.spacecraft⟩

/-- gdal/grib/grib.cpp:33-61, 90-127 and 159-198: what the image of a GRIB file is for the driver of NetCDF.  Simplified: a channel with a number
below 0 is channel 0, where `strtoul` of gdal/netcdf/netcdf.cpp:512-514 takes it modulo 2⁶⁴. -/
noncomputable def source (img : XritToGrib.Image) (px : List (Option Rat)) : NetcdfFile.Source where
  spacecraft := some (Facts.spacecraftName img.image.spacecraft)
  spacecraftId := some img.image.spacecraft
  datetime := some img.datetime
  ref := .geostationary (georef img)
  nx := img.image.sx.toNat
  ny := img.image.sy.toNat
  bands := [⟨⟨.float64, img.image.nodata, some img.image.channel.toNat, px.map NetcdfBand.Cell.real⟩,
    Facts.channelName img.image.spacecraft img.image.channel, 1, 0, Facts.channelUnit img.image.spacecraft img.image.channel⟩]

/-- tools/msat.cpp:688-722, for a GRIB file that was opened and the driver of NetCDF.  If the pixels cannot be read then
gdal/netcdf/utils.cpp:193-209 and 281-285 return a null pointer, that gdal/netcdf/netcdf.cpp:507-515 uses, as the band has a channel. -/
noncomputable def convert (valid : String → Bool) (single : ℝ → ℝ) (img : XritToGrib.Image) : Outcome (Option NetcdfFile.File) :=
  match img.image.pixels with
  | some px => NetcdfFile.create valid single (source img px)
  | none => do
    match ← Georef.exportNetcdf single (georef img) with
    | none => pure none
    | some _ => .ub

end Msat.GribToNetcdf
