import Verif.Model.NetcdfBand
import Verif.Model.Datetime
import Verif.Model.Georef
import Verif.Model.Facts

/-
Export to NetCDF and NetCDF-24 files, and opening them: gdal/netcdf/netcdf.cpp, gdal/netcdf/netcdf24.cpp, gdal/netcdf/utils.cpp.

What the NetCDF library does is trusted: attributes and variables that are added are read back in the same order, and `add_var` returns a
null pointer if there is a variable with this name or the name is not allowed (`valid`, of which nothing is assumed).  Other failures of
the library are not modelled.  Metadata items with numbers are numbers here.
-/
namespace Msat.NetcdfFile
open Msat

/-- A raster band of the source: `GetDescription`, `GetScale`, `GetOffset`, `GetUnitType`, and the rest. -/
structure Band where
  raster : NetcdfBand.Band
  name : String
  scale : Rat
  offset : Rat
  units : String

/-- What `GetSpatialRef` returns. -/
inductive SpatialRef where
  /-- a null pointer -/
  | missing
  /-- latitude and longitude; whether the position of pixels can be computed -/
  | latlon (positions : Bool)
  /-- geostationary; the geotransform is there -/
  | geostationary (s : Georef.Source)
  /-- another projection -/
  | other

/-- The source of an export. -/
structure Source where
  spacecraft : Option String
  spacecraftId : Option Int
  datetime : Option Bytes
  ref : SpatialRef
  nx : Nat
  ny : Nat
  bands : List Band

/-- A variable: the sizes of its dimensions, and attributes. -/
structure Var where
  name : String
  dims : List Nat
  raster : NetcdfBand.NcVar
  scale : Option Rat := none
  offset : Option Rat := none
  units : Option String := none

/-- A variable that is not a band. -/
def Var.other (name : String) (dims : List Nat) : Var := ⟨name, dims, ⟨.double, false, none, none, []⟩, none, none, none⟩

/-- gdal/netcdf/utils.cpp:211-286 `rasterBandToNcVar`, with the names of the variables that are in the file; `none` is a null
pointer. -/
def bandVar (valid : String → Bool) (used : List String) (nx ny : Nat) (b : Band) : Outcome (Option Var) :=
  match NetcdfBand.ncTypeFor b.raster.type with
  | none => .ok none
  | some _ =>
    if !valid b.name || used.contains b.name then .ok none
    else do
      match ← NetcdfBand.rasterBandToNcVar b.raster with
      | none => pure none
      | some v => pure (some ⟨b.name, [1, ny, nx], v, some b.scale, some b.offset, some b.units⟩)

/-- gdal/netcdf/netcdf.cpp:507-515, gdal/netcdf/netcdf24.cpp:536-550: the loop over the bands; a null pointer is used only if the band
has a channel. -/
def addBands (valid : String → Bool) (nx ny : Nat) (vars : List Var) : List Band → Outcome (List Var)
  | [] => .ok vars
  | b :: bs => do
    match ← bandVar valid (vars.map Var.name) nx ny b with
    | none =>
      match b.raster.channel with
      | some _ => .ub
      | none => addBands valid nx ny vars bs
    | some v => addBands valid nx ny (vars ++ [{ v with raster := { v.raster with chnum := b.raster.channel } }]) bs

/-- A raster band of a file that is opened: the description, the type, the missing value, the channel with its name, ... -/
structure OpenBand where
  name : String
  type : NetcdfBand.DataType
  nodata : Option Rat
  channel : Option (Nat × String)
  scale : Rat
  offset : Rat
  units : String
  var : NetcdfBand.NcVar

/-- msat/facts.cpp:517-525 `defaultPackedMissing`, with the table of lines 12-30; NaN is `none`. -/
def defaultPackedMissing (channel : Nat) : Option Rat := if channel < 13 then some 0 else none

/-- gdal/netcdf/utils.cpp:62-156 `NetCDFRasterBand`, gdal/netcdf/netcdf.cpp:84-100, gdal/netcdf/netcdf24.cpp:76-95; `missing_value` is
not modelled. -/
def openBand (spacecraft : Int) (v : Var) : OpenBand :=
  { name := v.name
    type := NetcdfBand.openType v.raster
    nodata := (NetcdfBand.openNodata v.raster).getD (defaultPackedMissing (v.raster.chnum.getD 0))
    channel := v.raster.chnum.map fun c => (c, Facts.channelName spacecraft c)
    scale := v.scale.getD 1
    offset := v.offset.getD 0
    units := v.units.getD ""
    var := v.raster }

/-- gdal/netcdf/netcdf.cpp:191-204, gdal/netcdf/netcdf24.cpp:209-223: which variables are bands. -/
def isBand (skipped : List String) (v : Var) : Bool :=
  !skipped.contains v.name && v.dims.length = 3 && v.dims.head? = some 1

/-- gdal/netcdf/netcdf.cpp:206-217, gdal/netcdf/netcdf24.cpp:225-235: the size is that of the first band; without bands it is what
`GDALDataset` has in the beginning. -/
def sizeFrom (vars : List Var) : Nat × Nat :=
  match vars with
  | ⟨_, [_, ny, nx], _, _, _, _⟩ :: _ => (nx, ny)
  | _ => (512, 512)

/-- A dataset that is opened; `gt` is what `GetGeoTransform` does. -/
structure Opened where
  spacecraft : Option String
  spacecraftId : Option Int
  datetime : Bytes
  lon : ℝ
  gt : Outcome (Option Georef.Gt)
  nx : Nat
  ny : Nat
  bands : List OpenBand

/-! ### NetCDF -/

/-- `PACKAGE_VERSION`: meson.build:1 and 61 -/
def packageVersion : String := "1.36"

/-- The attributes and the variables of a NetCDF file; `georef` are those of the geostationary projection. -/
structure File where
  satellite : Option String
  time : Option Bytes
  georef : Option Georef.NcFile
  version : Option String
  vars : List Var

/-- `sprintf(projname, "GEOS(%3.1f)", sublon)` has room for 15 characters, gdal/netcdf/netcdf.cpp:407-408: at most 9 for the number. -/
noncomputable def projname (lon : ℝ) : Outcome Unit := if -999999.95 < lon ∧ lon < 9999999.95 then .ok () else .ub

/-- gdal/netcdf/netcdf.cpp:297-434: the attributes of the projection, and the variables that are added. -/
noncomputable def exportRef (single : ℝ → ℝ) (src : Source) : Outcome (Option (Option Georef.NcFile × List Var)) :=
  match src.ref with
  | .missing => .ub
  | .latlon positions =>
    if positions then .ok (some (none, [Var.other "longitude" [src.nx], Var.other "latitude" [src.ny]])) else .ok none
  | .geostationary s => do
    match ← Georef.exportNetcdf single s with
    | none => pure none
    | some g => do
      projname g.longitude
      pure (some (some g, []))
  | .other => .ok none

/-- gdal/netcdf/netcdf.cpp:257-523 `NetCDFCreateCopy`: what is written. -/
noncomputable def create (valid : String → Bool) (single : ℝ → ℝ) (src : Source) : Outcome (Option File) := do
  match ← exportRef single src with
  | none => pure none
  | some (g, vars) => do
    let vars ← addBands valid src.nx src.ny (vars ++ [Var.other "time" [1]]) src.bands
    pure (some ⟨src.spacecraft, src.datetime.map Datetime.netcdfTime, g, some packageVersion, vars⟩)

/-- gdal/netcdf/netcdf.cpp:102-114: `GetOffset`, with the old bug. -/
def fixOffset (version : Option String) (b : OpenBand) : OpenBand :=
  if version.getD "0" = "0" ∧ b.offset = 1 then { b with offset := 0 } else b

/-- gdal/netcdf/netcdf.cpp:225-255 `NetCDFOpen` and 117-223 `NetCDFDataset::init`; `SampleX` and `SampleY` are 1 or not there. -/
noncomputable def openFile (f : File) : Option Opened :=
  match f.satellite with
  | none => none
  | some satellite =>
    let id : Option Int := if satellite.isEmpty then none else some (Facts.spacecraftID satellite)
    match Datetime.netcdfReadTime (f.time.getD (str "0000-00-00 00:00:00 UTC")) with
    | none => none
    | some datetime =>
      let bands := f.vars.filter (isBand ["time"])
      some {
        spacecraft := id.map fun _ => satellite
        spacecraftId := id
        datetime := datetime
        lon := (f.georef.map Georef.NcFile.longitude).getD 0
        gt := match f.georef with
          | none => .ok none
          | some g => do
            let gt ← Georef.openNetcdf g
            pure (some gt)
        nx := (sizeFrom bands).1
        ny := (sizeFrom bands).2
        bands := bands.map fun v => fixOffset f.version (openBand (id.getD 0) v) }

/-! ### NetCDF-24 -/

/-- The attributes and the variables of a NetCDF-24 file; `projection` are those of the variable `Projection`. -/
structure File24 where
  satellite : Int
  date : Option (List Int)
  projection : Georef.Nc24File
  vars : List Var

/-- gdal/netcdf/netcdf24.cpp:316-336: the numbers of the date; `none` if it is not understood. -/
def date24 (datetime : Option Bytes) : Option (Option (List Int)) :=
  match datetime with
  | none => some none
  | some sval =>
    let l := Text.scanf Datetime.stampFormat sval
    if l.length = 6 then some (some l) else none

/-- gdal/netcdf/netcdf24.cpp:276-558 `NetCDF24CreateCopy`: what is written. -/
noncomputable def create24 (valid : String → Bool) (single : ℝ → ℝ) (src : Source) : Outcome (Option File24) :=
  match src.spacecraftId with
  | none => .ok none
  | some id =>
    match date24 src.datetime with
    | none => .ok none
    | some date =>
      match src.ref with
      | .missing => .ub
      | .latlon _ => .ok none
      | .other => .ok none
      | .geostationary s => do
        match ← Georef.exportNetcdf24 single { s with spacecraft := id } with
        | none => pure none
        | some p => do
          let vars ← addBands valid src.nx src.ny [Var.other "Projection" [], Var.other "time" [1]] src.bands
          pure (some ⟨id, date, p, vars⟩)

/-- gdal/netcdf/netcdf24.cpp:134-143: the date; 0 for what is not there. -/
def stamp24 (date : Option (List Int)) : Bytes :=
  match date with
  | some [year, month, day, hour, minute, second] => Datetime.formatStamp year month day hour minute second
  | _ => Datetime.formatStamp 0 0 0 0 0 0

/-- gdal/netcdf/netcdf24.cpp:244-274 `NetCDF24Open` and 97-242 `NetCDF24Dataset::init` -/
noncomputable def openFile24 (f : File24) : Outcome (Option Opened) := do
  match ← Georef.openNetcdf24 f.projection with
  | none => pure none
  | some gt =>
    let bands := f.vars.filter (isBand ["Projection", "time"])
    let id : Option Int := if f.satellite = 0 then none else some f.satellite
    pure (some {
      spacecraft := id.map Facts.spacecraftName
      spacecraftId := id
      datetime := stamp24 f.date
      lon := f.projection.grid.lon
      gt := .ok (some gt)
      nx := (sizeFrom bands).1
      ny := (sizeFrom bands).2
      bands := bands.map (openBand f.satellite) })

end Msat.NetcdfFile
