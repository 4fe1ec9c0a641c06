import Verif.Model.PixelSize

/-
Georeference of images in NetCDF, NetCDF-24 and GRIB files: gdal/netcdf/netcdf.cpp, gdal/netcdf/netcdf24.cpp, gdal/grib/grib.cpp.

The NetCDF and GRIB libraries return the values they are given (trusted); an attribute with a floating point number is read as an
integer by truncation.  Images have the geostationary projection: `height` and `lon` are its parameters.  Conversion of a longitude to
`float` is the function `single`, of which nothing is assumed.  `none` is a file that is refused.
-/
namespace Msat.Georef
open Msat PixelSize

/-- An affine geotransform; an array of six `double`. -/
structure Gt where
  x0 : ℝ
  dx : ℝ
  rx : ℝ
  y0 : ℝ
  ry : ℝ
  dy : ℝ

/-- The source of an export. -/
structure Source where
  gt : Gt
  height : ℝ
  lon : ℝ
  spacecraft : ℤ

/-- `ORBIT_RADIUS_FOR_GDAL`, msat/facts.h:20 -/
def orbitRadiusForGdal : ℝ := 35785831

/-- Attributes of a NetCDF file. -/
structure NcFile where
  columnScale : ℝ
  lineScale : ℝ
  areaStartPix : ℤ
  areaStartLin : ℤ
  columnOffset : ℤ
  lineOffset : ℤ
  longitude : ℝ

/-- gdal/netcdf/netcdf.cpp:388-399: the offset for a pixel size (there is no absolute value). -/
noncomputable def ncOffset (ps hrv : ℝ) : ℤ := if ps - hrv < 0.0001 then 3712 else 1856

/-- gdal/netcdf/netcdf.cpp:353-433 `NetCDFCreateCopy`: the georeference. -/
noncomputable def exportNetcdf (single : ℝ → ℝ) (s : Source) : Outcome (Option NcFile) :=
  if s.height ≠ orbitRadiusForGdal then .ok none
  else if s.gt.rx ≠ 0 then .ok none
  else if s.gt.ry ≠ 0 then .ok none
  else do
    let psx := s.gt.dx
    let psy := -s.gt.dy
    let columnOffset := ncOffset psx sizeXHrv
    let lineOffset := ncOffset psy sizeYHrv
    let x0 ← toInt (nearbyint (columnOffset + s.gt.x0 / psx))
    let y0 ← toInt (nearbyint (lineOffset - s.gt.y0 / psy))
    pure (some {
      columnScale := cfacFromPixelHSize psx * 2 ^ 16
      lineScale := lfacFromPixelVSize psy * 2 ^ 16
      areaStartPix := x0 + 1
      areaStartLin := y0 + 1
      columnOffset := columnOffset
      lineOffset := lineOffset
      longitude := single s.lon })

/-- gdal/netcdf/netcdf.cpp:47-76 `GetGeoTransform`, of a file with all the attributes. -/
noncomputable def openNetcdf (f : NcFile) : Outcome Gt := do
  let x0 := f.areaStartPix - 1
  let y0 := f.areaStartLin - 1
  let c ← toInt f.columnScale
  let psx ← pixelHSizeFromCFAC (|(c : ℝ)| * (2 ^ 16)⁻¹)
  let l ← toInt f.lineScale
  let psy ← pixelVSizeFromLFAC (|(l : ℝ)| * (2 ^ 16)⁻¹)
  pure {
    x0 := ((-(f.columnOffset - x0) : ℤ) : ℝ) * psx
    y0 := ((f.lineOffset - y0 : ℤ) : ℝ) * psy
    dx := psx
    dy := -psy
    rx := 0
    ry := 0 }

/-- Half of `METEOSAT_IMAGE_NCOLUMNS` and of `METEOSAT_IMAGE_NCOLUMNS_HRV`, msat/facts.h:26-31; the lines have the same. -/
def halfColumns : ℤ := 1856
def halfColumnsHrv : ℤ := 5568

/-- What NetCDF-24 and GRIB files store; `x0` and `y0` are counted from 0. -/
structure Grid where
  x0 : ℤ
  y0 : ℤ
  dx : ℤ
  dy : ℤ
  xp : ℤ
  yp : ℤ
  lon : ℝ
deriving Inhabited

/-- The offset, or `none` if pixel sizes are unexpected: gdal/netcdf/netcdf24.cpp:394-425, gdal/grib/grib.cpp:440-470 and
658-688. -/
noncomputable def gridOffset (gt : Gt) : Option ℤ :=
  if 0.0001 < |gt.dx - sizeXHrv| then
    if 0.0001 < |gt.dx - sizeX| then none
    else if 0.0001 < |gt.dy - -sizeY| then none
    else some halfColumns
  else if 0.0001 < |gt.dy - -sizeYHrv| then none
  else some halfColumnsHrv

/-- gdal/netcdf/netcdf24.cpp:377-437, gdal/grib/grib.cpp:424-526 and 641-793 -/
noncomputable def gridOf (lon : ℝ → ℝ) (s : Source) : Outcome (Option Grid) :=
  if s.gt.rx ≠ 0 then .ok none
  else if s.gt.ry ≠ 0 then .ok none
  else
    match gridOffset s.gt with
    | none => .ok none
    | some offset => do
      let x0 ← toInt (nearbyint (offset + s.gt.x0 / s.gt.dx))
      let y0 ← toInt (nearbyint (offset - s.gt.y0 / -s.gt.dy))
      let dx ← seviriDXFromPixelHSize s.gt.dx
      let dy ← seviriDYFromPixelVSize (-s.gt.dy)
      pure (some ⟨x0, y0, dx, dy, offset, offset, lon s.lon⟩)

/-- The geotransform of a grid: gdal/netcdf/netcdf24.cpp:201-208, gdal/grib/grib.cpp:133-146. -/
noncomputable def gtOf (g : Grid) : Outcome Gt := do
  let psx ← pixelHSizeFromSeviriDX g.dx
  let psy ← pixelVSizeFromSeviriDY g.dy
  pure {
    x0 := ((-(g.xp - g.x0) : ℤ) : ℝ) * psx
    y0 := ((g.yp - g.y0 : ℤ) : ℝ) * psy
    dx := psx
    dy := -psy
    rx := 0
    ry := 0 }

/-- A NetCDF-24 file; the start of the area is counted from 1. -/
structure Nc24File where
  levelType : ℤ
  satelliteId : ℤ
  grid : Grid

/-- gdal/netcdf/netcdf24.cpp:301-437 `NetCDF24CreateCopy`: spacecraft and georeference. -/
noncomputable def exportNetcdf24 (single : ℝ → ℝ) (s : Source) : Outcome (Option Nc24File) :=
  if s.height ≠ orbitRadiusForGdal then .ok none
  else do
    match ← gridOf single s with
    | none => pure none
    | some g => pure (some ⟨s.spacecraft, s.spacecraft, { g with x0 := g.x0 + 1, y0 := g.y0 + 1 }⟩)

/-- gdal/netcdf/netcdf24.cpp:97-208 `NetCDF24Dataset::init`: `none` if the file is refused. -/
noncomputable def openNetcdf24 (f : Nc24File) : Outcome (Option Gt) :=
  if f.levelType ≠ 55 ∧ f.levelType ≠ 56 then .ok none
  else do
    let gt ← gtOf { f.grid with x0 := f.grid.x0 - 1, y0 := f.grid.y0 - 1 }
    pure (some gt)

/-- gdal/grib/grib.cpp:328-332, and 421-532 and 633-797 `grid_definition_section` of both editions; the longitude is a `double`. -/
noncomputable def exportGrib (s : Source) : Outcome (Option Grid) :=
  if s.height ≠ orbitRadiusForGdal then .ok none else gridOf id s

/-- gdal/grib/grib.cpp:129-152 `GetGeoTransform` -/
noncomputable def openGrib (g : Grid) : Outcome Gt := gtOf g

end Msat.Georef
