import Verif.Model.Geo
import Verif.Model.Solar
import Verif.Model.Sources
import Verif.Model.XritOpen
import Verif.Model.MsatTool

/-
Images computed pixel by pixel: gdal/reflectance/pixeltolatlon.cpp, cos_sol_za.cpp, sat_za.cpp, jday.cpp, reflectance.cpp, and the
positions of pixels on earth, msat/gdal/dataset.cpp and dataset.h.

Coordinate transformations are those of the library: functions on points, `none` for a point that cannot be transformed.  Numbers are exact, and
products of block numbers and sizes are in the range of `int`.
-/
namespace Msat.Computed
open Msat Geo Solar

/-- A spatial reference: whether it has a geographic coordinate system, and the transformations to it and from it, `none` where the
library gives the null pointer.  They take and give points (x, y); of a geographic system, x is the longitude. -/
structure Srs where
  geographic : Bool
  toGeo : Option (Rat × Rat → Option (ℝ × ℝ))
  fromGeo : Option (ℝ × ℝ → Option (Rat × Rat))

/-- The georeference of a dataset; `none` where there is none. -/
structure Georeference where
  gt : Option GT
  srs : Option Srs

/-! ### Positions of blocks of pixels -/

/-- `PixelToLatlon`, gdal/reflectance/pixeltolatlon.h -/
structure PixelToLatlon where
  gt : GT
  toGeo : Rat × Rat → Option (ℝ × ℝ)

/-- gdal/reflectance/pixeltolatlon.cpp:9-24: the null pointers that the library gives for the geographic system (line 19) and for the
transformation (line 22) are used. -/
def newPixelToLatlon (g : Georeference) : Outcome PixelToLatlon :=
  match g.gt with
  | none => .throws "no geotransform found in input dataset"
  | some gt =>
    match g.srs with
    | none => .throws "no projection name found in input dataset"
    | some srs =>
      if srs.geographic then
        match srs.toGeo with
        | none => .ub
        | some f => .ok ⟨gt, f⟩
      else .ub

/-- gdal/reflectance/pixeltolatlon.cpp:38-54: the projected coordinates, (lons, lats), line by line. -/
def projected (gt : GT) (x y sx sy : Nat) : List (Rat × Rat) :=
  (List.range' y sy).flatMap fun (iy : Nat) =>
    (List.range' x sx).map fun (ix : Nat) =>
      (gt.g0 + gt.g1 * (ix : Rat) + gt.g2 * (iy : Rat), gt.g3 + gt.g4 * (ix : Rat) + gt.g5 * (iy : Rat))

/-- gdal/reflectance/pixeltolatlon.cpp:33-66 `compute`: (lats, lons), `none` for the infinities that the library gives where it fails. -/
def compute (p : PixelToLatlon) (x y sx sy : Nat) : List (Option (ℝ × ℝ)) :=
  (projected p.gt x y sx sy).map fun q => (p.toGeo q).map fun r => (r.2, r.1)

/-! ### Blocks -/

/-- gdal/reflectance/cos_sol_za.cpp:53-81 `IReadBlock` -/
noncomputable def cosBlock (p : PixelToLatlon) (jday : Int) (daytime : ℝ) (bx bz xblock yblock : Nat) : Option (List ℝ) :=
  some ((compute p (xblock * bx) (yblock * bz) bx bz).map (cosSolZaPixel jday daytime))

/-- gdal/reflectance/sat_za.cpp:42-70 `IReadBlock` -/
noncomputable def satBlock (p : PixelToLatlon) (bx bz xblock yblock : Nat) : Option (List ℝ) :=
  some ((compute p (xblock * bx) (yblock * bz) bx bz).map satZaPixel)

/-- gdal/reflectance/jday.cpp:47-54 `IReadBlock` -/
def jdayBlock (jday : Int) (bx bz : Nat) (_xblock _yblock : Nat) : Option (List Int) :=
  some (List.replicate (bx * bz) jday)

/-- A band that is a source: its pixels, and scale and offset. -/
structure Raster where
  sx : Nat
  sy : Nat
  value : Nat → Nat → ℝ
  slope : ℝ
  offset : ℝ

/-- `RasterIO` of GDAL without resampling: a window, line by line; `none` is `CE_Failure`. -/
def readWindow (r : Raster) (x y w h : Nat) : Option (List ℝ) :=
  if Sources.rasterIO r.sx r.sy x y w h then
    some ((List.range' y h).flatMap fun (iy : Nat) => (List.range' x w).map fun (ix : Nat) => r.value ix iy)
  else none

/-- gdal/reflectance/reflectance.cpp:130-168 `SingleChannelReflectanceRasterBand::IReadBlock` -/
noncomputable def singleBlock (p : PixelToLatlon) (tr : ℝ) (jday : Int) (daytime : ℝ) (src : Raster) (bx bz xblock yblock : Nat) :
    Option (List ℝ) :=
  match readWindow src (xblock * bx) (yblock * bz) bx bz with
  | none => none
  | some raw =>
    some (List.zipWith (fun v pos => singlePixel tr jday daytime v src.slope src.offset pos) raw
      (compute p (xblock * bx) (yblock * bz) bx bz))

/-- gdal/reflectance/reflectance.cpp:259-296: three counts of a pixel. -/
noncomputable def pixelOf39 (other : Fp) (jday : Int) (daytime : ℝ) (r039 r108 r134 : Raster) (v : ℝ × ℝ × ℝ) (pos : Option (ℝ × ℝ)) : ℝ :=
  pixel39 other jday daytime (v.1 * r039.slope + r039.offset) (v.2.1 * r108.slope + r108.offset) (v.2.2 * r134.slope + r134.offset) pos

/-- gdal/reflectance/reflectance.cpp:209-315 `Reflectance39RasterBand::IReadBlock` -/
noncomputable def block39 (p : PixelToLatlon) (other : Fp) (jday : Int) (daytime : ℝ) (r039 r108 r134 : Raster)
    (bx bz xblock yblock : Nat) : Option (List ℝ) :=
  match readWindow r039 (xblock * bx) (yblock * bz) bx bz with
  | none => none
  | some raw039 =>
    match readWindow r108 (xblock * bx) (yblock * bz) bx bz with
    | none => none
    | some raw108 =>
      match readWindow r134 (xblock * bx) (yblock * bz) bx bz with
      | none => none
      | some raw134 =>
        some (List.zipWith (pixelOf39 other jday daytime r039 r108 r134) (raw039.zip (raw108.zip raw134))
          (compute p (xblock * bx) (yblock * bz) bx bz))

/-- How GDAL reads a pixel of a band made of blocks: the block it is in, and its position there (trusted); `none` when the block cannot be
read. -/
def pixelOf {α : Type} (block : Nat → Nat → Option (List α)) (bx bz c l : Nat) : Option α :=
  match block (c / bx) (l / bz) with
  | none => none
  | some b => b[l % bz * bx + c % bx]?

/-! ### Images -/

/-- What is used of the dataset that an image is computed from: date, georeference and size of blocks. -/
structure Prototype where
  datetime : Bytes
  geo : Georeference
  bx : Nat
  bz : Nat

/-- gdal/reflectance/cos_sol_za.cpp:28-46 and 87-92, read pixel by pixel. -/
noncomputable def cosImage (d : Prototype) : Outcome (Nat → Nat → Option ℝ) := do
  let t ← XritOpen.timeOf d.datetime
  let p ← newPixelToLatlon d.geo
  pure (pixelOf (cosBlock p t.1 (t.2 : ℝ) d.bx d.bz) d.bx d.bz)

/-- gdal/reflectance/sat_za.cpp:23-33 and 76-81, read pixel by pixel. -/
noncomputable def satImage (d : Prototype) : Outcome (Nat → Nat → Option ℝ) := do
  let p ← newPixelToLatlon d.geo
  pure (pixelOf (satBlock p d.bx d.bz) d.bx d.bz)

/-- gdal/reflectance/jday.cpp:23-38 and 60-65, read pixel by pixel; the day is converted to `int16_t`. -/
def jdayImage (d : Prototype) : Outcome (Nat → Nat → Option Int) := do
  let t ← XritOpen.timeOf d.datetime
  pure (pixelOf (jdayBlock (Int.bmod t.1 (2 ^ 16)) d.bx d.bz) d.bx d.bz)

/-- gdal/reflectance/reflectance.cpp:52-96 and 98-123, read pixel by pixel. -/
noncomputable def reflectanceImage (channel : Int) (d : Prototype) (src : Raster) : Outcome (Nat → Nat → Option ℝ) := do
  let t ← XritOpen.timeOf d.datetime
  let p ← newPixelToLatlon d.geo
  match Solar.tr channel t.1 with
  | none => .throws "computing reflectance is not implemented"
  | some tr => pure (pixelOf (singleBlock p tr t.1 (t.2 : ℝ) src d.bx d.bz) d.bx d.bz)

/-- gdal/reflectance/reflectance.cpp:52-96 and 170-203, read pixel by pixel. -/
noncomputable def reflectance39Image (other : Fp) (d : Prototype) (r039 r108 r134 : Raster) : Outcome (Nat → Nat → Option ℝ) := do
  let t ← XritOpen.timeOf d.datetime
  let p ← newPixelToLatlon d.geo
  pure (pixelOf (block39 p other t.1 (t.2 : ℝ) r039 r108 r134 d.bx d.bz) d.bx d.bz)

/-! ### GeoReferencer -/

/-- `GeoReferencer`, msat/gdal/dataset.h:69-78 -/
structure GeoReferencer where
  gt : GT
  inv : GT
  toGeo : Option (Rat × Rat → Option (ℝ × ℝ))
  fromGeo : Option (ℝ × ℝ → Option (Rat × Rat))

/-- msat/gdal/dataset.cpp:192-222 `init`; `none` is `CE_Failure`.  The null pointer for the geographic system is used, those for the
transformations are kept. -/
def initGeoReferencer (g : Georeference) : Outcome (Option GeoReferencer) :=
  match g.gt with
  | none => .ok none
  | some gt =>
    match invert gt with
    | none => .ok none
    | some inv =>
      match g.srs with
      | none => .ok none
      | some srs => if srs.geographic then .ok (some ⟨gt, inv, srs.toGeo, srs.fromGeo⟩) else .ub

/-- msat/gdal/dataset.cpp:238-249 `projectedToLatlon`: latitude and longitude. -/
def projectedToLatlon (g : GeoReferencer) (p : Rat × Rat) : Outcome (Option (ℝ × ℝ)) :=
  match g.toGeo with
  | none => .ub
  | some f => .ok ((f p).map fun r => (r.2, r.1))

/-- msat/gdal/dataset.cpp:251-261 `latlonToProjected` -/
def latlonToProjected (g : GeoReferencer) (p : ℝ × ℝ) : Outcome (Option (Rat × Rat)) :=
  match g.fromGeo with
  | none => .ub
  | some f => .ok (f (p.2, p.1))

/-- msat/gdal/dataset.h:92-97 `pixelToLatlon` -/
def pixelToLatlon (g : GeoReferencer) (x y : Int) : Outcome (Option (ℝ × ℝ)) := projectedToLatlon g (pixelToProjected g.gt x y)

/-- msat/gdal/dataset.h:98-105 `latlonToPixel` -/
def latlonToPixel (g : GeoReferencer) (p : ℝ × ℝ) : Outcome (Option (Int × Int)) := do
  match ← latlonToProjected g p with
  | none => pure none
  | some q => pure (some (projectedToPixel g.inv q.1 q.2))

/-! ### recode -/

/-- msat/gdal/dataset.cpp:112-143 `recode`, with an area and a size: what is given to the driver, `none` for the null pointer. -/
def recode (img : MsatTool.Image) (x0 y0 x1 y1 : Int) (_sx _sy : Int) : Outcome (Option MsatTool.Shown) := do
  let r ← MsatTool.translate (MsatTool.start ⟨x0, y0, x1 - x0, y1 - y0⟩ none) img
  pure r.2

/-- msat/gdal/dataset.cpp:86-97 `recode`, with an area. -/
def recodeArea (img : MsatTool.Image) (x0 y0 x1 y1 : Int) : Outcome (Option MsatTool.Shown) :=
  recode img x0 y0 x1 y1 (x1 - x0) (y1 - y0)

/-- msat/gdal/dataset.cpp:99-110 `recode`, with a size. -/
def recodeSize (img : MsatTool.Image) (sx sy : Int) : Outcome (Option MsatTool.Shown) := recode img 0 0 img.nx img.ny sx sy

end Msat.Computed
