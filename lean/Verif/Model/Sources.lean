import Verif.Model.Text

/-
gdal/reflectance/base.cpp and gdal/reflectance/reflectance.cpp: sources of computed bands.

Projections, geotransforms and metadata are opaque values (numbers stand for them): `IsSame` and `memcmp` are equality,
and a clone is the same value.  A band is identified by its dataset and its position.
-/
namespace Msat.Sources
open Msat Text

/-- A raster band of a source: channel number, `none` without that metadata; whether it has metadata, scale and
offset. -/
structure Band where
  channel : Option Int
  usable : Bool := true
deriving DecidableEq, Repr

/-- A source dataset. -/
structure Dataset where
  id : Nat
  srs : Option Nat
  gt : Option Nat
  datetime : Option Bytes
  metadata : Option Nat
  sx : Nat
  sy : Nat
  bands : List Band
deriving DecidableEq, Repr

/-- A pointer to a band. -/
structure Ref where
  ds : Nat
  idx : Nat
  usable : Bool
deriving DecidableEq, Repr

/-- `ProxyDataset` and `ReflectanceDataset`, gdal/reflectance/base.h:12-40 and reflectance.h:12-34; `sources` for
channels 1 to 12. -/
structure Proxy where
  srs : Option Nat := none
  hasSources : Bool := false
  gt : Nat := 0
  metadata : Option Nat := none
  datetime : Bytes := []
  sx : Nat := 0
  sy : Nat := 0
  sources : Int → Option Ref := fun _ => none

/-- gdal/reflectance/base.cpp:34-46: the first source. -/
def firstInfo (p : Proxy) (gt : Nat) (time : Bytes) (ds : Dataset) : Proxy × Outcome Unit :=
  match ds.metadata with
  | none => ({ p with gt := gt }, .throws "trying to add source without metadata")
  | some md =>
    ({ p with gt := gt, metadata := some md, datetime := time, sx := ds.sx, sy := ds.sy, hasSources := true }, .ok ())

/-- gdal/reflectance/base.cpp:46-57: further sources; the projection is not checked for being there. -/
def nextInfo (p : Proxy) (gt : Nat) (time : Bytes) (ds : Dataset) : Proxy × Outcome Unit :=
  match ds.srs with
  | none => (p, .ub)
  | some s =>
    if p.srs ≠ some s then (p, .throws "inconsistent projection definitions in source datasets")
    else if p.gt ≠ gt then (p, .throws "inconsistent affine geotransform coefficients in source datasets")
    else if p.datetime ≠ time then (p, .throws "inconsistent datetime in source datasets")
    else if p.sx ≠ ds.sx then (p, .throws "inconsistent raster X size in source datasets")
    else if p.sy ≠ ds.sy then (p, .throws "inconsistent raster Y size in source datasets")
    else (p, .ok ())

/-- gdal/reflectance/base.cpp:24-57, after the projection. -/
def moreInfo (p : Proxy) (ds : Dataset) : Proxy × Outcome Unit :=
  match ds.gt with
  | none => (p, .throws "trying to add source without affine geotransform coefficients")
  | some gt =>
    match ds.datetime with
    | none => (p, .throws "trying to add source without datetime metadata")
    | some time => if p.hasSources then nextInfo p gt time ds else firstInfo p gt time ds

/-- gdal/reflectance/base.cpp:15-60 `ProxyDataset::add_info`: the object afterwards, and how it ended. -/
def addInfo (p : Proxy) (ds : Dataset) : Proxy × Outcome Unit :=
  match p.srs with
  | some _ => moreInfo p ds
  | none =>
    match ds.srs with
    | none => (p, .throws "trying to add source without a spatial definition")
    | some s => moreInfo { p with srs := some s } ds

/-- A channel number that is used, reflectance.cpp:34-38. -/
def used (b : Band) : Option Int :=
  match b.channel with
  | none => none
  | some c => if c < 1 ∨ 12 < c then none else some c

/-- gdal/reflectance/reflectance.cpp:31-46: the loop over the bands from position `i`. -/
def addBands (p : Proxy) (ds : Dataset) (i : Nat) : List Band → Proxy × Outcome Unit
  | [] => (p, .ok ())
  | b :: bs =>
    match used b with
    | none => addBands p ds (i + 1) bs
    | some c =>
      match addInfo p ds with
      | (p, .ok ()) =>
        addBands { p with sources := fun x => if x = c then some ⟨ds.id, i, b.usable⟩ else p.sources x } ds (i + 1) bs
      | (p, o) => (p, o)

/-- gdal/reflectance/reflectance.cpp:29-46 `ReflectanceDataset::add_source` (ownership is not modelled). -/
def addSource (p : Proxy) (ds : Dataset) : Proxy × Outcome Unit := addBands p ds 1 ds.bands

/-- Sources added one after the other, until one is refused. -/
def addAll (p : Proxy) : List Dataset → Proxy × Outcome Unit
  | [] => (p, .ok ())
  | d :: ds =>
    match addSource p d with
    | (p, .ok ()) => addAll p ds
    | (p, o) => (p, o)

/-- `"%04d-%02d-%02d %02d:%02d:%02d"`, reflectance.cpp:61 -/
def timeFormat : List Directive :=
  [.int (some 4), .lit 45, .int (some 2), .lit 45, .int (some 2), .blank, .int (some 2), .lit 58, .int (some 2), .lit 58,
    .int (some 2)]

/-- reflectance.cpp:52-70 `ReflectanceRasterBand` -/
def rasterBandBase (p : Proxy) : Outcome Unit :=
  if (scanf timeFormat p.datetime).length ≠ 6 then .throws "cannot parse file time"
  else if p.srs = none then .throws "no projection name found in input dataset"
  else .ok ()

/-- The band of a channel, with metadata, scale and offset. -/
def require (p : Proxy) (c : Int) : Outcome Ref :=
  match p.sources c with
  | none => .throws "GDALRasterBand not found for channel"
  | some r => .ok r

def checkUsable (r : Ref) : Outcome Unit :=
  if r.usable then .ok () else .throws "source raster band has no meaningful information"

/-- reflectance.cpp:318-334 `ReflectanceDataset::init_rasterband` with the constructors 98-122 and 170-203: the bands that are
used. -/
def initRasterband (channel : Int) (p : Proxy) : Outcome (List Ref) :=
  if channel = 1 ∨ channel = 2 ∨ channel = 3 ∨ channel = 12 then do
    rasterBandBase p
    let r ← require p channel
    checkUsable r
    pure [r]
  else if channel = 4 then do
    rasterBandBase p
    let r4 ← require p 4
    let r9 ← require p 9
    let r11 ← require p 11
    checkUsable r4
    checkUsable r9
    checkUsable r11
    pure [r4, r9, r11]
  else .throws "computing reflectance for channel is not implemented"

/-- `RasterIO` of GDAL refuses a window that is not inside the raster (trusted). -/
def rasterIO (sx sy x y w h : Nat) : Bool := decide (x + w ≤ sx ∧ y + h ≤ sy)

/-- reflectance.cpp:130-135 and 209-224: whether the pixels of a block of the sources are read; blocks have the size of the blocks
of the source. -/
def readBlock (sx sy bx bz xblock yblock : Nat) : Bool := rasterIO sx sy (xblock * bx) (yblock * bz) bx bz

end Msat.Sources
