import Verif.Model.Text

/-
tools/msat.cpp: what `msat` shows of an image (the actions VIEW and VIEWMORE).

The GDAL library gives the image: names, sizes, numbers and metadata.  Numbers are shown by the C++ library: `fmt` is the text of a number with
the default precision.  A text that has a newline in it makes a line of its own; what is shown is a list of lines, each followed by a newline.
-/
namespace Msat.MsatView
open Msat Text

/-- The metadata of an object of GDAL by domain, `none` when there is none in it; the default domain is the one with the empty name. -/
abbrev Metadata := String → Option (List Bytes)

/-- A raster band.  `type` is a number of `GDALDataType`; `stats` is what `GetStatistics` gives, if it gives anything, when it may not, and when
it may, read the pixels. -/
structure Band where
  description : Bytes
  sx : Nat
  sy : Nat
  type : Nat
  offset : Rat
  scale : Rat
  unit : Bytes
  md : Metadata
  stats : Bool → Option (Rat × Rat × Rat × Rat)

/-- An image.  `gt` is what `GetGeoTransform` writes in the array that it gets, if it writes anything. -/
structure Image where
  description : Bytes
  sx : Nat
  sy : Nat
  projection : Bytes
  gt : Option (Rat × Rat × Rat × Rat × Rat × Rat)
  md : Metadata
  bands : List Band

/-- tools/msat.cpp:92-98 `known_md_domains` -/
def domains : List String := ["SUBDATASETS", "IMAGE_STRUCTURE", "RPC"]

/-- The lines of one domain: tools/msat.cpp:103-108, 112-117. -/
def section' (p heading : Bytes) : Option (List Bytes) → List Bytes
  | none => []
  | some items => (p ++ heading) :: items.map (p ++ str "  " ++ ·)

/-- tools/msat.cpp:100-120 `dumpMetadata` -/
def dumpMetadata (p : Bytes) (md : Metadata) : List Bytes :=
  section' p (str "Metadata:") (md "") ++ domains.flatMap fun d => section' p (str "Metadata (" ++ str d ++ str "):") (md d)

/-- tools/msat.cpp:122-140 `gdalTypeName` -/
def typeName : Nat → String
  | 0 => "GDT_Unknown"
  | 1 => "GDT_Byte"
  | 3 => "GDT_Int16"
  | 2 => "GDT_UInt16"
  | 5 => "GDT_Int32"
  | 4 => "GDT_UInt32"
  | 6 => "GDT_Float32"
  | 7 => "GDT_Float64"
  | 8 => "GDT_CInt16"
  | 9 => "GDT_CInt32"
  | 10 => "GDT_CFloat32"
  | 11 => "GDT_CFloat64"
  | _ => "(unknown GDALDataType)"

/-- tools/msat.cpp:158-162: the line of the statistics. -/
def statLines (fmt : Rat → Bytes) (p : Bytes) : Option (Rat × Rat × Rat × Rat) → List Bytes
  | none => []
  | some (lo, hi, mean, dev) =>
    [p ++ str "Pixel range: min " ++ fmt lo ++ str " max " ++ fmt hi ++ str " mean " ++ fmt mean ++ str " stddev " ++ fmt dev]

/-- tools/msat.cpp:142-165 `printRasterBand` -/
def printRasterBand (fmt : Rat → Bytes) (withContents : Bool) (p : Bytes) (b : Band) : List Bytes :=
  [p ++ str "Size: " ++ decimal b.sx ++ str "x" ++ decimal b.sy,
   p ++ str "Type: " ++ str (typeName b.type),
   p ++ str "Offset: " ++ fmt b.offset,
   p ++ str "Scale: " ++ fmt b.scale,
   p ++ str "Unit: " ++ b.unit] ++ dumpMetadata p b.md ++ statLines fmt p (b.stats withContents)

/-- `setw(10)` -/
def wide (s : Bytes) : Bytes := List.replicate (10 - s.length) 32 ++ s

/-- Three numbers of the geotransform: tools/msat.cpp:176-180. -/
def gtLine (fmt : Rat → Bytes) (a b c : Rat) : Bytes := str "  " ++ wide (fmt a) ++ str ",\t" ++ wide (fmt b) ++ str ",\t" ++ wide (fmt c)

/-- tools/msat.cpp:197-205: the bands from number `i` on, of `n`. -/
def printBands (fmt : Rat → Bytes) (withContents : Bool) (n : Nat) : Nat → List Band → List Bytes
  | _, [] => []
  | i, b :: bs => (str "Raster band " ++ decimal i ++ str "/" ++ decimal n ++ str ": " ++ b.description) ::
      (printRasterBand fmt withContents (str "  ") b ++ printBands fmt withContents n (i + 1) bs)

/-- tools/msat.cpp:167-208 `printDataset`, and 690-695.  What `GetGeoTransform` returns is not looked at: if it has written nothing, numbers
that were never given a value are shown. -/
def printDataset (fmt : Rat → Bytes) (withContents : Bool) (d : Image) : Outcome (List Bytes) :=
  match d.gt with
  | none => .ub
  | some (g0, g1, g2, g3, g4, g5) => .ok (
    [str "Dataset: " ++ d.description,
     str "Size: " ++ decimal d.sx ++ str "x" ++ decimal d.sy,
     str "Projection: " ++ d.projection,
     str "Geotransform matrix: ",
     gtLine fmt g0 g1 g2,
     gtLine fmt g3 g4 g5] ++ dumpMetadata [] d.md ++ printBands fmt withContents d.bands.length 1 d.bands)

/-- What is written on the standard output. -/
def view (fmt : Rat → Bytes) (withContents : Bool) (d : Image) : Outcome Bytes := do
  let lines ← printDataset fmt withContents d
  pure (lines.flatMap (· ++ [10]))

end Msat.MsatView
