import Mathlib.Data.Rat.Floor
import Verif.Model.Basic

/-
gdal/netcdf/utils.cpp: raster bands in NetCDF files, and the loop over the bands of gdal/netcdf/netcdf.cpp.

What the NetCDF library does is trusted: variables and attributes that are written are read back; reading through a
`long*` stores 8 bytes for each pixel (LP64).  Failures of the library are not modelled.  Floating point numbers are exact
rationals or NaN (`none`).
-/
namespace Msat.NetcdfBand
open Msat

/-- `GDALDataType` -/
inductive DataType where
  | unknown | byte | uint16 | int16 | uint32 | int32 | float32 | float64 | cint16 | cint32 | cfloat32 | cfloat64
deriving DecidableEq, Repr

/-- `NcType` -/
inductive NcType where
  | noType | byte | char | short | int | float | double
deriving DecidableEq, Repr

/-- A pixel as it is in memory: the bits of an integer, or a floating point number. -/
inductive Cell where
  | bits (n : Int)
  | real (x : Option Rat)
deriving DecidableEq, Repr

/-- Value of attribute `_FillValue` -/
abbrev Fill := Cell

/-- Number of bits of the integers of a NetCDF type. -/
def NcType.width : NcType → Nat
  | .byte => 8 | .char => 8 | .short => 16 | .int => 32 | _ => 0

/-- The signed number with the same bits. -/
def toSigned (w : Nat) (n : Int) : Int := if n % 2 ^ w < 2 ^ (w - 1) then n % 2 ^ w else n % 2 ^ w - 2 ^ w

/-- The unsigned number with the same bits. -/
def toUnsigned (w : Nat) (n : Int) : Int := n % 2 ^ w

/-- Truncation towards zero. -/
def trunc (q : Rat) : Int := if 0 ≤ q then ⌊q⌋ else ⌈q⌉

/-- Conversion of a `double` to a signed integer of `w` bits: undefined out of range. -/
def toIntType (w : Nat) (x : Option Rat) : Outcome Int :=
  match x with
  | none => .ub
  | some q => if -2 ^ (w - 1) ≤ trunc q ∧ trunc q < 2 ^ (w - 1) then .ok (trunc q) else .ub

/-- A raster band of the source. -/
structure Band where
  type : DataType
  nodata : Option Rat
  channel : Option Nat
  pixels : List Cell
deriving DecidableEq, Repr

/-- A variable of a NetCDF file. -/
structure NcVar where
  type : NcType
  unsigned : Bool
  fill : Option Fill
  chnum : Option Nat
  data : List Cell
deriving DecidableEq, Repr

/-- gdal/netcdf/utils.cpp:219-243: the type of the variable and whether it is marked as unsigned. -/
def ncTypeFor : DataType → Option (NcType × Bool)
  | .unknown => none
  | .byte => some (.byte, true)
  | .int16 => some (.short, false)
  | .uint16 => some (.short, true)
  | .int32 => some (.int, false)
  | .uint32 => some (.int, true)
  | .float32 => some (.float, false)
  | .float64 => some (.double, false)
  | _ => none

/-- What the library stores for a pixel: the bits as a signed integer. -/
def store (t : NcType) (c : Cell) : Cell :=
  match c with
  | .bits n => .bits (toSigned t.width n)
  | .real x => .real x

/-- gdal/netcdf/utils.cpp:260-281: the value of `_FillValue`. -/
def fillFor (t : NcType) (nodata : Option Rat) : Outcome Fill :=
  match t with
  | .float => .ok (.real nodata)
  | .double => .ok (.real nodata)
  | _ => do
    let n ← toIntType t.width nodata
    pure (.bits n)

/-- gdal/netcdf/utils.cpp:211-286 `rasterBandToNcVar`; `none` is a null pointer. -/
def rasterBandToNcVar (b : Band) : Outcome (Option NcVar) :=
  match ncTypeFor b.type with
  | none => .ok none
  | some (t, u) => do
    let fill ← fillFor t b.nodata
    pure (some ⟨t, u, some fill, none, b.pixels.map (store t)⟩)

/-- gdal/netcdf/netcdf.cpp:507-515: the loop over the bands; a null pointer is used only if the band has a channel. -/
def exportBands : List Band → Outcome (List NcVar)
  | [] => .ok []
  | b :: bs => do
    match ← rasterBandToNcVar b with
    | none =>
      match b.channel with
      | some _ => .ub
      | none => exportBands bs
    | some v => do
      let vs ← exportBands bs
      pure ({ v with chnum := b.channel } :: vs)

/-- gdal/netcdf/utils.cpp:70-81: the type of a band when a file is opened. -/
def openType (v : NcVar) : DataType :=
  match v.type with
  | .noType => .unknown
  | .byte => .byte
  | .char => .byte
  | .short => if v.unsigned then .uint16 else .int16
  | .int => if v.unsigned then .uint32 else .int32
  | .float => .float32
  | .double => .float64

/-- gdal/netcdf/utils.cpp:126-156 `GetNoDataValue`, when there is a `_FillValue`; `none` when there is not. -/
def openNodata (v : NcVar) : Option (Option Rat) :=
  match v.fill with
  | none => none
  | some (.real x) => some x
  | some (.bits n) => some (some (if v.unsigned then (toUnsigned v.type.width n : Rat) else (n : Rat)))

/-- Bytes of a pixel in the block that GDAL provides. -/
def DataType.bytes : DataType → Nat
  | .byte => 1 | .int16 => 2 | .uint16 => 2 | .int32 => 4 | .uint32 => 4 | .float32 => 4 | .float64 => 8 | _ => 0

/-- Bytes of a pixel that the library writes in it, gdal/netcdf/utils.cpp:172-178. -/
def readBytes : DataType → Nat
  | .byte => 1 | .int16 => 2 | .uint16 => 2 | .int32 => 8 | .uint32 => 8 | .float32 => 4 | .float64 => 8 | _ => 0

/-- What GDAL finds in a cell of the block of the given type. -/
def view (t : DataType) (c : Cell) : Cell :=
  match t, c with
  | .byte, .bits n => .bits (toUnsigned 8 n)
  | .uint16, .bits n => .bits (toUnsigned 16 n)
  | .uint32, .bits n => .bits (toUnsigned 32 n)
  | _, c => c

/-- gdal/netcdf/utils.cpp:158-190 `IReadBlock` for the only block: undefined when more is written than there is room
for. -/
def readBlock (v : NcVar) : Outcome (List Cell) :=
  let t := openType v
  if t.bytes * v.data.length < readBytes t * v.data.length then .ub
  else if t = .unknown then .throws "reading image pixels failed"
  else .ok (v.data.map (view t))

end Msat.NetcdfBand
