import Verif.Model.NetcdfFile

/-
gdal/netcdf/netcdf.cpp, gdal/netcdf/netcdf24.cpp, gdal/netcdf/utils.cpp, gdal/netcdf/utils.h: opening of NetCDF files that any program may have
written.

Model/NetcdfFile.lean opens what this driver has written; here nothing is assumed of attributes, dimensions and variables.  What the library makes
of an attribute that is asked for as another type is given with it.  The option `MSAT_COMPUTE` is not modelled here.  Numbers are rational or
real: the rounding of `float` and `double` is not modelled, NaN is `none`.
-/
namespace Msat.NetcdfAny
open Msat NetcdfBand

/-- An attribute, as the library gives its first value. -/
structure Att where
  asByte : Int
  asShort : Int
  asInt : Int
  asFloat : Rat
  asDouble : Option Rat
  asString : String

/-- A variable: its name, type, sizes of dimensions, attributes, and what the library gives when all the values are asked for: `none` when it
cannot. -/
structure Var where
  name : String
  type : NcType
  dims : List Nat
  att : String → Option Att
  data : Option (List Cell)

/-- A file: whether GDAL can open it, whether the library takes it for a NetCDF file; its attributes and variables. -/
structure File where
  isFile : Bool
  valid : Bool
  att : String → Option Att
  vars : List Var

/-- gdal/netcdf/utils.h:44-50 `getAttr` with a default -/
def getAttr {α : Type} (att : String → Option Att) (f : Att → α) (k : String) (d : α) : α :=
  match att k with
  | none => d
  | some a => f a

/-- `int` from `long` -/
def toInt (v : Int) : Int := (v + 2 ^ 31) % 2 ^ 32 - 2 ^ 31

/-- An `int` that was computed -/
def int (v : Int) : Outcome Int := if -2 ^ 31 ≤ v ∧ v < 2 ^ 31 then .ok v else .ub

/-- A raster band. -/
structure Band where
  name : String
  type : DataType
  blockX : Int
  blockY : Int
  unsigned : Bool
  channel : Option Int
  channelName : Option String
  var : Var
  /-- gdal/netcdf/netcdf.cpp:103-104 `offset1bug` -/
  offset1bug : Bool

/-- gdal/netcdf/utils.cpp:68-81: the type. -/
def typeOf (t : NcType) (unsigned : Bool) : DataType :=
  match t with
  | .noType => .unknown
  | .byte => .byte
  | .char => .byte
  | .short => if unsigned then .uint16 else .int16
  | .int => if unsigned then .uint32 else .int32
  | .float => .float32
  | .double => .float64

/-- gdal/netcdf/utils.cpp:62-84 `NetCDFRasterBand`, with gdal/netcdf/netcdf.cpp:84-105 and gdal/netcdf/netcdf24.cpp:79-94: `key` is the name of
the attribute with the channel; `bug` says that the file is of the first version. -/
def openBand (spacecraft : Int) (key : String) (bug : Bool) (v : Var) (sx sy : Nat) : Band :=
  let unsigned := getAttr v.att Att.asString "_Unsigned" "false" == "true"
  { name := v.name
    type := typeOf v.type unsigned
    blockX := toInt sx
    blockY := toInt sy
    unsigned := unsigned
    channel := (v.att key).map Att.asInt
    channelName := (v.att key).map fun a => Facts.channelName spacecraft a.asInt
    var := v
    offset1bug := bug }

/-- gdal/netcdf/utils.cpp:86-94 `GetUnitType` -/
def Band.unit (b : Band) : String := getAttr b.var.att Att.asString "units" ""

/-- gdal/netcdf/utils.cpp:96-109 `GetOffset`, and gdal/netcdf/netcdf.cpp:107-114 -/
def Band.offset (b : Band) : Option Rat :=
  let res := getAttr b.var.att Att.asDouble "add_offset" (some 0)
  if b.offset1bug ∧ res = some 1 then some 0 else res

/-- gdal/netcdf/utils.cpp:111-123 `GetScale` -/
def Band.scale (b : Band) : Option Rat := getAttr b.var.att Att.asDouble "scale_factor" (some 1)

/-- msat/facts.cpp:517-525 `defaultPackedMissing`, with the table of lines 12-30; NaN is `none`. -/
def defaultPackedMissing (channel : Int) : Option Rat := if 0 ≤ channel ∧ channel < 13 then some 0 else none

/-- gdal/netcdf/utils.cpp:125-156 `GetNoDataValue` -/
def Band.nodata (b : Band) : Option Rat :=
  match b.var.att "_FillValue" with
  | some a =>
    if b.unsigned then
      match b.var.type with
      | .byte => some (toUnsigned 8 a.asByte : Int)
      | .char => some (toUnsigned 8 a.asByte : Int)
      | .short => some (toUnsigned 16 a.asShort : Int)
      | .int => some (toUnsigned 32 a.asInt : Int)
      | _ => a.asDouble
    else a.asDouble
  | none =>
    match b.var.att "missing_value" with
    | some a => a.asDouble
    | none => defaultPackedMissing (b.channel.getD 0)

/-- gdal/netcdf/netcdf.cpp:191-219, gdal/netcdf/netcdf24.cpp:210-238: the bands. -/
def openBands (skipped : List String) (spacecraft : Int) (key : String) (bug : Bool) : List Var → List Band
  | [] => []
  | v :: vs =>
    if skipped.contains v.name then openBands skipped spacecraft key bug vs
    else match v.dims with
      | [t, sy, sx] =>
        if t ≠ 1 then openBands skipped spacecraft key bug vs
        else openBand spacecraft key bug v sx sy :: openBands skipped spacecraft key bug vs
      | _ => openBands skipped spacecraft key bug vs

/-- The size of the first band; without bands it is what `GDALDataset` has in the beginning. -/
def sizeOf (bands : List Band) : Int × Int :=
  match bands with
  | [] => (512, 512)
  | b :: _ => (b.blockX, b.blockY)

/-- What `GetGeoTransform` does: fails, gives NaN, or gives a matrix. -/
inductive Geo where
  | failure
  | notANumber
  | matrix (g : Georef.Gt)

/-- An image that was opened. -/
structure Image where
  spacecraft : Option String
  spacecraftId : Option Int
  datetime : Bytes
  lon : Option Rat
  sx : Int
  sy : Int
  bands : List Band

/-! ### NetCDF -/

/-- gdal/netcdf/netcdf.cpp:117-223 `NetCDFDataset::init`; `none` is false. -/
def init (f : File) : Option Image :=
  if getAttr f.att Att.asFloat "SampleX" 1 ≠ 1 then none
  else if getAttr f.att Att.asFloat "SampleY" 1 ≠ 1 then none
  else
    let satellite := getAttr f.att Att.asString "Satellite" ""
    let id : Option Int := if satellite.isEmpty then none else some (Facts.spacecraftID satellite)
    match Datetime.netcdfReadTime (str (getAttr f.att Att.asString "Time" "0000-00-00 00:00:00 UTC")) with
    | none => none
    | some datetime =>
      let bug := getAttr f.att Att.asString "Version" "0" == "0"
      let bands := openBands ["time"] (id.getD 0) "chnum" bug f.vars
      some ⟨id.map fun _ => satellite, id, datetime, some (getAttr f.att Att.asFloat "Longitude" 0), (sizeOf bands).1, (sizeOf bands).2, bands⟩

/-- gdal/netcdf/netcdf.cpp:225-255 `NetCDFOpen` -/
def openFile (f : File) : Option Image :=
  if !f.isFile then none
  else if !f.valid then none
  else if (f.att "Satellite").isNone then none
  else init f

/-- gdal/netcdf/netcdf.cpp:61-62: the absolute value of the scale factor; undefined for the least `int`. -/
def absInt (v : Int) : Outcome Int := int v.natAbs

/-- msat/facts.cpp:38-67, 163-185: the sizes of pixels, with the tangent of an infinite number, NaN, for zero: `none`. -/
noncomputable def size (f : ℤ → Outcome ℝ) (v : Int) : Outcome (Option ℝ) :=
  if v = 0 then .ok none
  else do
    let s ← f v
    pure (some s)

/-- The matrix, from the column and the line of the first pixel, as they are counted from the point below the satellite. -/
noncomputable def matrix (column line : Int) : Option ℝ → Option ℝ → Geo
  | some psx, some psy => .matrix { x0 := (column : ℝ) * psx, y0 := (line : ℝ) * psy, dx := psx, dy := -psy, rx := 0, ry := 0 }
  | _, _ => .notANumber

/-- gdal/netcdf/netcdf.cpp:61-62 -/
noncomputable def hSize (c : ℤ) : Outcome ℝ := PixelSize.pixelHSizeFromCFAC ((c : ℝ) * (2 ^ 16)⁻¹)
noncomputable def vSize (c : ℤ) : Outcome ℝ := PixelSize.pixelVSizeFromLFAC ((c : ℝ) * (2 ^ 16)⁻¹)

/-- gdal/netcdf/netcdf.cpp:57-71 -/
noncomputable def geoTransformFrom (f : File) (asp asl : Att) : Outcome Geo := do
  let x0 ← int (asp.asInt - 1)
  let y0 ← int (asl.asInt - 1)
  let c ← absInt (getAttr f.att Att.asInt "Column_Scale_Factor" (-13642337))
  let psx ← size hSize c
  let l ← absInt (getAttr f.att Att.asInt "Line_Scale_Factor" (-13642337))
  let psy ← size vSize l
  let dx ← int (getAttr f.att Att.asInt "Column_Offset" 1856 - x0)
  let dx ← int (-dx)
  let dy ← int (getAttr f.att Att.asInt "Line_Offset" 1856 - y0)
  pure (matrix dx dy psx psy)

/-- gdal/netcdf/netcdf.cpp:47-76 `GetGeoTransform` -/
noncomputable def geoTransform (f : File) : Outcome Geo :=
  match f.att "AreaStartPix", f.att "AreaStartLin" with
  | some asp, some asl => geoTransformFrom f asp asl
  | _, _ => .ok .failure

/-! ### NetCDF-24 -/

/-- A variable by its name: the first one. -/
def getVar (f : File) (name : String) : Option Var := f.vars.find? (·.name == name)

/-- gdal/netcdf/netcdf24.cpp:157-198: without one of the attributes the opening fails: `none`. -/
def need {α : Type} (p : Var) (k : String) (go : Att → Outcome (Option α)) : Outcome (Option α) :=
  match p.att k with
  | none => .ok none
  | some a => go a

/-- gdal/netcdf/netcdf24.cpp:145-206: the projection: the longitude and the geotransform; `none` is false.  A null pointer is used if there is no
variable `Projection`.  `column_offset` and the others are `long`: their differences are in range. -/
noncomputable def projection24 (f : File) : Outcome (Option (Option Rat × Geo)) :=
  match getVar f "Projection" with
  | none => .ub
  | some p =>
    match p.att "Lop" with
    | none => .ok (some (none, .failure))
    | some lop =>
      need p "Xp" fun xp => need p "Yp" fun yp => need p "X0" fun x0 =>
      Outcome.bind (int (x0.asInt - 1)) fun x0 => need p "Y0" fun y0 =>
      Outcome.bind (int (y0.asInt - 1)) fun y0 => need p "DX" fun dx =>
      Outcome.bind (size PixelSize.pixelHSizeFromSeviriDX dx.asInt) fun psx => need p "DY" fun dy =>
      Outcome.bind (size PixelSize.pixelVSizeFromSeviriDY dy.asInt) fun psy =>
      .ok (some (some lop.asFloat, matrix (-(xp.asInt - x0)) (yp.asInt - y0) psx psy))

/-- gdal/netcdf/netcdf24.cpp:97-242 `NetCDF24Dataset::init`: the image and its geotransform; `none` is false. -/
noncomputable def init24 (f : File) : Outcome (Option (Image × Geo)) :=
  if getAttr f.att Att.asInt "GribEditionNumber" 1 ≠ 1 then .ok none
  else if getAttr f.att Att.asInt "LevelType" 0 ≠ 55 ∧ getAttr f.att Att.asInt "LevelType" 0 ≠ 56 then .ok none
  else do
    let spacecraft := getAttr f.att Att.asInt "SatelliteID" 0
    let id : Option Int := if spacecraft = 0 then none else some spacecraft
    let number (k : String) : Int := getAttr f.att Att.asInt k 0
    let datetime := Datetime.formatStamp (number "Year") (number "Month") (number "Day") (number "Hour") (number "Minute") (number "Second")
    match ← projection24 f with
    | none => pure none
    | some p =>
      let bands := openBands ["Projection", "time"] spacecraft "L1" false f.vars
      pure (some (⟨id.map Facts.spacecraftName, id, datetime, p.1, (sizeOf bands).1, (sizeOf bands).2, bands⟩, p.2))

/-- gdal/netcdf/netcdf24.cpp:244-274 `NetCDF24Open` -/
noncomputable def openFile24 (f : File) : Outcome (Option (Image × Geo)) :=
  if !f.isFile then .ok none
  else if !f.valid then .ok none
  else if (f.att "GribEditionNumber").isNone then .ok none
  else init24 f

/-! ### Pixels -/

/-- gdal/netcdf/utils.cpp:158-190 `IReadBlock`: `none` is a failure.  Undefined when more is written than there is room for. -/
def readBlock (b : Band) (x y : Int) : Outcome (Option (List Cell)) :=
  if x ≠ 0 ∨ y ≠ 0 then .ok none
  else if b.type = .unknown then .ok none
  else match b.var.data with
    | none => .ok none
    | some data =>
      if b.type.bytes * data.length < readBytes b.type * data.length then .ub
      else .ok (some (data.map (view b.type)))

/-- What GDAL gives of a pixel of a band: GDALRasterBand reads the block that has it, of `blockX` by `blockY` pixels, and finds it there. -/
def pixel (b : Band) (x y : Nat) : Outcome (Option Cell) := do
  match ← readBlock b (x / b.blockX.toNat : Nat) (y / b.blockY.toNat : Nat) with
  | none => pure none
  | some data => pure data[(y % b.blockY.toNat) * b.blockX.toNat + x % b.blockX.toNat]?

end Msat.NetcdfAny
