import Verif.Model.Facts

/-
gdal/grib/grib.cpp, gdal/grib/utils.h: images written to GRIB files and read from them: pixels, missing values, satellite and channel.

The georeference is in Model/Georef.lean and the dates in Model/Datetime.lean: here they are taken to be accepted.  Numbers are rational:
the rounding of `double` is not modelled, and a number that is not one (NaN) is `none` where it can happen.

The GRIB library is modelled by what its documentation says of the keys that are used:
- a key that was set gives the value that was set, one that was not gives that of the sample message, if it has it;
- when `values` is set and `bitmapPresent` is 1, the points equal to `missingValue` are not stored; the others are packed, which gives
  numbers near them: `pack`;
- when `values` is read, the points that are not stored are given as `missingValue`.
All sets succeed, and so does the creation of a message from a sample.
-/
namespace Msat.GribFile
open Msat

/-! ### Messages -/

/-- A message, as far as it is used here: keys with integers, and the points, `none` for those that are not stored. -/
structure Message where
  keys : List (String × Int)
  bitmapPresent : Bool
  missingValue : Option Rat
  points : List (Option Rat)

/-- gdal/grib/utils.h:264-269 `set_long` -/
def Message.set (m : Message) (k : String) (v : Int) : Message := { m with keys := (k, v) :: m.keys }

/-- gdal/grib/utils.h:166-173 `get_long` and gdal/grib/utils.h:175-185 `get_long_ifexists`: `none` if the key is not found. -/
def Message.get (m : Message) (k : String) : Option Int := m.keys.lookup k

/-- gdal/grib/utils.h:187-204 `get_long_oneof` -/
def Message.getOneOf (m : Message) : List String → Option Int
  | [] => none
  | k :: ks => match m.get k with
    | some v => some v
    | none => m.getOneOf ks

/-- gdal/grib/utils.h:302-309 `set_double_array` of `values` -/
def Message.setValues (pack : Rat → Rat) (m : Message) (vs : List Rat) : Message :=
  { m with points := vs.map fun v => if m.bitmapPresent ∧ some v = m.missingValue then none else some (pack v) }

/-- gdal/grib/utils.h:248-253 `get_double_array` of `values` -/
def Message.values (m : Message) : List (Option Rat) := m.points.map fun
  | some v => some v
  | none => m.missingValue

/-! ### Writing -/

/-- A raster band: `nodata` is what `GetNoDataValue` gives, `none` if it is not a number. -/
structure Band where
  values : List Rat
  nodata : Option Rat
  scale : Rat
  offset : Rat
  channel : Option Nat

/-- A dataset to export.  `srs` is `none` if it has no spatial reference; its value is what the checks of gdal/grib/grib.cpp:322-332 say. -/
structure Source where
  sx : Nat
  sy : Nat
  srs : Option Bool
  spacecraft : Option Nat
  bands : List Band

/-- gdal/grib/grib.cpp:344 `grib_missing` -/
def gribMissing (b : Band) : Option Rat := b.nodata.map fun n => n * b.scale + b.offset

/-- gdal/grib/grib.cpp:345-354: the values that are written.  `grib_missing` is a number if some value is equal to the missing value. -/
def scaled (b : Band) : List Rat :=
  b.values.map fun v => if some v = b.nodata then (gribMissing b).getD 0 else v * b.scale + b.offset

/-- gdal/grib/grib.cpp:350 `count_missing` -/
def countMissing (b : Band) : Nat := b.values.countP fun v => some v = b.nodata

/-- gdal/grib/grib.cpp:845-860: the templates. -/
inductive Template where
  | wmo | ecmwf | msat
deriving DecidableEq, Repr

/-- gdal/grib/grib.cpp:842-865: the template of the option `TEMPLATE`. -/
def templateOf : Option String → Option Template
  | none => some .wmo
  | some s => if s = "msat/wmo" then some .wmo else if s = "msat/ecmwf" then some .ecmwf else if s = "msat/msat" then some .msat else none

/-- gdal/grib/grib.cpp:573-593, the satellite and the channel of GRIB2. -/
def productWMO (src : Source) (b : Band) (m : Message) : Outcome Message :=
  match src.spacecraft with
  | none => .ok m
  | some s =>
    let m := ((m.set "satelliteSeries" 333).set "satelliteNumber" s).set "instrumentType" 207
    match b.channel with
    | none => .ok m
    | some c => do
      let n ← Facts.centralWaveNumber s c
      pure ((m.set "scaleFactorOfCentralWaveNumber" 0).set "scaledValueOfCentralWaveNumber" (Facts.roundC n))

/-- gdal/grib/grib.cpp:644-657, the satellite and the channel of GRIB1. -/
def identificationGRIB1 (src : Source) (b : Band) (m : Message) : Message :=
  let m := match src.spacecraft with
    | some s => m.set "indicatorOfTypeOfLevel" s
    | none => m
  match b.channel with
  | some c => m.set "level" c
  | none => m

/-- gdal/grib/grib.cpp:803-824 `identification_section`, the satellite and the channel. -/
def identificationECMWF (src : Source) (b : Band) (m : Message) : Message :=
  let m := (identificationGRIB1 src b m).set "localDefinitionNumber" 24
  let m := match src.spacecraft with
    | some s => (m.set "satelliteIdentifier" s).set "instrumentIdentifier" 207
    | none => m
  match b.channel with
  | some c => m.set "channelNumber" c
  | none => m

/-- gdal/grib/grib.cpp:357-373 `bit_map_section` -/
def bitMapSection (b : Band) (m : Message) : Message :=
  if countMissing b ≠ 0 then { m with bitmapPresent := true, missingValue := gribMissing b }
  else { m with bitmapPresent := false }

/-- gdal/grib/grib.cpp:375-388 `data_section`; `none` is failure. -/
def dataSection (pack : Rat → Rat) (b : Band) (m : Message) : Option Message :=
  if countMissing b = (scaled b).length then none else some (m.setValues pack (scaled b))

/-- gdal/grib/grib.cpp:609-625 and 783-796 `create`.  `sample` are the keys of the sample messages. -/
def create (pack : Rat → Rat) (sample : Template → List (String × Int)) (t : Template) (src : Source) : Outcome (Option Message) :=
  match src.srs, src.bands with
  | none, _ => .ub
  | some _, [] => .ub
  | some false, _ => .ok none
  | some true, b :: _ => do
    let m : Message := ⟨sample t, false, none, []⟩
    let grid (m : Message) : Message := (m.set "numberOfPointsAlongXAxis" src.sx).set "numberOfPointsAlongYAxis" src.sy
    let m ← match t with
      | .wmo => productWMO src b (grid m)
      | .ecmwf => pure (grid (identificationECMWF src b m))
      | .msat => pure (grid (identificationGRIB1 src b m))
    pure (dataSection pack b (bitMapSection b m))

/-! ### Reading -/

/-- A dataset that was opened: `GetRasterXSize`, `GetRasterYSize`, spacecraft and channel of the metadata, `GetNoDataValue`, and what
`IReadBlock` gives (`none` if it fails). -/
structure Dataset where
  sx : Int
  sy : Int
  spacecraft : Int
  channel : Int
  nodata : Option Rat
  pixels : Option (List (Option Rat))

/-- msat/facts.cpp:527-535 `defaultScaledMissing`: `none` is not a number. -/
def defaultScaledMissing (channel : Int) : Option Rat :=
  if 0 ≤ channel then (Facts.channelInfo[channel.toNat]?).map fun e => (e.2.2 : Rat) / 100000 else none

/-- gdal/grib/grib.cpp:170-181: the channel; `none` is the exception that `init` catches. -/
def channelOf (m : Message) (spacecraft : Int) : Outcome (Option Int) :=
  match m.get "channelNumber" with
  | some c => .ok (some c)
  | none => match m.get "level" with
    | some c => .ok (some c)
    | none => match m.get "scaleFactorOfCentralWaveNumber", m.get "scaledValueOfCentralWaveNumber" with
      | some e, some v => do
        let c ← Facts.channelFromWaveNumber spacecraft ((v : Rat) * (10 : Rat) ^ (-e))
        pure (some c)
      | _, _ => .ok none

/-- gdal/grib/grib.cpp:63-78 `IReadBlock` of the only block; `none` is failure. -/
def readBlock (m : Message) (sx sy : Int) : Option (List (Option Rat)) :=
  if (m.values.length : Int) = sx * sy then some m.values else none

/-- gdal/grib/grib.cpp:90-127 `init`, 159-198 the constructor of the band, and 63-78 its pixels. -/
def openMessage (m : Message) : Outcome (Option Dataset) :=
  match m.get "numberOfPointsAlongXAxis", m.get "numberOfPointsAlongYAxis",
    m.getOneOf ["satelliteNumber", "satelliteIdentifier", "indicatorOfTypeOfLevel"] with
  | some sx, some sy, some s => do
    match ← channelOf m s with
    | some c =>
      let missing := defaultScaledMissing c
      pure (some ⟨sx, sy, s, c, missing, readBlock { m with missingValue := missing } sx sy⟩)
    | none => pure none
  | _, _, _ => .ok none

/-- gdal/grib/grib.cpp:200-230 `GRIBOpen` of a file; `none` is a file that is not there or is not a whole message.  `trace` says whether
/tmp/trace-gribapi can be opened (gdal/grib/utils.h:62-73): every access to the message writes to it (gdal/grib/utils.h:46-52). -/
def gribOpen (trace : Bool) (file : Option Message) : Outcome (Option Dataset) :=
  if trace then
    match file with
    | some m => openMessage m
    | none => .ok none
  else .ub

/-- gdal/grib/utils.h:311-345 `write`: the file afterwards; `writable` says whether it can be opened for writing, `room` whether all the
message can be written. -/
def write (writable room : Bool) (old : Option Message) (m : Message) : Option Message :=
  if writable then (if room then some m else none) else old

/-- gdal/grib/grib.cpp:837-873 `GRIBCreateCopy`: what it returns (`none` is the null pointer), and the file afterwards. -/
def createCopy (trace : Bool) (pack : Rat → Rat) (sample : Template → List (String × Int)) (option : Option String)
    (writable room : Bool) (old : Option Message) (src : Source) : Outcome (Option Dataset × Option Message) :=
  if trace then
    match templateOf option with
    | none => .ok (none, old)
    | some t => do
      match ← create pack sample t src with
      | none => pure (none, old)
      | some m =>
        let file := write writable room old m
        let d ← gribOpen trace file
        pure (d, file)
  else .ub

end Msat.GribFile
