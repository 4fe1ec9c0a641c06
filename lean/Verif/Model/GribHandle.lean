import Verif.Model.GribFile
import Verif.Model.Georef
import Verif.Model.Datetime

/-
gdal/grib/utils.h, gdal/grib/grib.cpp: the object that owns a handle of the GRIB library, a file and the file of the trace, and the opening
of GRIB files with a library that may answer anything.

Model/GribFile.lean has what is read from a message that was written by this driver; here nothing is assumed of the message.  Numbers are
rational or real: the rounding of `double` is not modelled, NaN is `none`.
-/
namespace Msat.GribHandle
open Msat

/-! ### Objects -/

/-- gdal/grib/utils.h:44-61, the members of `Grib`.  Handles and open files are numbers; every one that is made has a number of its own. -/
structure Obj where
  trace : Option Nat
  gh : Option Nat
  fp : Option Nat
deriving DecidableEq, Repr

/-- What an object owns. -/
def Obj.owned (o : Obj) : List Nat := o.trace.toList ++ o.gh.toList ++ o.fp.toList

/-- The objects of a program in the order in which they were made, `none` for those that were destroyed; how many handles and files were made
(they are numbered from 0), those released, those given to the caller by `release_handle`, those whose last pointer was overwritten. -/
structure State where
  objs : List (Option Obj)
  made : Nat
  released : List Nat
  given : List Nat
  lost : List Nat

/-- What a program does with objects. -/
inductive Op where
  /-- `Grib()`; whether the file of the trace can be opened -/
  | construct (traceable : Bool)
  /-- `Grib(gh)` with a handle that the library has just made -/
  | adopt (traceable : Bool)
  /-- `Grib n(std::move(o))` -/
  | move (o : Nat)
  /-- `dst = std::move(src)` -/
  | assign (dst src : Nat)
  /-- `release_handle` -/
  | release (o : Nat)
  /-- `new_from_samples`; whether the library gives a handle -/
  | samples (o : Nat) (ok : Bool)
  /-- `new_from_file`; whether the file is opened, and whether the library gives a handle -/
  | file (o : Nat) (opened ok : Bool)
  | destroy (o : Nat)
deriving DecidableEq, Repr

/-- The object at a place; using one that does not exist is undefined. -/
def State.get (s : State) (o : Nat) : Outcome Obj :=
  match s.objs[o]? with
  | some (some x) => .ok x
  | _ => .ub

/-- gdal/grib/utils.h:47-56: the macro `trace` writes to the file of the trace, also when it is the null pointer. -/
def traced (x : Obj) : Outcome Unit := if x.trace.isSome then .ok () else .ub

/-- One new file or handle, if it can be had. -/
def fresh (made : Nat) (ok : Bool) : Option Nat × Nat := if ok then (some made, made + 1) else (none, made)

/-- gdal/grib/utils.h:62-155 -/
def step (s : State) : Op → Outcome State
  -- gdal/grib/utils.h:62-67
  | .construct traceable =>
    .ok { s with objs := s.objs ++ [some ⟨(fresh s.made traceable).1, none, none⟩], made := (fresh s.made traceable).2 }
  -- gdal/grib/utils.h:68-73
  | .adopt traceable =>
    .ok { s with
      objs := s.objs ++ [some ⟨(fresh (s.made + 1) traceable).1, some s.made, none⟩], made := (fresh (s.made + 1) traceable).2 }
  -- gdal/grib/utils.h:75-84
  | .move o => do
    let x ← s.get o
    pure { s with objs := s.objs.set o (some ⟨none, none, none⟩) ++ [some x] }
  -- gdal/grib/utils.h:93-110
  | .assign dst src => do
    let x ← s.get dst
    let y ← s.get src
    if dst = src then pure s
    else pure { s with objs := (s.objs.set dst (some y)).set src (some ⟨none, none, none⟩), released := s.released ++ x.owned }
  -- gdal/grib/utils.h:112-118
  | .release o => do
    let x ← s.get o
    traced x
    pure { s with objs := s.objs.set o (some { x with gh := none }), given := s.given ++ x.gh.toList }
  -- gdal/grib/utils.h:120-130
  | .samples o ok => do
    let x ← s.get o
    traced x
    pure { s with
      objs := s.objs.set o (some { x with gh := (fresh s.made ok).1 }), made := (fresh s.made ok).2, lost := s.lost ++ x.gh.toList }
  -- gdal/grib/utils.h:146-164; without the file nothing is written to the trace
  | .file o opened ok => do
    let x ← s.get o
    if opened then
      traced x
      pure { s with
        objs := s.objs.set o (some { x with gh := (fresh (s.made + 1) ok).1, fp := some s.made }), made := (fresh (s.made + 1) ok).2,
        lost := s.lost ++ x.gh.toList ++ x.fp.toList }
    else pure { s with objs := s.objs.set o (some { x with fp := none }), lost := s.lost ++ x.fp.toList }
  -- gdal/grib/utils.h:85-92
  | .destroy o => do
    let x ← s.get o
    pure { s with objs := s.objs.set o none, released := s.released ++ x.owned }

/-- A history of operations. -/
def runOps : State → List Op → Outcome State
  | s, [] => .ok s
  | s, op :: ops => do runOps (← step s op) ops

/-! ### Reading keys -/

/-- What the library says when it is asked for the value of a key: `GRIB_SUCCESS`, `GRIB_NOT_FOUND`, or another error. -/
inductive Answer (α : Type) where
  | found (v : α)
  | notFound
  | error

/-- A message, as the library shows it: integers, numbers, whether `missingValue` can be set, and the values with that missing value when
there is room for some number of them (`none` is an error, as when the room is not enough). -/
structure Lib where
  long : String → Answer Int
  double : String → Answer Rat
  setMissing : Option Rat → Bool
  values : Option Rat → Nat → Option (List (Option Rat))

/-- Something that may also throw `griberror`: `none`. -/
abbrev Get (α : Type) := Outcome (Option α)

/-- Go on if there was no `griberror`. -/
def Get.andThen {α β : Type} (x : Get α) (f : α → Get β) : Get β :=
  Outcome.bind x fun
    | none => .ok none
    | some v => f v

/-- A failed look up leaves the variable as it is, with no value, and then gdal/grib/utils.h:170, 178, 198, 228 and 241 print it to the trace.
The standard says that this is undefined; on usual machines it prints some number: `tolerant`. -/
def printed {α : Type} (tolerant : Bool) (x : Get α) : Get α := if tolerant then x else .ub

/-- gdal/grib/utils.h:166-173 `get_long` -/
def getLong (tolerant : Bool) (lib : Lib) (k : String) : Get Int :=
  match lib.long k with
  | .found v => .ok (some v)
  | _ => printed tolerant (.ok none)

/-- gdal/grib/utils.h:175-185 `get_long_ifexists` -/
def getLongIfExists (tolerant : Bool) (lib : Lib) (k : String) : Get (Option Int) :=
  match lib.long k with
  | .found v => .ok (some (some v))
  | .notFound => printed tolerant (.ok (some none))
  | .error => printed tolerant (.ok none)

/-- gdal/grib/utils.h:187-204 `get_long_oneof`: the next key is tried after any error. -/
def getLongOneOf (tolerant : Bool) (lib : Lib) : List String → Get Int
  | [] => .ok none
  | k :: ks => match lib.long k with
    | .found v => .ok (some v)
    | _ => printed tolerant (getLongOneOf tolerant lib ks)

/-- gdal/grib/utils.h:230-246 `get_double_oneof` -/
def getDoubleOneOf (tolerant : Bool) (lib : Lib) : List String → Get Rat
  | [] => .ok none
  | k :: ks => match lib.double k with
    | .found v => .ok (some v)
    | _ => printed tolerant (getDoubleOneOf tolerant lib ks)

/-! ### Opening -/

/-- `int` from `long` -/
def toInt (v : Int) : Int := (v + 2 ^ 31) % 2 ^ 32 - 2 ^ 31

/-- An image that was opened. -/
structure Dataset where
  sx : Int
  sy : Int
  datetime : Bytes
  spacecraft : Int
  spacecraftName : String
  lon : Rat
  channel : Int
  channelName : String
  unit : String
  nodata : Option Rat

/-- gdal/grib/utils.h:352-380 `formatTime`; the overflow of `long` in the year is not modelled. -/
def formatTime (tolerant : Bool) (lib : Lib) : Get Bytes :=
  let rest (year : Int) : Get Bytes :=
    (getLong tolerant lib "month").andThen fun month =>
    (getLong tolerant lib "day").andThen fun day =>
    (getLong tolerant lib "hour").andThen fun hour =>
    (getLong tolerant lib "minute").andThen fun minute =>
    (getLong tolerant lib "second").andThen fun second =>
    .ok (some (Datetime.formatStamp year month day hour minute second))
  (getLong tolerant lib "editionNumber").andThen fun edition =>
  if edition = 1 then
    (getLong tolerant lib "centuryOfReferenceTimeOfData").andThen fun century =>
    (getLong tolerant lib "yearOfCentury").andThen fun year =>
    rest ((century - 1) * 100 + year)
  else if edition = 2 then (getLong tolerant lib "year").andThen rest
  else .ok none

/-- gdal/grib/grib.cpp:170-181: the channel.  The exceptions of facts.cpp are not `griberror`. -/
def channelOf (tolerant : Bool) (lib : Lib) (spacecraft : Int) : Get Int :=
  (getLongIfExists tolerant lib "channelNumber").andThen fun
    | some c => .ok (some c)
    | none => (getLongIfExists tolerant lib "level").andThen fun
      | some c => .ok (some c)
      | none =>
        (getLong tolerant lib "scaleFactorOfCentralWaveNumber").andThen fun scale =>
        (getLong tolerant lib "scaledValueOfCentralWaveNumber").andThen fun value =>
        Outcome.bind (Facts.channelFromWaveNumber spacecraft ((value : Rat) * (10 : Rat) ^ (-scale))) fun c => .ok (some c)

/-- gdal/grib/grib.cpp:90-127 `init` and 159-198 the constructor of the band; `none` is `griberror`, after which `init` gives false.
The metadata of GDAL can always be set. -/
def init (tolerant : Bool) (lib : Lib) : Get Dataset :=
  (getLong tolerant lib "numberOfPointsAlongXAxis").andThen fun sx =>
  (getLong tolerant lib "numberOfPointsAlongYAxis").andThen fun sy =>
  (formatTime tolerant lib).andThen fun datetime =>
  (getLongOneOf tolerant lib ["satelliteNumber", "satelliteIdentifier", "indicatorOfTypeOfLevel"]).andThen fun sat =>
  (getDoubleOneOf tolerant lib ["longitudeOfSubSatellitePointInDegrees", "geography.lop"]).andThen fun lon =>
  (channelOf tolerant lib (toInt sat)).andThen fun channel =>
  let nodata := GribFile.defaultScaledMissing (toInt channel)
  if lib.setMissing nodata then
    .ok (some ⟨toInt sx, toInt sy, datetime, toInt sat, Facts.spacecraftName (toInt sat), lon, channel,
      Facts.channelName (toInt sat) (toInt channel), Facts.channelUnit (toInt sat) (toInt channel), nodata⟩)
  else .ok none

/-- What GDAL has found about a file: whether it can be opened and its first bytes; then what `fopen` and the library do with it. -/
structure File where
  isFile : Bool
  header : Bytes
  traceable : Bool
  opened : Bool
  message : Option Lib

/-- gdal/grib/grib.cpp:212-214: `std::string(header, 0, n)` makes a string of the bytes before the first zero, then takes no more than `n`
of them.  GDAL puts a zero after the header. -/
def signed (f : File) : Bool :=
  (((f.header ++ [0]).takeWhile (· ≠ 0)).take f.header.length).tails.any ((str "GRIB").isPrefixOf ·)

/-- gdal/grib/grib.cpp:200-230 `GRIBOpen`, without the option `MSAT_COMPUTE`: what it gives (`none` is the null pointer), and what was done with
objects: number 0 is `grib`, number 1 belongs to the dataset.  An exception leaves the function after the destruction of both. -/
def gribOpen (tolerant : Bool) (f : File) : Outcome (Option Dataset) × List Op :=
  if !f.isFile then (.ok none, [])
  else if f.header.length < 4 then (.ok none, [])
  else if !signed f then (.ok none, [])
  else if !f.opened then (.ok none, [.construct f.traceable, .file 0 false false, .destroy 0])
  else match f.message with
    | none => (if f.traceable then .ok none else .ub, [.construct f.traceable, .file 0 true false, .destroy 0])
    | some lib =>
      let made := [.construct f.traceable, .file 0 true true, .move 0]
      match if f.traceable then init tolerant lib else .ub with
      | .ok (some d) => (.ok (some d), made ++ [.destroy 0])
      | r => (r, made ++ [.destroy 1, .destroy 0])

/-- Closing an image that was opened, by GDAL: the destructor of `GRIBDataset`. -/
def close : List Op := [.destroy 1]

/-! ### Using an image -/

/-- What happens when a block is read: the pixels, or an error reported, or `griberror`, which nobody catches. -/
inductive Block where
  | pixels (v : List (Option Rat))
  | failure
  | griberror

/-- gdal/grib/grib.cpp:63-78 `IReadBlock`; the product of two `int`s is undefined when it does not fit.  A negative product is converted to a
`size_t` of 64 bits. -/
def readBlock (lib : Lib) (d : Dataset) (x y : Int) : Outcome Block :=
  if x ≠ 0 ∨ y ≠ 0 then .ok .failure
  else if d.sx * d.sy < -2 ^ 31 ∨ 2 ^ 31 ≤ d.sx * d.sy then .ub
  else
    let room := ((d.sx * d.sy) % 2 ^ 64).toNat
    match lib.values d.nodata room with
    | none => .ok .griberror
    | some v => if v.length ≠ room then .ok .failure else .ok (.pixels v)

/-- gdal/grib/grib.cpp:129-152 `GetGeoTransform`; `none` is a failure.  The sizes are `long`, the parameters of msat/facts.cpp:162 and 174 are
`int`.  For a size of zero the program computes NaN and here there is 0. -/
noncomputable def geoTransform (tolerant : Bool) (lib : Lib) : Get Georef.Gt :=
  (getLongOneOf tolerant lib ["xCoordinateOfSubSatellitePoint", "XpInGridLengths"]).andThen fun xp =>
  (getLongOneOf tolerant lib ["yCoordinateOfSubSatellitePoint", "YpInGridLengths"]).andThen fun yp =>
  (getLongOneOf tolerant lib ["Xo", "geography.xo"]).andThen fun x0 =>
  (getLongOneOf tolerant lib ["Yo", "geography.yo"]).andThen fun y0 =>
  (getLong tolerant lib "geography.dx").andThen fun dx =>
  (getLong tolerant lib "geography.dy").andThen fun dy =>
  Outcome.bind (PixelSize.pixelHSizeFromSeviriDX (toInt dx)) fun psx =>
  Outcome.bind (PixelSize.pixelVSizeFromSeviriDY (toInt dy)) fun psy =>
  .ok (some {
    x0 := ((-(xp - x0) : ℤ) : ℝ) * psx
    y0 := ((yp - y0 : ℤ) : ℝ) * psy
    dx := psx
    dy := -psy
    rx := 0
    ry := 0 })

end Msat.GribHandle
