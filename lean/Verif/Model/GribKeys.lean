import Verif.Model.Georef
import Verif.Model.GribFile
import Verif.Model.Datetime

/-
gdal/grib/grib.cpp, gdal/grib/utils.h: the calls that the export of an image makes to a GRIB library that may refuse any of them.

The library is arbitrary: a handle, what setting a key does to it and whether it succeeds, what keys say, and the encoded message.  Numbers
are real: the rounding of `double` is not modelled.  The source has a spatial reference and a band, and the trace file can be opened
(Model/GribFile.lean has the other cases).
-/
namespace Msat.GribKeys
open Msat PixelSize Georef
open Msat.GribFile (Template templateOf)

/-- What a key is set to: `grib_set_long`, `grib_set_double`, `grib_set_double_array`. -/
inductive Val where
  | long (v : ℤ)
  | double (v : ℝ)
  | array (vs : List ℝ)

/-- A GRIB library.  `set` gives the handle afterwards, and whether it succeeded. -/
structure Lib (H : Type) where
  sample : String → Option H
  set : H → String → Val → H × Bool
  get : H → String → Option ℤ
  message : H → Option Bytes

/-- The calls made by an export, in the order in which they are made.
- `set` is `set_long`, `set_double` or `set_double_array`, gdal/grib/utils.h:264-269 and 295-309;
- `trySet` is `set_long_unchecked`, gdal/grib/utils.h:288-293;
- `oneOf` is `set_long_oneof` with a key and a value, and after them pairs of a key and an `int`, gdal/grib/utils.h:271-286;
- `edition` is `get_long("editionNumber")` and the choice that follows it, gdal/grib/utils.h:384-407;
- `stop` ends the export: with the null pointer if it is given no error. -/
inductive Op where
  | set (k : String) (v : Val)
  | trySet (k : String) (v : Val)
  | oneOf (k : String) (v : ℤ)
  | edition (first second : List (String × ℤ))
  | stop (o : Outcome Unit)

/-- `set_long` of several keys, one after the other; `none` is the exception. -/
def setAll {H : Type} (lib : Lib H) : List (String × ℤ) → H → Option H
  | [], h => some h
  | (k, v) :: rest, h =>
    let (h, ok) := lib.set h k (.long v)
    if ok then setAll lib rest h else none

/-- The calls.  The result is `none` when `griberror` is thrown (gdal/grib/utils.h:30-42; the exception is caught in
gdal/grib/grib.cpp:867) or a section returns false.
- When the first key of `set_long_oneof` is refused, the next value is taken from the arguments as a `long`, but an `int` was passed
  (gdal/grib/grib.cpp:502-507): undefined.
- When `get_long` fails, its result is printed before it was given a value (gdal/grib/utils.h:166-170): undefined. -/
def run {H : Type} (lib : Lib H) : List Op → H → Outcome (Option H)
  | [], h => .ok (some h)
  | .set k v :: rest, h =>
    let (h, ok) := lib.set h k v
    if ok then run lib rest h else .ok none
  | .trySet k v :: rest, h => run lib rest (lib.set h k v).1
  | .oneOf k v :: rest, h =>
    let (h, ok) := lib.set h k (.long v)
    if ok then run lib rest h else .ub
  | .edition first second :: rest, h =>
    match lib.get h "editionNumber" with
    | none => .ub
    | some e =>
      match (if e = 1 then setAll lib first h else if e = 2 then setAll lib second h else none) with
      | none => .ok none
      | some h => run lib rest h
  | .stop o :: _, _ => o.bind fun _ => .ok none

/-- The source of an export: `projection` says that its spatial reference has a projection, `values` are the pixels, if they can be
read, `nodata` is `none` if it is not a number; metadata are given if they are there. -/
structure Source where
  geo : Georef.Source
  projection : Bool
  sx : ℕ
  sy : ℕ
  values : Option (List ℝ)
  nodata : Option ℝ
  scale : ℝ
  offset : ℝ
  datetime : Option Bytes
  spacecraft : Option ℕ
  channel : Option ℕ

/-- What the first part of the export leaves: `values`, `count_missing`, `grib_missing`. -/
structure Scaled where
  values : List ℝ
  countMissing : ℕ
  missing : ℝ

open Classical in
/-- gdal/grib/grib.cpp:319-354 `CreateGRIB::create`; `none` is false. -/
noncomputable def prepare (s : Source) : Option Scaled :=
  if s.projection = false then none
  else if s.geo.height ≠ orbitRadiusForGdal then none
  else match s.values with
    | none => none
    | some vs =>
      let missing := (s.nodata.getD 0) * s.scale + s.offset
      some {
        values := vs.map fun v => if some v = s.nodata then missing else v * s.scale + s.offset
        countMissing := vs.countP fun v => some v = s.nodata
        missing := missing }

/-- gdal/grib/utils.h:383-412 `setTime` -/
def setTime (buf : Bytes) : List Op :=
  match Text.scanf Datetime.stampFormat buf with
  | [year, month, day, hour, minute, second] => [
      .edition [("centuryOfReferenceTimeOfData", year.tdiv 100 + 1), ("yearOfCentury", year.tmod 100)] [("year", year)],
      .set "month" (.long month), .set "day" (.long day), .set "hour" (.long hour), .set "minute" (.long minute),
      .trySet "second" (.long second)]
  | _ => [.edition [] [], .stop (.ok ())]

/-- The time, if there is one: gdal/grib/grib.cpp:411-413 and 663-665. -/
def timeOps (s : Source) : List Op :=
  match s.datetime with
  | some t => setTime t
  | none => []

/-- gdal/grib/grib.cpp:396-400 `indicator_section` -/
def indicator2 : List Op := [.set "discipline" (.long 3)]

/-- gdal/grib/grib.cpp:402-419 `identification_section` of edition 2 -/
def identification2 (s : Source) : List Op :=
  [.set "centre" (.long 98), .set "subCentre" (.long 0), .set "tablesVersion" (.long 4), .set "localTablesVersion" (.long 0),
    .set "significanceOfReferenceTime" (.long 3)] ++ timeOps s ++
  [.set "productionStatusOfProcessedData" (.long 0), .set "typeOfProcessedData" (.long 0)]

/-- `SEVIRI_CAMERA_H`, msat/facts.h:23, times a million: gdal/grib/grib.cpp:526 and 771 -/
noncomputable def cameraHeight : ℤ := nearbyint (orbitRadius / earthRadius * 1000000)

/-- A step that computes a number, and what follows it. -/
def compute {α : Type} (o : Outcome α) (f : α → List Op) : List Op :=
  match o with
  | .ok a => f a
  | .throws m => [.stop (.throws m)]
  | .ub => [.stop .ub]
  | .terminate => [.stop .terminate]
  | .diverges => [.stop .diverges]

/-- gdal/grib/grib.cpp:421-532 `grid_definition_section` of edition 2 -/
noncomputable def grid2 (s : Source) (d : Scaled) : List Op :=
  if s.geo.gt.rx ≠ 0 then [.stop (.ok ())]
  else if s.geo.gt.ry ≠ 0 then [.stop (.ok ())]
  else match gridOffset s.geo.gt with
    | none => [.stop (.ok ())]
    | some offset =>
      [.set "sourceOfGridDefinition" (.long 0), .set "numberOfDataPoints" (.long d.values.length),
        .set "interpretationOfNumberOfPoints" (.long 0), .set "gridDefinitionTemplateNumber" (.long 90),
        .set "shapeOfTheEarth" (.long 2), .set "numberOfPointsAlongXAxis" (.long s.sx),
        .set "numberOfPointsAlongYAxis" (.long s.sy), .set "latitudeOfSubSatellitePointInDegrees" (.double 0),
        .set "longitudeOfSubSatellitePointInDegrees" (.double s.geo.lon)] ++
      compute (seviriDXFromPixelHSize s.geo.gt.dx) fun dx =>
      compute (seviriDYFromPixelVSize (-s.geo.gt.dy)) fun dy =>
      [.set "geography.dx" (.long dx), .set "geography.dy" (.long dy)] ++
      compute (toInt (nearbyint (offset + s.geo.gt.x0 / s.geo.gt.dx))) fun x0 =>
      compute (toInt (nearbyint (offset - s.geo.gt.y0 / -s.geo.gt.dy))) fun y0 =>
      [.oneOf "geography.xo" x0, .oneOf "geography.yo" y0, .set "geography.dx" (.long dx), .set "geography.dy" (.long dy),
        .set "xCoordinateOfSubSatellitePoint" (.long offset), .set "yCoordinateOfSubSatellitePoint" (.long offset),
        .set "scanningMode" (.long 0), .set "orientationOfTheGridInDegrees" (.long 180), .set "Nr" (.long cameraHeight),
        .set "Xo" (.long x0), .set "Yo" (.long y0)]

/-- gdal/grib/grib.cpp:534-595 `product_definition_section` -/
def product2 (s : Source) : List Op :=
  [.set "productDefinitionTemplateNumber" (.long 31), .set "parameterCategory" (.long 0), .set "parameterNumber" (.long 0),
    .set "typeOfGeneratingProcess" (.long 0), .set "generatingProcessIdentifier" (.long 254), .set "NB" (.long 1)] ++
  match s.spacecraft with
  | none => []
  | some id =>
    [.set "satelliteSeries" (.long 333), .set "satelliteNumber" (.long id), .set "instrumentType" (.long 207)] ++
    match s.channel with
    | none => []
    | some c =>
      .set "scaleFactorOfCentralWaveNumber" (.long 0) ::
      compute (Facts.centralWaveNumber id c) fun n => [.set "scaledValueOfCentralWaveNumber" (.long (Facts.roundC n))]

/-- gdal/grib/grib.cpp:597-607 `data_representation_section`: an `int` product, and a difference of `size_t` converted to `long`. -/
def representation2 (s : Source) (d : Scaled) : List Op :=
  [.set "numberOfValues" (.long ((s.sx * s.sy : ℤ) - d.countMissing)), .set "dataRepresentationTemplateNumber" (.long 0)]

/-- gdal/grib/grib.cpp:357-373 `bit_map_section` -/
def bitMap (d : Scaled) : List Op :=
  if d.countMissing ≠ 0 then [.set "bitmapPresent" (.long 1), .set "missingValue" (.double d.missing)]
  else [.set "bitmapPresent" (.long 0)]

/-- gdal/grib/grib.cpp:375-388 `data_section` -/
def dataOps (d : Scaled) : List Op :=
  if d.countMissing = d.values.length then [.stop (.ok ())] else [.set "values" (.array d.values)]

/-- gdal/grib/grib.cpp:609-625 `create` of edition 2, after the preparation -/
noncomputable def ops2 (s : Source) (d : Scaled) : List Op :=
  indicator2 ++ identification2 s ++ grid2 s d ++ product2 s ++ representation2 s d ++ bitMap d ++ dataOps d

/-- gdal/grib/grib.cpp:637-674 `identification_section` of edition 1 -/
def identification1 (s : Source) : List Op :=
  [.set "centre" (.long 98), .set "generatingProcessIdentifier" (.long 254), .set "gridDefinition" (.long 255),
    .set "indicatorOfParameter" (.long 127)] ++
  (match s.spacecraft with
  | some id => [.set "indicatorOfTypeOfLevel" (.long id)]
  | none => []) ++
  (match s.channel with
  | some c => [.set "level" (.long c)]
  | none => []) ++
  timeOps s ++
  [.set "indicatorOfUnitOfTimeRange" (.long 0), .set "timeRangeIndicator" (.long 0), .set "numberIncludedInAverage" (.long 0),
    .set "numberMissingFromAveragesOrAccumulations" (.long 0), .set "subCentre" (.long 0)]

/-- gdal/grib/grib.cpp:803-826 `identification_section` of ECMWF.  What the function of the base class returns is ignored: it is
always true, and exceptions go through. -/
def identificationECMWF (s : Source) : List Op :=
  identification1 s ++ [.set "localDefinitionNumber" (.long 24)] ++
  (match s.spacecraft with
  | some id => [.set "satelliteIdentifier" (.long id), .set "instrumentIdentifier" (.long 207)]
  | none => []) ++
  (match s.channel with
  | some c => [.set "channelNumber" (.long c)]
  | none => []) ++
  [.set "functionCode" (.long 1)]

/-- gdal/grib/grib.cpp:16-20: the key depends on the version of the library; that of the newer ones. -/
def cameraKey : String := "altitudeOfTheCameraFromTheEarthsCentreMeasuredInUnitsOfTheEarthsRadius"

/-- gdal/grib/grib.cpp:676-781 `grid_definition_section` of edition 1 -/
noncomputable def grid1 (s : Source) : List Op :=
  if s.geo.gt.rx ≠ 0 then [.stop (.ok ())]
  else if s.geo.gt.ry ≠ 0 then [.stop (.ok ())]
  else match gridOffset s.geo.gt with
    | none => [.stop (.ok ())]
    | some offset =>
      [.set "numberOfVerticalCoordinateValues" (.long 0), .set "pvlLocation" (.long 255), .set "dataRepresentationType" (.long 90),
        .set "numberOfPointsAlongXAxis" (.long s.sx), .set "numberOfPointsAlongYAxis" (.long s.sy),
        .set "latitudeOfSubSatellitePointInDegrees" (.double 0), .set "longitudeOfSubSatellitePointInDegrees" (.double s.geo.lon),
        .set "resolutionAndComponentFlags" (.long 64)] ++
      compute (seviriDXFromPixelHSize s.geo.gt.dx) fun dx =>
      compute (seviriDYFromPixelVSize (-s.geo.gt.dy)) fun dy =>
      [.set "geography.dx" (.long dx), .set "geography.dy" (.long dy), .set "XpInGridLengths" (.long offset),
        .set "YpInGridLengths" (.long offset), .set "scanningMode" (.long 0), .set "orientationOfTheGridInDegrees" (.long 180),
        .set cameraKey (.long cameraHeight)] ++
      compute (toInt (nearbyint (offset + s.geo.gt.x0 / s.geo.gt.dx))) fun x0 =>
      compute (toInt (nearbyint (offset - s.geo.gt.y0 / -s.geo.gt.dy))) fun y0 =>
      [.set "Xo" (.long x0), .set "Yo" (.long y0)]

/-- gdal/grib/grib.cpp:783-796 `create` of edition 1, after the preparation; CreateGribMsat changes nothing of it
(gdal/grib/grib.cpp:829-832). -/
noncomputable def ops1 (s : Source) (d : Scaled) (identification : List Op) : List Op :=
  identification ++ grid1 s ++ bitMap d ++ dataOps d

/-- The calls of each template. -/
noncomputable def ops (t : Template) (s : Source) (d : Scaled) : List Op :=
  match t with
  | .wmo => ops2 s d
  | .ecmwf => ops1 s d (identificationECMWF s)
  | .msat => ops1 s d (identification1 s)

/-- gdal/grib/grib.cpp:611 and 785: the sample. -/
def sampleName : Template → String
  | .wmo => "GRIB2"
  | .ecmwf => "GRIB1"
  | .msat => "GRIB1"

/-- gdal/grib/grib.cpp:609-625 and 783-796 `create`.  What `new_from_samples` (gdal/grib/utils.h:120-130) returns is ignored: without a
handle, the first key is set on a null pointer. -/
noncomputable def create {H : Type} (lib : Lib H) (t : Template) (s : Source) : Outcome (Option H) :=
  match lib.sample (sampleName t), prepare s with
  | _, none => .ok none
  | none, some _ => .ub
  | some h, some d => run lib (ops t s d) h

/-- gdal/grib/utils.h:311-345 `write`: the file afterwards.  `writable` says whether it can be opened for writing, `room` is how many
bytes can be written. -/
def write (writable : Bool) (room : Nat) (old : Option Bytes) : Option Bytes → Option Bytes
  | none => old
  | some m => if writable then some (m.take room) else old

/-- gdal/grib/grib.cpp:837-873 `GRIBCreateCopy`: what it returns, and the file afterwards.  `opened` is what `GDALOpen` makes of the
file, `none` is the null pointer.  What `write` returns is ignored. -/
noncomputable def createCopy {H D : Type} (lib : Lib H) (opened : Option Bytes → Option D) (option : Option String) (writable : Bool)
    (room : Nat) (old : Option Bytes) (s : Source) : Outcome (Option D × Option Bytes) :=
  match templateOf option with
  | none => .ok (none, old)
  | some t => (create lib t s).bind fun
    | none => .ok (none, old)
    | some h =>
      let file := write writable room old (lib.message h)
      .ok (opened file, file)

end Msat.GribKeys
