import Verif.Model.Thornsds

/-
tools/thornsds_db1/db1_to_netcdf.cpp and db1_to_image.cpp.

The NetCDF library is trusted to write what it is given; it refuses dimensions that are not positive ("time" is
already the one of unlimited size).  ImageMagick is trusted to make an image of the samples that it is given.
-/
namespace Msat.Thornsds
open Msat Ini Text

/-- tools/thornsds_db1/db1_to_netcdf.cpp:72-77 and db1_to_image.cpp:87-92: characters of the name of the output that
are replaced. -/
def cleanName (s : Bytes) : Bytes := s.map fun c => if c = 47 then 45 else if c = 32 then 95 else if c = 58 then 45 else c

/-- tools/thornsds_db1/db1_to_netcdf.cpp:69-77 and db1_to_image.cpp:83-92 -/
def outName (satellite channel start suffix : Bytes) : Bytes :=
  cleanName (snprintf pathMax (satellite ++ str "_" ++ channel ++ str "_" ++ start ++ str "." ++ suffix))

/-- `"%02d/%02d/%04d %02d:%02d:%02d.000"`, tools/thornsds_db1/db1_to_netcdf.cpp:112, up to the last number. -/
def startFormat : List Directive :=
  [.int (some 2), .lit 47, .int (some 2), .lit 47, .int (some 4), .blank, .int (some 2), .lit 58, .int (some 2), .lit 58,
    .int (some 2)]

/-- The NetCDF file, without constant attributes. -/
structure NcImage (F : Type) where
  satellite : Bytes
  receiver : Bytes
  time : Bytes
  areaName : Bytes
  projection : Bytes
  columns : Int
  lines : Int
  columnScaleFactor : Int
  lineScaleFactor : Int
  columnOffset : Int
  lineOffset : Int
  northSouth : Bool
  calibration : List F
  quantity : Bytes
  units : Bytes
  seconds : Int
  name : Bytes
  chnum : Nat
  samples : Bytes

/-- What is left of a run: the status, and the file if it has been completed. -/
structure ToolRun (F : Type) where
  status : Int
  file : Option (Bytes × NcImage F)

/-- What the tool finds around it: `mktime` with the value of `tm_isdst` and the six parts of a time, the global
variable `timezone`, the indeterminate value that `tm_isdst` has as nothing is assigned to it, and whether a file can
be created. -/
structure Machine where
  mktime : Int → Int → Int → Int → Int → Int → Int → Int
  timezone : Int
  isdst : Int
  creates : Bytes → Bool

/-- Use of a text, which is undefined for a null pointer. -/
def deref (t : Option Bytes) : Outcome Bytes :=
  match t with
  | none => .ub
  | some t => .ok t

/-- `n` samples of two bytes from the array `raw`. -/
def readSamples (raw : Option Bytes) (n : Nat) : Outcome Bytes :=
  match raw with
  | none => .ub
  | some raw => slice raw 0 (2 * n)

/-- tools/thornsds_db1/db1_to_netcdf.cpp:80-186: everything after the creation of the file; variables that `sscanf` does not
assign are used without a value.  `return false` ends the program with status 0. -/
def writeNetcdf {F : Type} (m : Machine) (d : Db1 F) (chname outname : Bytes) : Outcome (ToolRun F) := do
  let wd ← imagePixels d
  let hg ← imageLines d
  let cfac ← aoiCfac d
  let lfac ← aoiLfac d
  let loff ← aoiCoff d
  let coff ← aoiLoff d
  let satellite ← satelliteName d
  let satellite ← deref satellite
  let start ← scheduleStart d
  let start ← deref start
  match scanf startFormat start with
  | [day, month, year, hour, minute, second] => do
    let time := fmt0 4 year ++ str "-" ++ fmt0 2 month ++ str "-" ++ fmt0 2 day ++ str " " ++ fmt0 2 hour ++ str ":" ++
      fmt0 2 minute ++ str ":" ++ fmt0 2 second ++ str " UTC"
    let receiver ← stationName d
    let receiver ← deref receiver
    let area ← aoiName d
    let area ← deref area
    let projection ← aoiProjection d
    let projection ← deref projection
    let ns ← northSouth d
    if hg ≤ 0 ∨ wd ≤ 0 ∨ numberOfCalibration d ≤ 0 then .ok ⟨0, none⟩
    else do
      let quantity ← channelVariable d
      let quantity ← deref quantity
      let units ← channelUnits d
      let units ← deref units
      let name ← channelName d
      let name ← deref name
      let samples ← readSamples (rawData d) (hg.toNat * wd.toNat)
      match calibrationTable d with
      | none => .ub
      | some cal =>
        .ok ⟨0, some (outname, {
          satellite := satellite, receiver := receiver, time := time, areaName := area, projection := projection,
          columns := wd, lines := hg, columnScaleFactor := cfac, lineScaleFactor := lfac, columnOffset := coff,
          lineOffset := loff, northSouth := !ns, calibration := cal, quantity := quantity, units := units,
          seconds := m.mktime m.isdst year month day hour minute second - 946684800 - m.timezone, name := name,
          chnum := chnameToChnum chname, samples := samples })⟩
  | _ => .ub

/-- tools/thornsds_db1/db1_to_netcdf.cpp:69-103 and what follows -/
def exportNetcdf {F : Type} (m : Machine) (d : Db1 F) (chname : Bytes) : Outcome (ToolRun F) := do
  let satellite ← satelliteName d
  let satellite ← deref satellite
  let channel ← channelName d
  let channel ← deref channel
  let start ← scheduleStart d
  let start ← deref start
  let outname := outName satellite channel start (str "nc")
  if m.creates outname then writeNetcdf m d chname outname else .ok ⟨0, none⟩

/-- tools/thornsds_db1/db1_to_netcdf.cpp:35-193 `main`, the arguments without the name of the program -/
def db1ToNetcdf {F : Type} (fl : Floats F) (fs : Files) (m : Machine) (args : List Bytes) : Outcome (ToolRun F) :=
  if args.head? = some (str "-V") then .ok ⟨0, none⟩
  else match args with
  | directory :: chname :: _ => do
    let d ← openDir fs Db1.fresh directory
    let (has, d) ← hasChannel fs d chname
    if has then do
      let d ← setChannel fl fs d chname
      if isDataOk d then exportNetcdf m d chname else .ok ⟨-1, none⟩
    else .ok ⟨-1, none⟩
  | _ => .ok ⟨-1, none⟩

/-- An image file: size, samples, whether it has been turned, the image laid over it. -/
structure Picture where
  name : Bytes
  width : Int
  height : Int
  samples : Bytes
  turned : Bool
  overlay : Option Bytes
deriving DecidableEq, Repr

/-- tools/thornsds_db1/db1_to_image.cpp:83-113, without normalising and scaling; the sixth argument says that there is an
overlay. -/
def exportImage {F : Type} (d : Db1 F) (format : Bytes) (overlay : Option Bytes) : Outcome Picture := do
  let satellite ← satelliteName d
  let satellite ← deref satellite
  let channel ← channelName d
  let channel ← deref channel
  let start ← scheduleStart d
  let start ← deref start
  let outname := outName satellite channel start format
  let wd ← imagePixels d
  let hg ← imageLines d
  if hg ≤ 0 ∨ wd ≤ 0 then .terminate
  else do
    let samples ← readSamples (rawData d) (hg.toNat * wd.toNat)
    let ns ← northSouth d
    .ok ⟨outname, wd, hg, samples, !ns, overlay.map fun _ => str "SEVIRI_OVERLAY.pgm"⟩

end Msat.Thornsds
