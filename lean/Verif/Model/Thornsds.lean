import Verif.Model.IniFile
import Verif.Model.Text
import Verif.Model.Datetime

/-
msat/thornsds_db1/thornsds_db1.cpp: SEVIRI images in directories of the Thorn SDS software, and the tools
tools/thornsds_db1/db1_to_netcdf.cpp and db1_to_image.cpp.

Files do not change while the functions run.  What is allocated and not freed is not modelled; memory always
suffices.  Messages on standard error are not modelled.
-/
namespace Msat.Thornsds
open Msat Ini Text

/-- A file: it may be there without being readable. -/
structure File where
  content : Bytes
  readable : Bool
deriving DecidableEq, Repr

abbrev Files := Bytes → Option File

/-- What is used of floating point numbers: `atof`, and the constants of the code. -/
structure Floats (F : Type) where
  atof : Bytes → F
  const : Int → F

/-- `MSG_db1_data`, msat/thornsds_db1/thornsds_db1.h:45-119, without `infochuse`: all that is put there is used
at once.  A null pointer is `none`; `size` is `chfstat.st_size`, `none` as long as it has not been set. -/
structure Db1 (F : Type) where
  dirname : Option Bytes
  size : Option Nat
  aoi : Option Dict
  info : Option Dict
  calibration : Option Dict
  chnum : Nat
  rawdata : Option Bytes
  ncalval : Int
  calValues : Option (List F)

/-- msat/thornsds_db1/thornsds_db1.cpp:35-45 the constructor -/
def Db1.fresh {F : Type} : Db1 F :=
  ⟨none, none, none, none, none, 0, none, -1, none⟩

/-- msat/thornsds_db1/thornsds_db1.cpp:49-59 `close` -/
def Db1.close {F : Type} (d : Db1 F) : Db1 F :=
  { d with
    dirname := none, aoi := none, info := none, calibration := none, rawdata := none, calValues := none,
    chnum := 0, ncalval := -1 }

/-- `PATH_MAX` of Linux, with the final NUL. -/
def pathMax : Nat := 4096

/-- `sprintf` into a buffer of `PATH_MAX` characters. -/
def sprintfPath (s : Bytes) : Outcome Bytes := if s.length < pathMax then .ok s else .ub

/-- `snprintf` into a buffer of `n` characters. -/
def snprintf (n : Nat) (s : Bytes) : Bytes := s.take (n - 1)

/-- `iniparser_new` of a file. -/
def iniFile (fs : Files) (path : Bytes) : Outcome (Option Dict) :=
  match fs path with
  | none => iniNew none
  | some f => iniNew (if f.readable then some f.content else none)

/-- msat/thornsds_db1/thornsds_db1.cpp:61-74 `open` -/
def openDir {F : Type} (fs : Files) (d : Db1 F) (directory : Bytes) : Outcome (Db1 F) := do
  let aoi ← iniFile fs (snprintf pathMax (directory ++ str "/" ++ str "AoI"))
  let info ← iniFile fs (snprintf pathMax (directory ++ str "/" ++ str "INFO.DBI"))
  .ok { d with dirname := some directory, aoi := aoi, info := info }

/-- msat/thornsds_db1/thornsds_db1.cpp:76-88 `has_channel` -/
def hasChannel {F : Type} (fs : Files) (d : Db1 F) (chname : Bytes) : Outcome (Bool × Db1 F) :=
  match d.dirname with
  | none => .ok (false, d)
  | some dir => do
    let path ← sprintfPath (dir ++ str "/" ++ chname ++ str ".RAW")
    match fs path with
    | some f => .ok (true, { d with size := some f.content.length })
    | none => .ok (false, d)

/-- msat/thornsds_db1/thornsds_db1.cpp:161-166 `is_data_ok` -/
def isDataOk {F : Type} (d : Db1 F) : Bool := decide (0 < d.chnum)

/-- `iniparser_getstring` (msat/iniparser.c:724-736) where the dictionary may be a null pointer. -/
def lookup (d : Option Dict) (key : Bytes) : Outcome Found :=
  match d with
  | none => .ok .default
  | some d => getstring d key

/-- The pointer that `iniparser_getstring` returns. -/
def getText (d : Option Dict) (key dflt : Bytes) : Outcome (Option Bytes) := do
  match ← lookup d key with
  | .default => .ok (some dflt)
  | .value v => .ok v

/-- `iniparser_getint` (msat/iniparser.c:753-760) where the dictionary may be a null pointer. -/
def getInt (d : Option Dict) (key : Bytes) (dflt : Int) : Outcome Int := do
  match ← lookup d key with
  | .default => .ok dflt
  | .value none => .ub
  | .value (some t) => .ok (atoi t)

/-- msat/iniparser.c:776-783 `iniparser_getdouble`, converted to `float`. -/
def getFloat {F : Type} (fl : Floats F) (d : Option Dict) (key : Bytes) (dflt : Int) : Outcome F := do
  match ← lookup d key with
  | .default => .ok (fl.const dflt)
  | .value none => .ub
  | .value (some t) => .ok (fl.atof t)

/-- `iniparser_getboolean` (msat/iniparser.c:819-834) where the dictionary may be a null pointer, converted to
`bool`. -/
def getBool (d : Option Dict) (key : Bytes) (dflt : Bool) : Outcome Bool :=
  match d with
  | none => .ok dflt
  | some d => do
    let v ← getboolean d key (if dflt then 1 else 0)
    .ok (decide (v ≠ 0))

/-- `strncmp(a, b, 6) == 0` for strings (`CHLEN`, msat/thornsds_db1/thornsds_db1.h:33). -/
def sameChannel (a b : Bytes) : Bool := a.take 6 == b.take 6

/-- `snprintf(infochuse, INFOCHLEN, "Channel%d:Name", ich)` and similar, `INFOCHLEN` being 32
(msat/thornsds_db1/thornsds_db1.h:36). -/
def channelKey (ich : Nat) (what : Bytes) : Bytes := snprintf 32 (str "Channel" ++ fmt0 1 ich ++ str ":" ++ what)

/-- msat/thornsds_db1/thornsds_db1.cpp:133-140: the loop of `get_channel_number`, `n` rounds remaining, of `MAXCH`,
which is 12 (msat/thornsds_db1/thornsds_db1.h:32). -/
def channelLoop (info : Option Dict) (chname : Bytes) (ich : Nat) : Nat → Outcome Nat
  | 0 => .ok 0
  | n + 1 => do
    match ← getText info (channelKey (ich + 1) (str "Name")) (str "Undefined") with
    | none => .ub
    | some iname => if sameChannel chname iname then .ok (ich + 1) else channelLoop info chname (ich + 1) n

/-- msat/thornsds_db1/thornsds_db1.cpp:129-142 `get_channel_number` -/
def channelNumber {F : Type} (d : Db1 F) (chname : Bytes) : Outcome Nat := channelLoop d.info chname 0 12

/-- msat/thornsds_db1/thornsds_db1.cpp:144-159 `chname_to_chnum` -/
def chnameToChnum (chname : Bytes) : Nat :=
  if sameChannel chname (str "VIS006") then 1
  else if sameChannel chname (str "VIS008") then 2
  else if sameChannel chname (str "IR_016") then 3
  else if sameChannel chname (str "IR_039") then 4
  else if sameChannel chname (str "WV_062") then 5
  else if sameChannel chname (str "WV_073") then 6
  else if sameChannel chname (str "IR_087") then 7
  else if sameChannel chname (str "IR_097") then 8
  else if sameChannel chname (str "IR_108") then 9
  else if sameChannel chname (str "IR_120") then 10
  else if sameChannel chname (str "IR_134") then 11
  else if sameChannel chname (str "HRV") then 12
  else 0

/-- Conversion of a size to `int`: modulo 2^32. -/
def toInt (n : Nat) : Int := (n : Int).bmod (2 ^ 32)

/-- `chfstat.st_size/sizeof(short)`, converted to `int`; undefined if no file has been found before. -/
def sizeInShorts {F : Type} (d : Db1 F) : Outcome Int :=
  match d.size with
  | none => .ub
  | some n => .ok (toInt (n / 2))

/-- A query that gives a text, a null pointer if no channel has been set. -/
def textQuery {F : Type} (d : Db1 F) (dict : Option Dict) (key dflt : String) : Outcome (Option Bytes) :=
  if isDataOk d then getText dict (str key) (str dflt) else .ok none

/-- A query that gives a number, 0 if no channel has been set. -/
def intQuery {F : Type} (d : Db1 F) (dict : Option Dict) (key : String) (dflt : Int) : Outcome Int :=
  if isDataOk d then getInt dict (str key) dflt else .ok 0

/-- A query that gives yes or no, no if no channel has been set. -/
def boolQuery {F : Type} (d : Db1 F) (dict : Option Dict) (key : String) (dflt : Bool) : Outcome Bool :=
  if isDataOk d then getBool dict (str key) dflt else .ok false

/-- A query that gives a floating point number, 0 if no channel has been set. -/
def floatQuery {F : Type} (fl : Floats F) (d : Db1 F) (dict : Option Dict) (key : String) (dflt : Int) : Outcome F :=
  if isDataOk d then getFloat fl dict (str key) dflt else .ok (fl.const 0)

/-- msat/thornsds_db1/thornsds_db1.cpp:168-172 `get_AoI_npixels` -/
def aoiNpixels {F : Type} (d : Db1 F) : Outcome Int :=
  if isDataOk d then do
    let dflt ← sizeInShorts d
    getInt d.aoi (str ":nPixels") dflt
  else .ok (-1)

/-- msat/thornsds_db1/thornsds_db1.cpp:174-178 `get_AoI_nlines` -/
def aoiNlines {F : Type} (d : Db1 F) : Outcome Int :=
  if isDataOk d then getInt d.aoi (str ":nLines") 1 else .ok (-1)

/-- msat/thornsds_db1/thornsds_db1.cpp:180-184 `get_AoI_name` -/
def aoiName {F : Type} (d : Db1 F) := textQuery d d.aoi ":Name" "Undefined"
/-- msat/thornsds_db1/thornsds_db1.cpp:186-190 `get_AoI_projection` -/
def aoiProjection {F : Type} (d : Db1 F) := textQuery d d.aoi ":Projection" "GRID"
/-- msat/thornsds_db1/thornsds_db1.cpp:192-196 `get_AoI_cfac` -/
def aoiCfac {F : Type} (d : Db1 F) := intQuery d d.aoi ":CFAC" 0
/-- msat/thornsds_db1/thornsds_db1.cpp:198-202 `get_AoI_lfac` -/
def aoiLfac {F : Type} (d : Db1 F) := intQuery d d.aoi ":LFAC" 0
/-- msat/thornsds_db1/thornsds_db1.cpp:204-208 `get_AoI_coff` -/
def aoiCoff {F : Type} (d : Db1 F) := intQuery d d.aoi ":COFF" 0
/-- msat/thornsds_db1/thornsds_db1.cpp:210-214 `get_AoI_loff` -/
def aoiLoff {F : Type} (d : Db1 F) := intQuery d d.aoi ":LOFF" 0
/-- msat/thornsds_db1/thornsds_db1.cpp:216-220 `get_INFO_station_name` -/
def stationName {F : Type} (d : Db1 F) := textQuery d d.info "Station:Name" "Undefined"
/-- msat/thornsds_db1/thornsds_db1.cpp:222-226 `get_INFO_satellite_name` -/
def satelliteName {F : Type} (d : Db1 F) := textQuery d d.info "Satellite:Name" "Undefined"
/-- msat/thornsds_db1/thornsds_db1.cpp:228-232 `get_INFO_satellite_id` -/
def satelliteId {F : Type} (d : Db1 F) := intQuery d d.info "Satellite:ID" 0
/-- msat/thornsds_db1/thornsds_db1.cpp:234-238 `get_INFO_satellite_orbit` -/
def satelliteOrbit {F : Type} (d : Db1 F) := intQuery d d.info "Satellite:Orbit" 0
/-- msat/thornsds_db1/thornsds_db1.cpp:240-244 `get_INFO_schedule_start` -/
def scheduleStart {F : Type} (d : Db1 F) := textQuery d d.info "Schedule:Start" "01/01/2000 00:00:00.000"
/-- msat/thornsds_db1/thornsds_db1.cpp:246-250 `get_INFO_schedule_end` -/
def scheduleEnd {F : Type} (d : Db1 F) := textQuery d d.info "Schedule:End" "01/01/2000 00:00:00.000"
/-- msat/thornsds_db1/thornsds_db1.cpp:252-256 `get_INFO_schedule_elevation` -/
def scheduleElevation {F : Type} (fl : Floats F) (d : Db1 F) := floatQuery fl d d.info "Schedule:Elevation" 90
/-- msat/thornsds_db1/thornsds_db1.cpp:258-262 `get_INFO_schedule_northsouth` -/
def northSouth {F : Type} (d : Db1 F) := boolQuery d d.info "Schedule:NorthSouth" false
/-- msat/thornsds_db1/thornsds_db1.cpp:264-268 `get_INFO_schedule_location` -/
def scheduleLocation {F : Type} (d : Db1 F) := textQuery d d.info "Schedule:Location" "OH"
/-- msat/thornsds_db1/thornsds_db1.cpp:270-274 `get_INFO_schedule_day` -/
def scheduleDay {F : Type} (d : Db1 F) := boolQuery d d.info "Schedule:Day" true
/-- msat/thornsds_db1/thornsds_db1.cpp:276-280 `get_INFO_schedule_slot` -/
def scheduleSlot {F : Type} (d : Db1 F) := textQuery d d.info "Schedule:Slot" "HRIT"
/-- msat/thornsds_db1/thornsds_db1.cpp:282-286 `get_INFO_image_sensor` -/
def imageSensor {F : Type} (d : Db1 F) := textQuery d d.info "Image:Sensor" "Seviri"

/-- msat/thornsds_db1/thornsds_db1.cpp:288-292 `get_INFO_image_pixels` -/
def imagePixels {F : Type} (d : Db1 F) : Outcome Int :=
  if isDataOk d then do
    let dflt ← sizeInShorts d
    getInt d.info (str "Image:Pixels") dflt
  else .ok 0

/-- msat/thornsds_db1/thornsds_db1.cpp:294-298 `get_INFO_image_lines` -/
def imageLines {F : Type} (d : Db1 F) := intQuery d d.info "Image:Lines" 1
/-- msat/thornsds_db1/thornsds_db1.cpp:300-304 `get_INFO_image_bitsperpixel` -/
def bitsPerPixel {F : Type} (d : Db1 F) := intQuery d d.info "Image:BitsPerPixel" 10
/-- msat/thornsds_db1/thornsds_db1.cpp:306-310 `get_INFO_image_protected` -/
def imageProtected {F : Type} (d : Db1 F) := boolQuery d d.info "Image:Protected" false
/-- msat/thornsds_db1/thornsds_db1.cpp:312-316 `get_INFO_image_nchannels` -/
def nchannels {F : Type} (d : Db1 F) := intQuery d d.info "Image:nChannels" 10
/-- msat/thornsds_db1/thornsds_db1.cpp:318-322 `get_INFO_image_nproducts` -/
def nproducts {F : Type} (d : Db1 F) := intQuery d d.info "Image:nProducts" 10

/-- msat/thornsds_db1/thornsds_db1.cpp:324-329 `get_channel_INFO_name` -/
def channelName {F : Type} (d : Db1 F) : Outcome (Option Bytes) :=
  if isDataOk d then getText d.info (channelKey d.chnum (str "Name")) (str "Undefined") else .ok none

/-- msat/thornsds_db1/thornsds_db1.cpp:331-336 `get_channel_INFO_variable` -/
def channelVariable {F : Type} (d : Db1 F) : Outcome (Option Bytes) :=
  if isDataOk d then getText d.info (channelKey d.chnum (str "Variable")) (str "Undefined") else .ok none

/-- msat/thornsds_db1/thornsds_db1.cpp:338-351 `get_channel_INFO_variable_code`, with `vname` (line 33) -/
def variableCode {F : Type} (d : Db1 F) : Outcome (Option Bytes) :=
  if isDataOk d then do
    let varname ← channelVariable d
    let name ← channelName d
    match varname, name with
    | some varname, some name =>
      let ich := chnameToChnum name
      if varname.headD 0 = 84 then .ok (some (str "T"))
      else if varname.headD 0 = 82 then
        if ich ≤ 3 then .ok (some (str "V")) else .ok (some (str "N"))
      else .ok (some (str "U"))
    | _, _ => .ub
  else .ok none

/-- msat/thornsds_db1/thornsds_db1.cpp:353-358 `get_channel_INFO_units` -/
def channelUnits {F : Type} (d : Db1 F) : Outcome (Option Bytes) :=
  if isDataOk d then getText d.info (channelKey d.chnum (str "Units")) (str "Undefined") else .ok none

/-- msat/thornsds_db1/thornsds_db1.cpp:360-365 `get_channel_INFO_bitsperpixel` -/
def channelBits {F : Type} (d : Db1 F) : Outcome Int :=
  if isDataOk d then getInt d.info (channelKey d.chnum (str "BitsPerPixel")) 10 else .ok 0

/-- msat/thornsds_db1/thornsds_db1.cpp:367-372 `get_channel_INFO_table` -/
def channelTable {F : Type} (d : Db1 F) : Outcome Bool :=
  if isDataOk d then getBool d.info (channelKey d.chnum (str "Table")) false else .ok false

/-- msat/thornsds_db1/thornsds_db1.cpp:374-378 `get_channel_Calibration_Slope` -/
def calSlope {F : Type} (fl : Floats F) (d : Db1 F) := floatQuery fl d d.calibration "Calibration:Slope" 0
/-- msat/thornsds_db1/thornsds_db1.cpp:380-385 `get_channel_Calibration_TargetCount` -/
def calTargetCount {F : Type} (fl : Floats F) (d : Db1 F) := floatQuery fl d d.calibration "Calibration:TargetCount" 0
/-- msat/thornsds_db1/thornsds_db1.cpp:387-391 `get_channel_Calibration_Vc` -/
def calVc {F : Type} (fl : Floats F) (d : Db1 F) := floatQuery fl d d.calibration "Calibration:Vc" 0
/-- msat/thornsds_db1/thornsds_db1.cpp:393-397 `get_channel_Calibration_A` -/
def calA {F : Type} (fl : Floats F) (d : Db1 F) := floatQuery fl d d.calibration "Calibration:A" 0
/-- msat/thornsds_db1/thornsds_db1.cpp:399-403 `get_channel_Calibration_B` -/
def calB {F : Type} (fl : Floats F) (d : Db1 F) := floatQuery fl d d.calibration "Calibration:B" 0

/-- msat/thornsds_db1/thornsds_db1.cpp:405-412 `get_channel_Calibration_value_calibrated` -/
def valueCalibrated {F : Type} (fl : Floats F) (d : Db1 F) (count : Int) : Outcome F :=
  if isDataOk d then
    if count < 0 ∧ count ≥ d.ncalval then .ok (fl.const 0)
    else do
      let var ← channelVariable d
      let code ← variableCode d
      match var, code with
      | some var, some code =>
        getFloat fl d.calibration (snprintf 32 (var ++ str ":" ++ code ++ str "(" ++ fmt0 1 count ++ str ")")) 0
      | _, _ => .ub
  else .ok (fl.const 0)

/-- `(int) (pow(2.0, (double) n))`: the conversion is undefined when the result does not fit. -/
def powerOfTwo (n : Int) : Outcome Int :=
  if n < 0 then .ok 0
  else if n ≤ 30 then .ok (2 ^ n.toNat)
  else .ub

/-- msat/thornsds_db1/thornsds_db1.cpp:123-124: the loop over the counts, from `i`, `n` rounds remaining. -/
def calLoop {F : Type} (fl : Floats F) (d : Db1 F) (i : Nat) : Nat → Outcome (List F)
  | 0 => .ok []
  | n + 1 => do
    let v ← valueCalibrated fl d i
    let vs ← calLoop fl d (i + 1) n
    .ok (v :: vs)

/-- msat/thornsds_db1/thornsds_db1.cpp:119-124 -/
def afterRead {F : Type} (fl : Floats F) (d : Db1 F) (chname : Bytes) : Outcome (Db1 F) := do
  let ch ← channelNumber d chname
  let d := { d with chnum := ch }
  let bits ← bitsPerPixel d
  let n ← powerOfTwo bits
  let d := { d with ncalval := n }
  let vs ← calLoop fl d 0 n.toNat
  .ok { d with calValues := some vs }

/-- msat/thornsds_db1/thornsds_db1.cpp:106-124: `fread` of `st_size` bytes in one piece returns 0 if there are
none, or fewer in the file; the rest of the buffer would then be undefined. -/
def readRaw {F : Type} (fl : Floats F) (d : Db1 F) (file : Option File) (chname : Bytes) : Outcome (Db1 F) :=
  match file with
  | none => .ok d
  | some f =>
    if f.readable then
      match d.size with
      | none => .ub
      | some n =>
        let d := { d with rawdata := some (f.content.take n) }
        if n = 0 ∨ f.content.length < n then .ok d else afterRead fl d chname
    else .ok d

/-- msat/thornsds_db1/thornsds_db1.cpp:90-127 `set_channel`; `sprintf` of a null pointer is undefined. -/
def setChannel {F : Type} (fl : Floats F) (fs : Files) (d : Db1 F) (chname : Bytes) : Outcome (Db1 F) := do
  let (_, d) ← hasChannel fs d chname
  match d.dirname with
  | none => .ub
  | some dir => do
    let iname ← sprintfPath (dir ++ str "/" ++ chname ++ str ".Calibration")
    let cal ← iniFile fs iname
    let d := { d with calibration := cal }
    let iname ← sprintfPath (dir ++ str "/" ++ chname ++ str ".RAW")
    readRaw fl d (fs iname) chname

/-- msat/thornsds_db1/thornsds_db1.cpp:414-418 `get_RAW_data` -/
def rawData {F : Type} (d : Db1 F) : Option Bytes := if isDataOk d then d.rawdata else none
/-- msat/thornsds_db1/thornsds_db1.cpp:420-424 `get_calibration` -/
def calibrationTable {F : Type} (d : Db1 F) : Option (List F) := if isDataOk d then d.calValues else none
/-- msat/thornsds_db1/thornsds_db1.cpp:426-430 `get_number_of_calibration` -/
def numberOfCalibration {F : Type} (d : Db1 F) : Int := if isDataOk d then d.ncalval else 0
/-- msat/thornsds_db1/thornsds_db1.cpp:432-436 `get_raw_data_size` -/
def rawDataSize {F : Type} (d : Db1 F) : Outcome Int :=
  if isDataOk d then match d.size with | none => .ub | some n => .ok (toInt n) else .ok 0
/-- msat/thornsds_db1/thornsds_db1.cpp:438-442 `get_raw_data_nvals` -/
def rawDataNvals {F : Type} (d : Db1 F) : Outcome Int :=
  if isDataOk d then sizeInShorts d else .ok 0

/-- msat/thornsds_db1/thornsds_db1.cpp:444-497 `operator<<`: only that texts are printed, which is undefined for
a null pointer. -/
def print {F : Type} (d : Db1 F) : Outcome (List Bytes) := do
  let a ← aoiName d
  let b ← aoiProjection d
  let c ← stationName d
  let e ← satelliteName d
  let f ← scheduleStart d
  let g ← scheduleEnd d
  let h ← scheduleLocation d
  let i ← scheduleSlot d
  let j ← imageSensor d
  let k ← channelName d
  let l ← channelVariable d
  let m ← channelUnits d
  match a, b, c, e, f, g with
  | some a, some b, some c, some e, some f, some g =>
    match h, i, j, k, l, m with
    | some h, some i, some j, some k, some l, some m => .ok [a, b, c, e, f, g, h, i, j, k, l, m]
    | _, _, _, _, _, _ => .ub
  | _, _, _, _, _, _ => .ub

end Msat.Thornsds
