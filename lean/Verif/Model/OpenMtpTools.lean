import Verif.Model.OpenMTP
import Mathlib.Analysis.SpecialFunctions.Log.Basic

/-
tools/openmtp: OpenMTP_to_NetCDF and OpenMTP_info, and the parts of msat/openmtp they use that are not in Model/OpenMTP.lean.

Simplifications: `float` and `double` arithmetic is exact (real numbers; logarithms of zero and divisions by zero are told
apart); once a NetCDF file is created, writing to it succeeds (the disk is not full); what is printed is not modelled.
-/
namespace Msat.MtpTools
open Msat Mtp
open Msat.Text (fmt0)

/-- A text in a fixed number of bytes, copied to an array that ends with a zero. -/
def textAt (header : Bytes) (off n : Nat) : Bytes := ((header.drop off).take n).takeWhile (· ≠ 0)

/-- msat/openmtp/OpenMTP_binary_header.cpp:107-113 `satellite_name`, msat/openmtp/OpenMTP.cpp:86-89 `get_satellite_code` -/
def satelliteCode (header : Bytes) : Bytes := textAt header 32 2

/-- msat/openmtp/OpenMTP.cpp:174-179 `get_field_name`, with msat/openmtp/OpenMTP_binary_header.cpp:99-105 `field_name`: the eight
bytes of the header from the second on. -/
def fieldName (header : Bytes) : Bytes := textAt header 1 7

/-- msat/openmtp/OpenMTP.cpp:91-96 `get_satellite_name`; a text is thrown. -/
def satelliteName (header : Bytes) : Outcome Bytes :=
  if satelliteCode header = str "M7" then .ok (str "METEOSAT 7")
  else if satelliteCode header = str "M6" then .ok (str "METEOSAT 6")
  else .throws "Can only manage METEOSAT OpenMTP files\n"

/-- msat/openmtp/OpenMTP_binary_header.cpp:304-307 `subsatellite_point`: the bits of a `float`. -/
def subsatellitePoint (header : Bytes) : BitVec 32 :=
  Machine.getR4 .little false (header.getD 95 0) (header.getD 96 0) (header.getD 97 0) (header.getD 98 0)

/-- msat/openmtp/OpenMTP_binary_header.cpp:244-247 `mpef_calibration_coefficient` -/
def calibrationCoefficient (header : Bytes) : Outcome Rat := r4FromChar5 (header.drop 44)

/-- msat/openmtp/OpenMTP_binary_header.cpp:248-251 `mpef_calibration_space_count` -/
def spaceCount (header : Bytes) : Outcome Rat := r4FromChar3 (header.drop 49)

/-- The loops of msat/openmtp/OpenMTP_image.cpp:79-84 and 88-93: `b / (log(rad) - a)`.  The logarithm of zero is minus infinity
and the quotient zero; the logarithm of a negative number and a division by zero give no number. -/
noncomputable def temperature (b a : ℝ) (cc sc : Rat) (i : Nat) : Option ℝ :=
  let rad : ℝ := if (i : Rat) < sc then 0 else ((cc * (i - sc) : Rat) : ℝ)
  if rad = 0 then some 0
  else if rad < 0 then none
  else if Real.log rad - a = 0 then none
  else some (b / (Real.log rad - a))

/-- msat/openmtp/OpenMTP_image.cpp:61-101: the table of 256 calibrated values. -/
noncomputable def calibration (header : Bytes) : Outcome (Nat → Option ℝ) :=
  if satelliteCode header ≠ str "M7" then .ok fun _ => some 1
  else do
    let cc ← calibrationCoefficient header
    let sc ← spaceCount header
    if isIrData header then pure (temperature (-1255.5465) 6.9618 cc sc)
    else if isWvData header then pure (temperature (-2233.4882) 9.2477 cc sc)
    else if isVisData header then pure fun i => some (100 * (i / 255))
    else pure fun _ => some 1

/-- What the program finds: the content of the file named on the command line if it can be opened, `mktime` of year, month,
day, hour and minute where the other members are zero, the global variable `timezone`, and whether a file can be created. -/
structure World where
  input : Option Bytes
  mktime : Int → Int → Int → Int → Int → Int
  timezone : Int
  creates : Bytes → Bool

/-- The NetCDF file of tools/openmtp/OpenMTP_to_NetCDF.cpp:70-188, without the constant attributes `Antenna`, `Receiver`,
`Institution`, `Conventions`, `history`, the constant orbit radius and those of the variables. -/
structure NcImage where
  satellite : Bytes
  time : Bytes
  areaName : Bytes
  projection : Bytes
  columns : Int
  lines : Int
  sampleX : Int
  sampleY : Int
  columnScaleFactor : Int
  lineScaleFactor : Int
  columnOffset : Int
  lineOffset : Int
  longitude : BitVec 32
  title : Bytes
  lineDim : Int
  columnDim : Int
  calibration : Nat × (Nat → Option ℝ)
  units : String
  seconds : Int
  variable_ : String
  samples : List Int

/-- How a program ends, what NetCDF file it has created and what it has put there in the end. -/
structure Run where
  status : Outcome Nat
  created : Option Bytes
  file : Option NcImage

/-- `sprintf` to an array of `n` characters. -/
def sprintf (n : Nat) (text : Bytes) : Outcome Bytes := if text.length < n then .ok text else .ub

/-- `"%04d-%02d-%02d %02d:%02d:00 UTC"` -/
def timeText (t : TM) : Bytes :=
  fmt0 4 (t.tm_year + 1900) ++ str "-" ++ fmt0 2 (t.tm_mon + 1) ++ str "-" ++ fmt0 2 t.tm_mday ++ str " " ++
    fmt0 2 t.tm_hour ++ str ":" ++ fmt0 2 t.tm_min ++ str ":00 UTC"

/-- Area name, `cfac`, `lfac`, `coff`, `loff` and `scale`. -/
structure Placement where
  area : Bytes
  cfac : Int
  lfac : Int
  coff : Int
  loff : Int
  scale : Int
deriving DecidableEq, Repr

/-- tools/openmtp/OpenMTP_to_NetCDF.cpp:85-117 -/
def placement (header : Bytes) : Outcome Placement :=
  if isAFormat header then
    if isIrData header || isWvData header then .ok ⟨str "AFormat", -9102222, -9102222, 1248, 1249, 1⟩
    else if isVisData header then .ok ⟨str "AFormat", -18204444, -18204444, 2500, 2500, 1⟩
    else .throws "Unsupported AFormat image (?)\n"
  else if isBFormat header then .ok ⟨str "BFormat", -18204444, -18204444, 1248, -1118, 2⟩
  else .throws "Currently supporting only A or B format images\n"

/-- A byte as `ncbyte`, a `signed char`. -/
def ncbyte (v : UInt8) : Int := if v.toNat < 128 then v.toNat else (v.toNat : Int) - 256

/-- tools/openmtp/OpenMTP_to_NetCDF.cpp:68-69 -/
def ncName (header : Bytes) : Bytes :=
  satelliteCode header ++ str "_" ++ fieldName header ++ str "_" ++ getTimestr header ++ str ".nc"

/-- tools/openmtp/OpenMTP_to_NetCDF.cpp:76-185: what is put in the file.  The array of samples has as many as lines and columns
tell (see `imageRead`). -/
noncomputable def content (w : World) (p : Product) : Outcome NcImage := do
  let h := p.header
  let t := getDatetime h
  let satellite ← satelliteName h
  let reftime ← sprintf 64 (timeText t)
  let a ← placement h
  let title ← sprintf 64 (str "OpenMTP " ++ fieldName h ++ str " product for " ++ timeText t)
  let cal ← calibration h
  let name ← getChname h
  let unit ← getChunit h
  match p.image with
  | none => .ub
  | some image => pure {
      satellite := satellite, time := reftime, areaName := a.area, projection := str "GEOS(0.0)",
      columns := npixels h * a.scale, lines := nlines h * a.scale, sampleX := a.scale, sampleY := a.scale,
      columnScaleFactor := a.cfac, lineScaleFactor := a.lfac, columnOffset := a.coff, lineOffset := a.loff,
      longitude := subsatellitePoint h, title := title, lineDim := nlines h, columnDim := npixels h,
      calibration := (2 ^ 8, cal), units := unit,
      seconds := w.mktime (t.tm_year + 1900) (t.tm_mon + 1) t.tm_mday t.tm_hour t.tm_min - 946684800 - w.timezone,
      variable_ := name, samples := image.map ncbyte }

/-- The destructor of the image, msat/openmtp/OpenMTP_image.cpp:42: what `new []` has given is released by `delete`, which
is undefined. -/
def release (p : Product) : Outcome Unit := if p.image.isSome then .ub else .ok ()

/-- An exception that nothing catches. -/
def uncaught {α : Type} (o : Outcome α) : Outcome α :=
  match o with
  | .throws _ => .terminate
  | o => o

/-- msat/openmtp/OpenMTP.cpp:41-51 `open`: `throw;` without an exception ends the program. -/
def openFile (w : World) : Outcome Product :=
  match w.input with
  | none => .terminate
  | some file => uncaught (read Product.new file)

/-- The rest of `main` after the file is open, tools/openmtp/OpenMTP_to_NetCDF.cpp:65-191 and 210-216. -/
noncomputable def export_ (w : World) (p : Product) : Run :=
  let name := ncName p.header
  if w.creates name = false then ⟨release p >>= fun _ => .ok 1, none, none⟩
  else match content w p with
    | .ok f => ⟨release p >>= fun _ => .ok 0, some name, some f⟩
    | .throws _ => ⟨.terminate, some name, none⟩
    | .ub => ⟨.ub, some name, none⟩
    | .terminate => ⟨.terminate, some name, none⟩
    | .diverges => ⟨.diverges, some name, none⟩

/-- tools/openmtp/OpenMTP_to_NetCDF.cpp:197-217 `main`; the arguments after the name of the program. -/
noncomputable def toNetcdf (w : World) (args : List Bytes) : Run :=
  match args with
  | [] => ⟨.ok 1, none, none⟩
  | a :: _ =>
    if a = str "-V" then ⟨.ok 0, none, none⟩
    else match openFile w with
      | .ok p => export_ w p
      | .throws e => ⟨.throws e, none, none⟩
      | .ub => ⟨.ub, none, none⟩
      | .terminate => ⟨.terminate, none, none⟩
      | .diverges => ⟨.diverges, none, none⟩

/-- tools/openmtp/OpenMTP_info.cc:36-73: the status. -/
def info (w : World) (args : List Bytes) : Outcome Nat :=
  match args with
  | [] => .ok 1
  | a :: _ =>
    if a = str "-V" then .ok 0
    else do
      let p ← openFile w
      release p
      pure 0

end Msat.MtpTools
