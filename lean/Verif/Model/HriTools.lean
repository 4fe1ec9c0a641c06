import Verif.Model.HriCal
import Verif.Model.Text

/-
tools/hri: HRI2NetCDF, and the parts of msat/hri it uses that are not in the other models.

Simplifications: numbers are exact (real numbers; the orbit radius is the one of the interpretation data, without its rounding to
`float`); once a NetCDF file is created, writing to it succeeds (the disk is not full); messages are not modelled; the machine is little
endian.
-/
namespace Msat.HriTools
open Msat Hri
open Msat.Text (fmt0 decimal)

/-- The members of `struct tm` that the program uses or that `mktime` looks at; seconds are zero. -/
structure Tm where
  year : Int
  month : Int
  day : Int
  hour : Int
  minute : Int
  isdst : Int
deriving DecidableEq, Repr

/-- msat/hri/HRI_subframe_identification.cpp:96-101: `tmtime` -/
def tmOf (i : Ident) : Tm := ⟨i.year - 1900, i.month - 1, i.day, i.hour, i.minute, 0⟩

/-- What the program finds: the content of the file named on the command line if it can be opened; the size of `unsigned long`; how much
local time is ahead of UTC at noon of the first of January; `mktime`, with what it changes its argument to; the variable `timezone`;
whether a file can be created; what is in the coefficients that are not set. -/
structure World where
  input : Option Bytes
  longSize : Nat
  utcoff : Int
  mktime : Tm → Int × Tm
  timezone : Int
  creates : Bytes → Bool
  garbage : ℝ × ℝ

/-- The NetCDF file of tools/hri/HRI2NetCDF.cpp:77-160, without the constant attributes `Antenna`, `Receiver`, `NortPolar`, `NorthSouth`,
`Institution`, `Conventions`, `history` and those of the variables.  A sample is `none` if the byte of the image was never written. -/
structure NcImage where
  satellite : Bytes
  time : Bytes
  areaName : Bytes
  projection : Bytes
  columns : Nat
  lines : Nat
  sampleX : Nat
  sampleY : Nat
  columnScaleFactor : Int
  lineScaleFactor : Int
  columnOffset : Int
  lineOffset : Int
  orbitRadius : Option Value
  longitude : Int
  title : Bytes
  lineDim : Nat
  columnDim : Nat
  calibration : Nat × (Nat → Option ℝ)
  units : String
  seconds : Int
  variable_ : String
  chnum : Nat
  samples : List (Option Int)

/-- How the program ends and what NetCDF files it has written. -/
structure Run where
  status : Outcome Nat
  files : List (Bytes × NcImage)

/-- msat/hri/HRI_image.cpp:61-238 `set_format_band`: `name` -/
def nameOf : Format → Band → String
  | _, .IR => "IR"
  | _, .WV => "WV"
  | .X, .VH => "VH"
  | _, .VH => "VIS"
  | _, .VIS => "VIS"

/-- msat/hri/HRI_image.cpp:61-238 `set_format_band`: `samplex` and `sampley` -/
def sampleOf : Format → Band → Nat
  | .A, _ => 1
  | .B, .VIS => 1
  | _, _ => 2

/-- msat/hri/HRI_image.h:55-60, HRI_image.cpp:304-307 `get_image_band` -/
def bandNumber : Band → Nat
  | .IR => 0
  | .WV => 1
  | .VIS => 2
  | .VH => 3

/-- msat/hri/HRI.cpp:425-431 `get_area_name` -/
def areaName (l : Label) : Bytes := if l.isA then str "AFormat" else if l.isB then str "BFormat" else str "XFormat"

/-- `sprintf` to an array of `n` characters. -/
def sprintf (n : Nat) (text : Bytes) : Outcome Bytes := if text.length < n then .ok text else .ub

/-- `%4d`: filled with blanks. -/
def blank4 (v : Int) : Bytes :=
  let s := if v < 0 then 45 :: decimal v.natAbs else decimal v.natAbs
  List.replicate (4 - s.length) 32 ++ s

/-- `%3.1f` of a whole number. -/
def fixed1 (v : Int) : Bytes := (if v < 0 then 45 :: decimal v.natAbs else decimal v.natAbs) ++ str ".0"

/-- tools/hri/HRI2NetCDF.cpp:85-87 -/
def timeText (t : Tm) : Bytes :=
  fmt0 4 (t.year + 1900) ++ str "-" ++ fmt0 2 (t.month + 1) ++ str "-" ++ fmt0 2 t.day ++ str " " ++ fmt0 2 t.hour ++ str ":" ++
    fmt0 2 t.minute ++ str ":00 UTC"

/-- msat/hri/HRI.cpp:395-398 `get_satellite_name` -/
def satelliteText (i : Ident) : Bytes := str (String.ofList i.satellite)

/-- tools/hri/HRI2NetCDF.cpp:72-76 -/
def ncName (F : File) (t : Tm) (name : String) : Bytes :=
  satelliteText F.ident ++ str "_" ++ areaName F.label ++ str "_" ++ str name ++ str "_" ++ blank4 (t.year + 1900) ++ fmt0 2 (t.month + 1) ++
    fmt0 2 t.day ++ str "_" ++ fmt0 2 t.hour ++ fmt0 2 t.minute ++ str ".nc"

/-- A byte as `ncbyte`, a `signed char`. -/
def ncbyte (v : UInt8) : Int := if v.toNat < 128 then v.toNat else (v.toNat : Int) - 256

/-- `put(data, 1, hg, wd)`, tools/hri/HRI2NetCDF.cpp:157 -/
def putImage (img : Image) : Outcome (List (Option Int)) :=
  if img.nlines * img.npixels ≤ img.data.length then .ok ((img.data.take (img.nlines * img.npixels)).map (Option.map ncbyte)) else .ub

/-- tools/hri/HRI2NetCDF.cpp:83-157: what is put in the file of image `k`, of the format and band `fb`. -/
noncomputable def content (w : World) (F : File) (code : List Char) (g : Geolocation) (t : Tm) (k : Nat) (fb : Format × Band) (img : Image) :
    Outcome NcImage := do
  let reftime ← sprintf 64 (timeText t)
  let projname ← sprintf 16 (str "GEOS(" ++ fixed1 F.ident.longitude ++ str ")")
  let samples ← putImage img
  pure {
    satellite := satelliteText F.ident, time := reftime, areaName := areaName F.label, projection := projname,
    columns := img.npixels, lines := img.nlines, sampleX := sampleOf fb.1 fb.2, sampleY := sampleOf fb.1 fb.2,
    columnScaleFactor := g.cfac, lineScaleFactor := g.lfac, columnOffset := g.coff, lineOffset := g.loff,
    orbitRadius := F.interp.1.lookup "imag.satdis", longitude := F.ident.longitude,
    title := (satelliteText F.ident ++ str " product for " ++ reftime).take 127, lineDim := img.nlines, columnDim := img.npixels,
    calibration := (2 ^ 8, calibrationOf w.garbage code F.ident F.interp.1 k fb.2), units := unitsOf fb.2,
    seconds := (w.mktime t).1 - 946684800 - w.timezone, variable_ := nameOf fb.1 fb.2, chnum := bandNumber fb.2, samples := samples }

/-- tools/hri/HRI2NetCDF.cpp:69-164: the images from number `k` on.  `mktime` changes the `struct tm` of the identification, which the
next image uses. -/
noncomputable def images (w : World) (F : File) (code : List Char) (g : Geolocation) :
    Nat → Tm → List ((Format × Band) × Image) → Run
  | _, _, [] => ⟨.ok 0, []⟩
  | k, t, (fb, img) :: rest =>
    match sprintf 1024 (ncName F t (nameOf fb.1 fb.2)) with
    | .ok name =>
      if w.creates name = false then ⟨.ok 1, []⟩
      else match content w F code g t k fb img with
        | .ok f =>
          let r := images w F code g (k + 1) (w.mktime t).2 rest
          ⟨r.status, (name, f) :: r.files⟩
        | .throws _ => ⟨.terminate, []⟩
        | .terminate => ⟨.terminate, []⟩
        | .ub => ⟨.ub, []⟩
        | .diverges => ⟨.diverges, []⟩
    | _ => ⟨.ub, []⟩

/-- tools/hri/HRI2NetCDF.cpp:65-164 after `readfrom`.  The number of images is not set if `readfrom` has returned early. -/
noncomputable def export_ (w : World) (F : File) : Run :=
  match F.images with
  | none => ⟨.ub, []⟩
  | some imgs =>
    match F.label.formatCode with
    | .ok code => match imagesOf code, geolocationOf code with
      | .ok fbs, .ok g => images w F code g 0 (tmOf F.ident) (fbs.zip imgs)
      | _, _ => ⟨.terminate, []⟩
    | _ => ⟨.terminate, []⟩

/-- tools/hri/HRI2NetCDF.cpp:171-190 `main`; the arguments after the name of the program. -/
noncomputable def main (w : World) (args : List Bytes) : Run :=
  match args with
  | [] => ⟨.ok 1, []⟩
  | a :: _ =>
    if a = str "-V" then ⟨.ok 0, []⟩
    else match w.input with
      | none => ⟨.terminate, []⟩
      | some file => match readfrom w.longSize false false w.utcoff (List.replicate 2500 0) file with
        | .ok F => export_ w F
        | .throws _ => ⟨.terminate, []⟩
        | .terminate => ⟨.terminate, []⟩
        | .ub => ⟨.ub, []⟩
        | .diverges => ⟨.diverges, []⟩

end Msat.HriTools
