import Verif.Model.HritFile
import Verif.Model.XritDataset
import Verif.Model.Text
import Verif.Model.HritTexts

/-
tools/hrit/XRIT2Image.cpp and tools/hrit/XRIT2NetCDF.cpp: the segments of a product put together and written to a picture or
to a NetCDF file.

Simplifications: the options have been read by `getopt`; what is printed is not modelled, neither are the files that the
reading of files that are not images writes; normalising, composing with an overlay and scaling are done by ImageMagick, here
it is only recorded that they have been asked for; the prologue used by XRIT2NetCDF has been read (see Model/Prologue.lean).
-/
namespace Msat.XritTools
open Hrit StdString
open Xrit (FileAccess glob underscoreit slash dash under)

/-- An exception that nothing catches ends the program. -/
def uncaught {α : Type} : Outcome α → Outcome α
  | .throws _ => .terminate
  | x => x

/-- The value of an `int` expression: an overflow is undefined. -/
def int32 (v : Int) : Outcome Int := if -2 ^ 31 ≤ v ∧ v < 2 ^ 31 then .ok v else .ub

/-- tools/hrit/XRIT2Image.cpp:143-152 and tools/hrit/XRIT2NetCDF.cpp:189-197: the pattern of the segments.  `underscoreit`
(XRIT2Image.cpp:274-288, XRIT2NetCDF.cpp:283-297) does what the one of msat/xrit/fileaccess.cpp does. -/
def pattern (fa : FileAccess) : Bytes :=
  fa.directory ++ [slash] ++ fa.resolution ++ str "-???-??????-" ++ underscoreit fa.productid1 12 ++ [dash] ++
    underscoreit fa.productid2 9 ++ [dash] ++ str "0?????___" ++ [dash] ++ fa.timing ++ [dash] ++ str "?_"

/-- tools/hrit/XRIT2Image.cpp:171-185 and tools/hrit/XRIT2NetCDF.cpp:214-228: header and data of every file, with objects of
their own; `none` if one of them cannot be opened. -/
def readFiles (env : Env) (disk : Disk) : List Bytes → Outcome (Option (List (Header × Data)))
  | [] => .ok (some [])
  | f :: fs =>
    match disk f with
    | none => .ok none
    | some file => do
      let (h, d, _) ← uncaught (readFile env file)
      let r ← readFiles env disk fs
      pure (r.map fun l => (h, d) :: l)

/-- The loop of tools/hrit/XRIT2Image.cpp:201-202 and tools/hrit/XRIT2NetCDF.cpp:245-246 from file `i` on: `segsindexes`, where
`none` is -1. -/
def place : List (Header × Data) → Nat → List (Option Nat) → Outcome (List (Option Nat))
  | [], _, idx => .ok idx
  | (h, _) :: rest, i, idx =>
    match h.segmentId with
    | none => .ub
    | some s =>
      if s.sequence = 0 ∨ idx.length < s.sequence then .ub
      else place rest (i + 1) (idx.set (s.sequence - 1) (some i))

/-- The loop of tools/hrit/XRIT2Image.cpp:220-226 and tools/hrit/XRIT2NetCDF.cpp:329-335: `n` samples of every segment, zeros
without one. -/
def assemble (segs : List (Header × Data)) (n : Nat) : List (Option Nat) → Outcome (List Nat)
  | [] => .ok []
  | none :: r => do
    let t ← assemble segs n r
    pure (List.replicate n 0 ++ t)
  | some i :: r =>
    match segs[i]?.bind fun s => s.2.image with
    | none => .ub
    | some img =>
      if img.samples.length < n then .ub
      else do
        let t ← assemble segs n r
        pure (img.samples.take n ++ t)

/-- What the common part of the two programs ends with: a status, or the header of the first file and the samples. -/
inductive Gathered where
  | status (n : Nat)
  | samples (h : Header) (s : SegmentId) (i : ImageStruct) (px : List Nat)

/-- tools/hrit/XRIT2Image.cpp:189-202, 212-226 and tools/hrit/XRIT2NetCDF.cpp:232-246, 319-335, from the files read. -/
def gatherRead (env : Env) (segs : List (Header × Data)) : Outcome Gathered :=
  match segs.head?.bind fun s => s.1.segmentId with
  | none => .ub
  | some s =>
    if s.format = 0 then .ok (.status 0)
    else do
      let idx ← place segs 0 (List.replicate s.plannedEnd none)
      match segs.head?.map (·.1), segs.head?.bind fun s => s.1.imageStructure with
      | some h, some i => do
        let _ ← uncaught (new env (2 * (s.plannedEnd * (i.columns * i.lines))))
        let px ← assemble segs (i.columns * i.lines) idx
        .ok (.samples h s i px)
      | _, _ => .ub

/-- tools/hrit/XRIT2Image.cpp:154-226, tools/hrit/XRIT2NetCDF.cpp:199-246 and 319-335 -/
def gather (env : Env) (ls : Bytes → List Bytes) (disk : Disk) (fa : FileAccess) : Outcome Gathered :=
  if glob ls (pattern fa) = [] then .ok (.status 1)
  else do
    let r ← readFiles env disk (glob ls (pattern fa))
    match r with
    | none => .ok (.status 1)
    | some segs => gatherRead env segs

/-! ### XRIT2Image -/

/-- The options of the two programs that identify a product. -/
structure Asked where
  directory : Option Bytes
  resolution : Option Bytes
  productid1 : Option Bytes
  productid2 : Option Bytes
  timing : Option Bytes

/-- tools/hrit/XRIT2Image.cpp:136-145 and tools/hrit/XRIT2NetCDF.cpp:137-157: `none` if the usage is shown. -/
def Asked.product (a : Asked) : Option FileAccess :=
  match a.resolution, a.productid1, a.productid2, a.timing with
  | some r, some p1, some p2, some t => some ⟨a.directory.getD (str "."), r, p1, p2, t⟩
  | _, _, _, _ => none

/-- A picture in shades of grey: its rows one after the other, and what has been asked to ImageMagick. -/
structure Picture where
  width : Nat
  height : Nat
  samples : List Nat
  normalized : Bool
  overlay : Option Bytes
deriving DecidableEq, Repr

/-- What is left of a run: the status and the file written, if any. -/
structure ImageRun where
  status : Nat
  file : Option (Bytes × Picture)
deriving DecidableEq, Repr

/-- tools/hrit/XRIT2Image.cpp:204-210 -/
def imageName (fa : FileAccess) (format : Option Bytes) : Bytes :=
  fa.resolution ++ str "-" ++ fa.productid1 ++ str "-" ++ fa.productid2 ++ str "-" ++ fa.timing ++
    (match format with | some f => str "." ++ f | none => str ".jpg")

/-- tools/hrit/XRIT2Image.cpp:228-257: ImageMagick throws an exception for a picture without pixels, and if the file cannot be
written (`creates`).  A rotation by 180 degrees inverts the order of the pixels. -/
def writeImage (creates : Bytes → Bool) (fa : FileAccess) (format : Option Bytes) (normalize : Bool) (overlay : Option Bytes)
    (s : SegmentId) (i : ImageStruct) (px : List Nat) : Outcome ImageRun := do
  let height ← int32 (i.lines * s.plannedEnd)
  if i.columns = 0 ∨ height = 0 ∨ creates (imageName fa format) = false then .terminate
  else .ok ⟨0, some (imageName fa format, {
    width := i.columns, height := height.toNat, samples := px.reverse, normalized := normalize,
    overlay := if s.channel < 12 then overlay else none })⟩

/-- tools/hrit/XRIT2Image.cpp:136-258: what `main` does after reading the options. -/
def xrit2Image (env : Env) (ls : Bytes → List Bytes) (disk : Disk) (creates : Bytes → Bool) (a : Asked)
    (format : Option Bytes) (normalize : Bool) (overlay : Option Bytes) : Outcome ImageRun :=
  match a.product with
  | none => .ok ⟨1, none⟩
  | some fa => do
    match ← gather env ls disk fa with
    | .status n => .ok ⟨n, none⟩
    | .samples _ s i px => writeImage creates fa format normalize overlay s i px

/-! ### XRIT2NetCDF -/

/-- The global variables `AreaLinStart`, `AreaNlin`, `AreaPixStart`, `AreaNpix`. -/
structure Area where
  linStart : Int
  nLin : Int
  pixStart : Int
  nPix : Int
deriving DecidableEq, Repr

/-- `"%d,%d,%d,%d"` -/
def areaFormat : List Text.Directive := [.int none, .lit 44, .int none, .lit 44, .int none, .lit 44, .int none]

/-- tools/hrit/XRIT2NetCDF.cpp:115-119 with the initial values of line 58: variables that `sscanf` does not assign keep them. -/
def areaOf (text : Bytes) : Outcome Area := do
  let v := Text.scanf areaFormat text
  let p ← int32 (v[2]?.getD 1 - 1)
  let l ← int32 (v[0]?.getD 1 - 1)
  pure { linStart := l, nLin := v[1]?.getD 0, pixStart := p, nPix := v[3]?.getD 0 }

/-- One of the tests of tools/hrit/XRIT2NetCDF.cpp:342-355; `throw;` without an exception ends the program. -/
def inside (start n total : Int) : Outcome Unit :=
  if start < 0 then .terminate
  else do
    let d ← int32 (total - n)
    if start > d then .terminate
    else do
      let e ← int32 (total - start)
      if n > e then .terminate else .ok ()

/-- The loop of tools/hrit/XRIT2NetCDF.cpp:359-362, `k` rows from row `i` on. -/
def areaRows (px : List Nat) (npix : Int) (a : Area) (i : Int) : Nat → Outcome (List Nat)
  | 0 => .ok []
  | k + 1 => do
    let _ ← int32 (i * a.nPix)
    let off ← int32 ((a.linStart + i) * npix)
    if off + a.pixStart < 0 ∨ a.nPix < 0 ∨ px.length < off + a.pixStart + a.nPix then .ub
    else do
      let rest ← areaRows px npix a (i + 1) k
      pure ((px.drop (off + a.pixStart).toNat).take a.nPix.toNat ++ rest)

/-- tools/hrit/XRIT2NetCDF.cpp:340-371 and the tests of lines 437-440: the area and its samples.  A negative size is a very
large `size_t`, for which `new` throws an exception; a dimension of no elements cannot be made (0 is the unlimited dimension,
of which there is one already). -/
def subarea (env : Env) (px : List Nat) (npix nlin : Int) : Option Area → Outcome (Area × List Nat)
  | none =>
    if npix ≤ 0 ∨ nlin ≤ 0 then .terminate
    else .ok ({ linStart := 1, nLin := nlin, pixStart := 1, nPix := npix }, px)
  | some a => do
    inside a.linStart a.nLin nlin
    inside a.pixStart a.nPix npix
    let size ← int32 (a.nPix * a.nLin)
    if size < 0 then .terminate
    else do
      let _ ← uncaught (new env (2 * size.toNat))
      let rows ← areaRows px npix a 0 a.nLin.toNat
      if a.nPix ≤ 0 ∨ a.nLin ≤ 0 then .terminate else .ok (a, rows)

/-- tools/hrit/XRIT2NetCDF.cpp:274-281 `chname` -/
def chname (text : Bytes) : Bytes := text.map fun c => if c = 32 ∨ c = 46 then under else c

/-- The characters of a text (all of them are ASCII). -/
def bytesOf (s : String) : Bytes := s.toList.map fun c => UInt8.ofNat c.toNat

/-- tools/hrit/XRIT2NetCDF.cpp:383-384: `channel` -/
def channelText (s : SegmentId) : Bytes := chname (bytesOf (HritTexts.channelName s.spacecraft s.channel))

/-- What the program finds around it: `mktime` of the six parts of a time where `tm_isdst` is 0, as `gmtime` leaves it, the
global variable `timezone`, and whether a file can be created. -/
structure World where
  mktime : Int → Int → Int → Int → Int → Int → Int
  timezone : Int
  creates : Bytes → Bool

/-- tools/hrit/XRIT2NetCDF.cpp:387-389: `"%s_%4d%02d%02d_%02d%02d.nc"`; years have four digits, so that `%4d` writes no blank. -/
def ncName (channel : Bytes) (y mo d h mi : Nat) : Bytes :=
  channel ++ str "_" ++ Text.decimal y ++ Text.fmt0 2 mo ++ Text.fmt0 2 d ++ str "_" ++ Text.fmt0 2 h ++ Text.fmt0 2 mi ++
    str ".nc"

/-- tools/hrit/XRIT2NetCDF.cpp:399-401: `"%04d-%02d-%02d %02d:%02d:00 UTC"` -/
def timeText (y mo d h mi : Nat) : Bytes :=
  Text.fmt0 4 y ++ str "-" ++ Text.fmt0 2 mo ++ str "-" ++ Text.fmt0 2 d ++ str " " ++ Text.fmt0 2 h ++ str ":" ++
    Text.fmt0 2 mi ++ str ":00 UTC"

/-- msat/hrit/MSG_data_RadiometricProc.cpp:576-624 `get_calibration`, for any channel: `ImageCalibration` has 12 elements. -/
noncomputable def calibration (cal : List (ℝ × ℝ)) (channel bpp : Nat) : Outcome (Nat × (Nat → Option ℝ)) :=
  if 3 < channel ∧ channel < 12 then XritDataset.getCalibration cal channel bpp
  else if 31 ≤ bpp then .ub
  else if channel = 0 then .ub
  else match cal[channel - 1]? with
    | some (slope, offset) => .ok (2 ^ bpp, fun i => some (i * slope + offset))
    | none => .ub

/-- The NetCDF file, in tools/hrit/XRIT2NetCDF.cpp:390-476: attributes, variables and samples (as they are in memory; the file
has `short`s).  Without `Projection`, `Longitude` and `Orbit_Radius` (numbers of the projection name, see
Model/HritHeader.lean) and the constant attributes. -/
structure NcImage where
  satellite : Bytes
  time : Bytes
  columns : Int
  lines : Int
  areaStartPix : Int
  areaStartLin : Int
  columnScaleFactor : Int
  lineScaleFactor : Int
  columnOffset : Int
  lineOffset : Int
  calibration : Nat × (Nat → Option ℝ)
  units : String
  seconds : Int
  variable_ : Bytes
  chnum : Nat
  samples : List Nat

/-- What is left of a run. -/
structure NcRun where
  status : Nat
  file : Option (Bytes × NcImage)

/-- tools/hrit/XRIT2NetCDF.cpp:337-485, the rest of `NetCDFProduct`; in `main` (lines 249-251) `throw` without a handler if it
fails. -/
noncomputable def writeNetcdf (w : World) (env : Env) (pro : XritDataset.Prologue) (area : Option Area) (h : Header)
    (s : SegmentId) (i : ImageStruct) (px : List Nat) : Outcome NcRun := do
  let nlin ← int32 (i.lines * s.plannedEnd)
  let (a, samples) ← subarea env px i.columns nlin area
  match h.imageNavigation with
  | none => .ub
  | some nav => do
    let t := pro.start.unixtime
    let (y, mo, d, hh, mi) := XritDataset.gmtime t
    let name := ncName (channelText s) y mo d hh mi
    if w.creates name = false then .terminate
    else do
      let cal ← calibration pro.calibration s.channel i.bpp
      .ok ⟨0, some (name, {
        satellite := bytesOf (HritTexts.spacecraftName s.spacecraft), time := timeText y mo d hh mi,
        columns := a.nPix, lines := a.nLin, areaStartPix := a.pixStart, areaStartLin := a.linStart,
        columnScaleFactor := nav.cfac, lineScaleFactor := nav.lfac, columnOffset := nav.coff, lineOffset := nav.loff,
        calibration := cal,
        units := if 3 < s.channel ∧ s.channel < 12 then "K" else "mW m^-2 sr^-1 (cm^-1)^-1",
        seconds := w.mktime y mo d hh mi (t % 60) - 946684800 - w.timezone,
        variable_ := channelText s, chnum := s.channel, samples := samples })⟩

/-- tools/hrit/XRIT2NetCDF.cpp:149-180: the prologue file, if there is one and only one. -/
def prologueFile (ls : Bytes → List Bytes) (fa : FileAccess) : Option Bytes :=
  match glob ls (Xrit.prologuePattern fa) with
  | [f] => some f
  | _ => none

/-- tools/hrit/XRIT2NetCDF.cpp:113-120: the option `-a`; without it `AreaLinStart` and the others are left as they are (see
`subarea`). -/
def areaAsked : Option Bytes → Outcome (Option Area)
  | none => .ok none
  | some t => do
    let a ← areaOf t
    pure (some a)

/-- tools/hrit/XRIT2NetCDF.cpp:137-258: what `main` does after reading the options, where `readPrologue` is the reading of the
prologue (lines 175-184; `none` if the file cannot be opened), and `area` the window, if `is_subarea`. -/
noncomputable def netcdfOfArea (w : World) (env : Env) (ls : Bytes → List Bytes) (disk : Disk)
    (readPrologue : Bytes → Outcome (Option XritDataset.Prologue)) (q : Asked) (area : Option Area) : Outcome NcRun :=
  match q.product with
  | none => .ok ⟨1, none⟩
  | some fa =>
    match prologueFile ls fa with
    | none => .ok ⟨1, none⟩
    | some f => do
      match ← readPrologue f with
      | none => .ok ⟨1, none⟩
      | some pro => do
        match ← gather env ls disk fa with
        | .status n => .ok ⟨n, none⟩
        | .samples h s i px => writeNetcdf w env pro area h s i px

/-- tools/hrit/XRIT2NetCDF.cpp:113-258: the same where `areaText` is the argument of `-a`, if there is one. -/
noncomputable def xrit2NetCDF (w : World) (env : Env) (ls : Bytes → List Bytes) (disk : Disk)
    (readPrologue : Bytes → Outcome (Option XritDataset.Prologue)) (q : Asked) (areaText : Option Bytes) : Outcome NcRun := do
  let area ← areaAsked areaText
  netcdfOfArea w env ls disk readPrologue q area

end Msat.XritTools
