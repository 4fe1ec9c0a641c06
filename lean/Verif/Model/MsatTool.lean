import Verif.Model.Geo
import Verif.Model.Facts

/-
tools/msat.cpp: the bands that are selected with --band, the images that are produced for a list of files, and the names of the files that
are written; and the part of msat/gdal/gdaltranslate.cpp that they use.

Strings are lists of characters without NUL.
-/
namespace Msat.MsatTool
open Msat Msat.Geo

/-! ### Numbers -/

/-- C `isspace` -/
def isSpace (c : Char) : Bool := c = ' ' || c = '\t' || c = '\n' || c = Char.ofNat 11 || c = Char.ofNat 12 || c = '\r'

/-- C `isdigit` -/
def isDigit (c : Char) : Bool := '0' ≤ c && c ≤ '9'

/-- The number of a list of digits. -/
def digits (ds : List Char) : Nat := ds.foldl (fun n c => 10 * n + (c.toNat - 48)) 0

/-- The optional sign of a number: whether it is a minus, and what follows. -/
def sign : List Char → Bool × List Char
  | '-' :: t => (true, t)
  | '+' :: t => (false, t)
  | t => (false, t)

/-- C `strtoul(s, &end, 10)`, `unsigned long` having 64 bits: the value, and what is left at `end`. -/
def strtoul (s : List Char) : Nat × List Char :=
  let (neg, t) := sign (s.dropWhile isSpace)
  let ds := t.takeWhile isDigit
  if ds = [] then (0, s)
  else
    let v := digits ds
    (if 2 ^ 64 ≤ v then 2 ^ 64 - 1 else if neg then (2 ^ 64 - v) % 2 ^ 64 else v, t.dropWhile isDigit)

/-- The conversion of `unsigned long` to `int`. -/
def toInt32 (v : Nat) : Int := Int.bmod v (2 ^ 32)

/-! ### Images -/

/-- An image that was opened: its size and the descriptions of its bands. -/
structure Image where
  nx : Int
  ny : Int
  names : List (List Char)
deriving DecidableEq, Repr

/-- What is produced for an image: its bands, the window of the source, and the size. -/
structure Shown where
  bands : List Int
  win : Win
  ox : Int
  oy : Int
deriving DecidableEq, Repr

/-- `GDALTranslate`, msat/gdal/gdaltranslate.h: the members that change.  `bands` are `panBandList` and `nBandCount`: empty is 0. -/
structure Translate where
  bands : List Int
  defBands : Bool
  win : Win
  size : Option (OutSize × OutSize)

/-- All the bands, msat/gdal/gdaltranslate.cpp:209-210 -/
def allBands (n : Nat) : List Int := (List.range n).map fun (i : Nat) => (i : Int) + 1

/-- msat/gdal/gdaltranslate.cpp:198-228: the list of bands and `bDefBands`; `none` is failure. -/
def bandList (t : Translate) (n : Nat) : Option (List Int × Bool) :=
  if t.bands = [] then
    if n = 0 then none else some (allBands n, t.defBands)
  else if t.bands.any fun b => b < 1 || (n : Int) < b then none
  else some (t.bands, if t.bands.length = n then t.defBands else false)

/-- msat/gdal/gdaltranslate.cpp:98-553 `translate`: the object afterwards and what it returns, `none` being the null pointer.  Without
projected window (see Model/Geo.lean), and with the other members as the constructor leaves them. -/
def translate (t : Translate) (img : Image) : Outcome (Translate × Option Shown) := do
  let win := defaultWin t.win img.nx img.ny
  match bandList t img.names.length with
  | none => pure ({ t with win := win }, none)
  | some (bands, defBands) =>
    let t' := { t with win := win, bands := bands, defBands := defBands }
    match ← verifyWin win img.nx img.ny with
    | none => pure (t', none)
    | some w =>
      if defBands ∧ w = ⟨0, 0, img.nx, img.ny⟩ ∧ t.size = none then pure (t', some ⟨allBands img.names.length, w, img.nx, img.ny⟩)
      else do
        let ox ← outSize (t.size.map (·.1)) w.xsize
        let oy ← outSize (t.size.map (·.2)) w.ysize
        pure (t', some ⟨bands, w, ox, oy⟩)

/-- tools/msat.cpp:548-559 `rbindex_by_name` -/
def rbindexByName (names : List (List Char)) (name : List Char) : Nat :=
  match names.findIdx? (· = name) with
  | some i => i + 1
  | none => 0

/-- tools/msat.cpp:601-603: the name without the leading bang. -/
def bareName : List Char → List Char
  | '!' :: n => n
  | n => n

/-- tools/msat.cpp:588-608: the band of one argument of --band. -/
def bandOf (names : List (List Char)) (arg : List Char) : Option Int :=
  if arg = [] then none
  else if (strtoul arg).2 = [] then some (toInt32 (strtoul arg).1)
  else
    let idx := rbindexByName names (bareName arg)
    if idx ≠ 0 then some idx else none

/-- tools/msat.cpp:618-632: `bDefBands`. -/
def isDefault (bands : List Int) (n : Nat) : Bool := bands.length = n && bands = allBands bands.length

/-- tools/msat.cpp:561-777 `Msat::main`, one image after the other; `none` is an image that is skipped.  Without --Area (see `areaWin`) and
--copymd; images that cannot be opened are not in the list.  All the actions use the null pointer when there is no translated image. -/
def run (maxx maxy : Nat) (sel : List (List Char)) (t : Translate) : List Image → Outcome (List (Option Shown))
  | [] => .ok []
  | img :: rest =>
    let bands := sel.filterMap (bandOf img.names)
    if sel ≠ [] ∧ bands = [] then do
      let rs ← run maxx maxy sel t rest
      pure (none :: rs)
    else do
      let t := if sel ≠ [] then { t with bands := bands, defBands := isDefault bands img.names.length } else t
      let t := match scaleIfNeeded maxx maxy img.nx.toNat img.ny.toNat with
        | some (x, y) => { t with size := some (.pixels x, .pixels y) }
        | none => t
      match ← translate t img with
      | (_, none) => .ub
      | (t, some s) => do
        let rs ← run maxx maxy sel t rest
        pure (some s :: rs)

/-- The object when the program starts, msat/gdal/gdaltranslate.cpp:49-86, with the window and the size of the options. -/
def start (win : Win) (size : Option (OutSize × OutSize)) : Translate := ⟨[], true, win, size⟩

/-! ### Names -/

/-- tools/msat.cpp:210-215 `escapeSpacesAndDots` -/
def escape (s : List Char) : List Char := s.map fun c => if c = ' ' ∨ c = '.' then '_' else c

/-- The metadata of a dataset: spacecraft number, spacecraft, date. -/
structure Meta where
  spacecraftID : Option (List Char)
  spacecraft : Option (List Char)
  datetime : Option (List Char)

/-- The metadata of a band: number and name of the channel. -/
structure BandMeta where
  channelID : Option (List Char)
  channel : Option (List Char)

/-- tools/msat.cpp:223-225 and 264-266: a number of the metadata. -/
def idOf : Option (List Char) → Int
  | none => -1
  | some v => toInt32 (strtoul v).1

/-- tools/msat.cpp:241-253: the date. -/
def timeOf : Option (List Char) → List Char
  | none => []
  | some v => ((v.take 16).filter fun c => c ≠ '-' ∧ c ≠ ':').map fun c => if c = ' ' then '_' else c

/-- tools/msat.cpp:217-282 `output_file_name`, `bands` being the bands of the dataset. -/
def outputFileName (ds : Meta) (bands : List BandMeta) (rb : Option BandMeta) : List Char :=
  let rb := match rb, bands with
    | none, [b] => some b
    | rb, _ => rb
  let id := idOf ds.spacecraftID
  let spacecraft := escape (ds.spacecraft.getD "unknown".toList)
  let sensor := escape (Facts.sensorName id).toList
  let channel := match rb with
    | none => []
    | some b =>
      let level := escape (Facts.channelLevel id (idOf b.channelID)).toList
      (if level ≠ [] then level ++ ['_'] else []) ++ escape (b.channel.getD []) ++ ['_']
  spacecraft ++ ['_'] ++ sensor ++ ['_'] ++ channel ++ timeOf ds.datetime

/-- tools/msat.cpp:706-713: the file that --conv writes, `ext` being the extension of the driver. -/
def convertName (ds : Meta) (bands : List BandMeta) (ext : Option (List Char)) : List Char :=
  outputFileName ds bands none ++ match ext with
    | some e => '.' :: e
    | none => []

/-- tools/msat.cpp:727-741: the files that --jpg writes; with another extension, 742-754 those of --png. -/
def imageNames (ext : List Char) (ds : Meta) (bands : List BandMeta) : List (List Char) :=
  bands.map fun b => outputFileName ds bands (some b) ++ ext

end Msat.MsatTool
