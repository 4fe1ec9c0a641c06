import Verif.Model.Geo
import Verif.Model.Text

/-
tools/msat.cpp: the command line of msat, and the first use of what it says.

Simplifications: the arguments are those that are left by `GDALGeneralCmdLineProcessor`; POSIXLY_CORRECT is not in the environment;
numbers of `%lf` and `strtod` are exact, and only decimal ones are read (not hexadecimal, infinite and not-a-number ones); the program
is built with ImageMagick.
-/
namespace Msat.MsatCommandLine
open Msat Text

/-! ### getopt_long of the C library -/

/-- `struct option` with a null `flag`: an entry of `longopts`. -/
structure Long where
  name : Bytes
  hasArg : Bool
  val : UInt8
deriving DecidableEq, Repr

/-- What `getopt_long` does with the arguments, in order: it returns an option (with `optarg`), it moves an argument that is not an
option to the end, or it returns `?`. -/
inductive Event where
  | opt (val : UInt8) (arg : Option Bytes)
  | operand (word : Bytes)
  | bad
deriving DecidableEq, Repr

/-- The entry of a name: the one that has it, or the only one that begins with it. -/
def findLong (longs : List Long) (name : Bytes) : Option Long :=
  match longs.find? fun l => l.name == name with
  | some l => some l
  | none => match longs.filter fun l => name.isPrefixOf l.name with
    | [l] => some l
    | _ => none

/-- What follows `--`, split at the first `=`. -/
def splitEq (w : Bytes) : Bytes × Option Bytes :=
  match w.dropWhile (· ≠ 61) with
  | [] => (w, none)
  | _ :: v => (w.takeWhile (· ≠ 61), some v)

/-- A word that begins with `--`, without it: the event, or the option that takes the next word as its argument. -/
def longWord (longs : List Long) (w : Bytes) : List Event × Option UInt8 :=
  let (name, value) := splitEq w
  match findLong longs name, value with
  | none, _ => ([.bad], none)
  | some l, some v => if l.hasArg then ([.opt l.val (some v)], none) else ([.bad], none)
  | some l, none => if l.hasArg then ([], some l.val) else ([.opt l.val none], none)

/-- A word that begins with `-`, without it. -/
def shortWord (shorts : List (UInt8 × Bool)) : Bytes → List Event × Option UInt8
  | [] => ([], none)
  | c :: cs =>
    match shorts.lookup c with
    | none => let r := shortWord shorts cs; (.bad :: r.1, r.2)
    | some false => let r := shortWord shorts cs; (.opt c none :: r.1, r.2)
    | some true => if cs = [] then ([], some c) else ([.opt c (some cs)], none)

/-- Any other word than `--`. -/
def word (shorts : List (UInt8 × Bool)) (longs : List Long) : Bytes → List Event × Option UInt8
  | 45 :: 45 :: w => longWord longs w
  | 45 :: c :: w => shortWord shorts (c :: w)
  | w => ([.operand w], none)

/-- All the words; `pending` is the option that takes the next one as its argument. -/
def events (shorts : List (UInt8 × Bool)) (longs : List Long) : Option UInt8 → List Bytes → List Event
  | none, [] => []
  | some _, [] => [.bad]
  | some v, w :: ws => .opt v (some w) :: events shorts longs none ws
  | none, w :: ws =>
    if w = [45, 45] then ws.map .operand
    else (word shorts longs w).1 ++ events shorts longs (word shorts longs w).2 ws

/-! ### Numbers -/

/-- The digits at the beginning, and what follows. -/
def spanDigits (s : Bytes) : Bytes × Bytes := (s.takeWhile isDigit, s.dropWhile isDigit)

/-- The sign at the beginning, and what follows. -/
def spanSign : Bytes → Bool × Bytes
  | 45 :: s => (true, s)
  | 43 :: s => (false, s)
  | s => (false, s)

/-- The number of the digits before and after the point. -/
def mantissa (whole frac : Bytes) : Rat := (ofDigits (whole ++ frac) : Rat) / 10 ^ frac.length

/-- Digits with or without a point: number and what follows, if there is a digit. -/
def spanMantissa (s : Bytes) : Option (Rat × Bytes) :=
  let (whole, s) := spanDigits s
  match s with
  | 46 :: t =>
    let (frac, t) := spanDigits t
    if whole = [] ∧ frac = [] then none else some (mantissa whole frac, t)
  | s => if whole = [] then none else some (mantissa whole [], s)

/-- The power of ten after `e`: what follows `e` without digits is no exponent. -/
def spanExponent (s : Bytes) : Option (Rat × Bytes) :=
  let (neg, t) := spanSign s
  let (ds, t) := spanDigits t
  if ds = [] then none else some (if neg then 1 / 10 ^ ofDigits ds else 10 ^ ofDigits ds, t)

/-- `%lf` of `sscanf` after the blanks: `e` without an exponent is a failure. -/
def scanReal (s : Bytes) : Option (Rat × Bytes) :=
  let (neg, s) := spanSign s
  match spanMantissa s with
  | none => none
  | some (m, t) =>
    let m := if neg then -m else m
    match t with
    | [] => some (m, [])
    | c :: u => if c = 101 ∨ c = 69 then (spanExponent u).map fun (e, r) => (m * e, r) else some (m, c :: u)

/-- `strtod`: zero if there is no number; `e` without an exponent is not part of the number. -/
def strtod (s : Bytes) : Rat :=
  let (neg, s) := spanSign (s.dropWhile isSpace)
  match spanMantissa s with
  | none => 0
  | some (m, t) =>
    let m := if neg then -m else m
    match t with
    | [] => m
    | c :: u => if c = 101 ∨ c = 69 then (match spanExponent u with | some (e, _) => m * e | none => m) else m

/-- `sscanf(s, "%lf,%lf,...", ...)` with `n` numbers: those assigned. -/
def scanReals : Nat → Bytes → List Rat
  | 0, _ => []
  | n + 1, s =>
    match scanReal (s.dropWhile isSpace) with
    | none => []
    | some (v, 44 :: t) => v :: scanReals n t
    | some (v, _) => [v]

/-- `"%d,%d,%d,%d"`, tools/msat.cpp:427 -/
def areaFormat : List Directive := [.int none, .lit 44, .int none, .lit 44, .int none, .lit 44, .int none]

/-! ### msat -/

/-- tools/msat.cpp:289 -/
inductive Action where
  | view
  | viewmore
  | convert
  | jpg
  | png
  | display
deriving DecidableEq, Repr

/-- tools/msat.cpp:291-335: `Msat`, as the constructor leaves it; `stretch` is none as long as it is to be computed. -/
structure Config where
  action : Action := .view
  driver : Bytes := []
  template : Bytes := []
  quiet : Bool := false
  win : Geo.Win := ⟨0, 0, 0, 0⟩
  lat0 : Rat := 0
  lat1 : Rat := 0
  lon0 : Rat := 0
  lon1 : Rat := 0
  proj : Geo.ProjWin := {}
  scale : Option (Bytes × Bytes) := none
  bands : List Bytes := []
  calibrate : Bool := false
  stretch : Option (Rat × Rat) := none
  hasSize : Bool := false
  isImage : Bool := false
  files : List Bytes := []
  maxx : Nat := 0
  maxy : Nat := 0
deriving DecidableEq, Repr

/-- How reading the command line ends: the program exits with a status, or goes on. -/
inductive Parsed where
  | exits (status : Nat)
  | run (c : Config)
  | undefined
deriving DecidableEq, Repr

/-- tools/msat.cpp:402: the short options `"qRc:b:"`. -/
def shorts : List (UInt8 × Bool) := [(113, false), (82, false), (99, true), (98, true)]

/-- tools/msat.cpp:375-396 `longopts` -/
def longs : List Long :=
  [⟨str "help", false, 72⟩, ⟨str "version", false, 118⟩, ⟨str "quiet", false, 113⟩, ⟨str "view", false, 86⟩,
   ⟨str "viewmore", false, 68⟩, ⟨str "conv", true, 99⟩, ⟨str "copymd", true, 77⟩, ⟨str "area", true, 97⟩, ⟨str "Area", true, 65⟩,
   ⟨str "around", true, 67⟩, ⟨str "resize", true, 114⟩, ⟨str "band", true, 98⟩, ⟨str "force-calibration", false, 70⟩,
   ⟨str "stretch", true, 83⟩, ⟨str "jpg", false, 106⟩, ⟨str "png", false, 112⟩, ⟨str "display", false, 100⟩]

/-- tools/msat.cpp:426-438: --area; a number that does not fit in an `int` is undefined. -/
def setArea (c : Config) (arg : Bytes) : Parsed :=
  match scanf areaFormat arg with
  | [x, dx, y, dy] =>
    if [x, dx, y, dy].all Geo.isInt then .run { c with win := ⟨x, y, dx, dy⟩, hasSize := true } else .undefined
  | _ => .exits 1

/-- tools/msat.cpp:439-447: --Area -/
def setLatLon (c : Config) (arg : Bytes) : Parsed :=
  match scanReals 4 arg with
  | [a, b, d, e] => .run { c with lat0 := a, lat1 := b, lon0 := d, lon1 := e, hasSize := true }
  | _ => .exits 1

/-- tools/msat.cpp:448-462: --around -/
def setAround (c : Config) (arg : Bytes) : Parsed :=
  match scanReals 4 arg with
  | [lat, lon, h, w] =>
    .run { c with proj := { ulx := lon - w / 2, uly := lat + h / 2, lrx := lon + w / 2, lry := lat - h / 2 }, hasSize := true }
  | _ => .exits 1

/-- tools/msat.cpp:463-478: --resize -/
def setSize (c : Config) (arg : Bytes) : Parsed :=
  match arg.dropWhile (· ≠ 44) with
  | [] => .exits 1
  | _ :: y => .run { c with scale := some (arg.takeWhile (· ≠ 44), y), hasSize := true }

/-- tools/msat.cpp:499-512: --stretch -/
def setStretch (c : Config) (arg : Bytes) : Parsed :=
  match arg.dropWhile (· ≠ 58) with
  | [] => .run { c with stretch := some (0, strtod arg) }
  | _ :: y => .run { c with stretch := some (strtod (arg.takeWhile (· ≠ 58)), strtod y) }

/-- tools/msat.cpp:402-522: one turn of the loop, `arg` being `optarg`. -/
def option (c : Config) (val : UInt8) (arg : Bytes) : Parsed :=
  if val = 72 then .exits 0
  else if val = 118 then .exits 0
  else if val = 113 then .run { c with quiet := true }
  else if val = 86 then .run { c with action := .view }
  else if val = 68 then .run { c with action := .viewmore }
  else if val = 99 then .run { c with action := .convert, driver := arg }
  else if val = 77 then .run { c with template := arg }
  else if val = 97 then setArea c arg
  else if val = 65 then setLatLon c arg
  else if val = 67 then setAround c arg
  else if val = 114 then setSize c arg
  else if val = 98 then .run { c with bands := c.bands ++ [arg] }
  else if val = 70 then .run { c with calibrate := true }
  else if val = 106 then .run { c with action := .jpg, isImage := true }
  else if val = 112 then .run { c with action := .png, isImage := true }
  else if val = 100 then .run { c with action := .display, isImage := true }
  else if val = 83 then setStretch c arg
  else .exits 1

/-- tools/msat.cpp:398-523: the loop.  The other arguments are left for later. -/
def loop (c : Config) : List Event → Parsed
  | [] => .run c
  | .operand _ :: es => loop c es
  | .bad :: _ => .exits 1
  | .opt v a :: es =>
    match option c v (a.getD []) with
    | .run c => loop c es
    | r => r

/-- The arguments that are not options, in order. -/
def operands : List Event → List Bytes
  | [] => []
  | .operand w :: es => w :: operands es
  | _ :: es => operands es

/-- tools/msat.cpp:367-545 `parse_cmdline`; the arguments after the name of the program. -/
def parse (args : List Bytes) : Parsed :=
  let es := events shorts longs none args
  match loop {} es with
  | .run c =>
    if operands es = [] then .exits 1
    else
      let c := { c with files := operands es }
      .run (if c.isImage ∧ c.hasSize = false then { c with maxx := 1280, maxy := 1280 } else c)
  | r => r

/-! ### Use of the window and the size -/

/-- `atoi` -/
def atoi (s : Bytes) : Int :=
  match scanSigned none (s.dropWhile isSpace) with
  | some (v, _) => v
  | none => 0

/-- msat/gdal/gdaltranslate.cpp:327-330: a size; the last character of an empty text is outside of it. -/
def sizeOf (text : Bytes) : Outcome Geo.OutSize :=
  match text.getLast? with
  | none => .ub
  | some c => .ok (if c = 37 then .percent (strtod text) else .pixels (atoi text))

/-- tools/msat.cpp:343-363 `scale_if_needed`, otherwise the size of --resize. -/
def sizesOf (c : Config) (nx ny : Int) : Outcome (Option (Geo.OutSize × Geo.OutSize)) :=
  match Geo.scaleIfNeeded c.maxx c.maxy nx.toNat ny.toNat with
  | some (x, y) => .ok (some (.pixels x, .pixels y))
  | none =>
    match c.scale with
    | none => .ok none
    | some (x, y) => do
      let x ← sizeOf x
      let y ← sizeOf y
      pure (some (x, y))

/-- tools/msat.cpp:667-777 for the first image, without --Area: the window of the image and the size that it gets.  When
msat/gdal/gdaltranslate.cpp:98-553 returns the null pointer it is used nevertheless, whatever the action is. -/
def firstImage (c : Config) (gt : Geo.GT) (nx ny : Int) : Outcome (Geo.Win × Int × Int) := do
  match ← Geo.sourceWin c.win c.proj gt nx ny with
  | none => .ub
  | some w => do
    let size ← sizesOf c nx ny
    let ox ← Geo.outSize (size.map Prod.fst) w.xsize
    let oy ← Geo.outSize (size.map Prod.snd) w.ysize
    pure (w, ox, oy)

end Msat.MsatCommandLine
