import Verif.Model.Native
import Verif.Model.Text

/-
msat/msg-native/MSG_native.cpp and tools/msg-native: reading a whole MSG native file, native2Image and nativedump.

Simplifications: the members of the level 1.5 header and trailer are not decoded (C05; decoding the header is undefined, see
`C100_violated_header`); numbers of the text header are read exactly (`%ld` of what does not fit in a `long` is undefined), and there are
less than 2^31 lines; memory is never short, except for negative sizes; of ImageMagick only what the file will contain is modelled; of
what nativedump prints only the samples.
-/
namespace Msat.NativeTools
open Msat Native
open Msat.Text (isSpace scanSigned)

/-! ### Reading -/

/-- The directives `%*s : ` of `sscanf`: what follows them, without blanks, if they match. -/
def afterKey (s : Bytes) : Option Bytes :=
  let s := s.dropWhile isSpace
  let w := s.takeWhile fun c => !isSpace c
  if w = [] then none
  else match (s.drop w.length).dropWhile isSpace with
    | [] => none
    | c :: r => if c = 58 then some (r.dropWhile isSpace) else none

/-- `sscanf(s, "%*s : %ld", &v)` -/
def entryLong (s : Bytes) : Option Int := (afterKey s).bind fun r => (scanSigned none r).map Prod.fst

/-- `sscanf(s, "%*s : %*d %ld\n", &v)` -/
def entryAddress (s : Bytes) : Option Int :=
  (afterKey s).bind fun r => (scanSigned none r).bind fun (_, n) => (scanSigned none ((r.drop n).dropWhile isSpace)).map Prod.fst

/-- `sscanf(s, "%*s : %s", v)` -/
def entryWord (s : Bytes) : Option Bytes :=
  (afterKey s).bind fun r =>
    let w := r.takeWhile fun c => !isSpace c
    if w = [] then none else some w

/-- msat/msg-native/MSG_native.cpp:94-96: `bandsel[16]`; `none` is not initialised. -/
def bandsel (s : Bytes) : Outcome (List (Option UInt8)) :=
  match entryWord s with
  | none => .ok (List.replicate 16 none)
  | some w => if w.length + 1 ≤ 16 then .ok (w.map some ++ [some 0] ++ List.replicate (15 - w.length) none) else .ub

/-- msat/msg-native/MSG_native.cpp:97-104: `selected_channel` -/
def selection : List (Option UInt8) → Outcome (List Bool)
  | [] => .ok []
  | none :: _ => .ub
  | some c :: r => do
    let t ← selection r
    pure ((c == 88) :: t)

/-- A variable that `sscanf` may not have set. -/
def set_ (v : Option Int) : Outcome Int :=
  match v with
  | some v => .ok v
  | none => .ub

/-- A variable that is used only in a case. -/
def setIf (used : Bool) (v : Option Int) : Outcome Int := if used then set_ v else .ok 0

/-- `int` from `long` -/
def toInt (v : Int) : Int := (v + 2 ^ 31) % 2 ^ 32 - 2 ^ 31

/-- What `MSG_native::read` leaves in the object. -/
structure Loaded where
  selected : Nat → Bool
  heap : Heap
  held : List Held
  lines : Nat → Int
  columns : Nat → Int

/-- msat/msg-native/MSG_native.cpp:136-159: `startline`, `endline`, `startcolumn` and `endcolumn` are copied from variables that must be
set (`stopc` is, at line 105); lines and columns of the channels. -/
def sizes (mph : List Bytes) (selected : Nat → Bool) (nlines : Int) : Outcome ((Nat → Int) × (Nat → Int)) := do
  let some_ := (List.range 12).any selected
  let others := (List.range 11).any selected
  let _ ← setIf some_ (entryLong (mph.getD 40 []))
  let _ ← setIf some_ (entryLong (mph.getD 41 []))
  let _ ← setIf some_ (entryLong (mph.getD 42 []))
  let ncols := entryLong (mph.getD 45 [])
  let c ← setIf others ncols
  let hl := (entryLong (mph.getD 46 [])).getD nlines
  let hc ← setIf (selected 11) ((entryLong (mph.getD 47 [])).or ncols)
  pure (fun i => if selected i then (if i = 11 then toInt hl else toInt nlines) else 0,
    fun i => if selected i then (if i = 11 then toInt hc else toInt c) else 0)

/-- `seekg(pos, beg)`: what is read next; nothing can be read after a negative position. -/
def seek (file : Bytes) (pos : Int) : Bytes := if pos < 0 then [] else file.drop pos.toNat

/-- msat/msg-native/MSG_native.cpp:80-160 `MSG_native::read`; the positions are zero if they are not in the text. -/
def readNative (file : Bytes) : Outcome Loaded := do
  let ((mph, _, _), _) ← readNativeHeader file
  let _ ← readNativeTrailer (seek file ((entryAddress (mph.getD 10 [])).getD 0))
  let cells ← bandsel (mph.getD 39 [])
  let sel ← selection (cells.take 12)
  let nlines ← set_ (entryLong (mph.getD 44 []))
  let (h, ls) ← readImage (fun i => sel.getD i false) nlines.toNat (seek file ((entryAddress (mph.getD 9 [])).getD 0))
  let (l, c) ← sizes mph (fun i => sel.getD i false) nlines
  pure ⟨fun i => sel.getD i false, h, ls, l, c⟩

/-- msat/msg-native/MSG_native.cpp:209-243 `lines`, `pixels` -/
def ofChannel (f : Nat → Int) (channel : Int) : Int := if channel < 0 ∨ channel ≥ 12 then 0 else f channel.toNat

/-- msat/msg-native/MSG_native.cpp:221-243 `data`: `none` is a null pointer.  The size is computed with `int`. -/
def data (n : Loaded) (channel : Int) : Outcome (Option (List (Option Nat))) :=
  if channel < 0 ∨ channel ≥ 12 then .ok none
  else if n.selected channel.toNat = false then .ok none
  else
    let size := n.lines channel.toNat * n.columns channel.toNat
    if size < -2 ^ 31 ∨ 2 ^ 31 ≤ size then .ub
    else if size < 0 then .throws "bad_array_new_length"
    else if n.columns channel.toNat < 0 then .ub
    else do
      let d ← channelData n.heap n.held channel.toNat (n.lines channel.toNat).toNat (n.columns channel.toNat).toNat
      pure (some d)

/-! ### native2Image -/

/-- What the programs find: the content of the file named on the command line if it can be opened; how ImageMagick's `normalize` changes
each sample of an image; whether an image can be written under a name; how the scaling, after the image is written, ends. -/
structure World where
  input : Option Bytes
  stretch : List (Option Nat) → Nat → Nat
  writes : Bytes → Bool
  scaling : Outcome Unit

/-- An image file: width, height, and samples row after row (`none` if the memory was not initialised). -/
structure Picture where
  width : Nat
  height : Nat
  pixels : List (Option Nat)
deriving DecidableEq, Repr

/-- How a program ends and the image file it has written. -/
structure Run where
  status : Outcome Nat
  file : Option (Bytes × Picture)

/-- `atoi` -/
def atoi (s : Bytes) : Int :=
  match scanSigned none (s.dropWhile isSpace) with
  | some (v, _) => v
  | none => 0

/-- The end of a program: a program that throws is terminated. -/
def ended (o : Outcome Nat) : Outcome Nat :=
  match o with
  | .throws _ => .terminate
  | o => o

/-- The constructor of `Magick::Image`: an image must have pixels, and the memory of all of them. -/
def picture (width height : Int) (d : Option (List (Option Nat))) : Outcome Picture :=
  match d with
  | none => .terminate
  | some d =>
    if width ≤ 0 ∨ height ≤ 0 then .throws "Magick::ErrorOption"
    else if height.toNat * width.toNat ≤ d.length then .ok ⟨width.toNat, height.toNat, d.take (height.toNat * width.toNat)⟩
    else .ub

/-- tools/msg-native/native2Image.cpp:84-85: normalisation, and rotation by half a turn. -/
def turned (w : World) (p : Picture) : Picture := { p with pixels := (p.pixels.map (Option.map (w.stretch p.pixels))).reverse }

/-- tools/msg-native/native2Image.cpp:82 -/
def outName (format : Bytes) : Bytes := (str "MSG1" ++ str "." ++ format).take 4095

/-- tools/msg-native/native2Image.cpp:88-93: after the image is written. -/
def finish (w : World) (n : Loaded) : Outcome Nat := do
  let _ ← w.scaling
  let _ ← close n.heap n.held
  pure 0

/-- tools/msg-native/native2Image.cpp:40-94 `main`; the arguments after the name of the program. -/
def native2Image (w : World) (args : List Bytes) : Run :=
  match args with
  | a :: rest =>
    if a = str "-V" then ⟨.ok 0, none⟩
    else match rest with
      | channel :: format :: _ :: _ =>
        match w.input with
        | none => ⟨.ok 255, none⟩
        | some file =>
          match (do
            let n ← readNative file
            let d ← data n (atoi channel)
            let p ← picture (ofChannel n.columns (atoi channel)) (ofChannel n.lines (atoi channel)) d
            pure (n, p) : Outcome (Loaded × Picture)) with
          | .ok (n, p) =>
            if w.writes (outName format) then ⟨ended (finish w n), some (outName format, turned w p)⟩ else ⟨.terminate, none⟩
          | .throws _ => ⟨.terminate, none⟩
          | .terminate => ⟨.terminate, none⟩
          | .ub => ⟨.ub, none⟩
          | .diverges => ⟨.diverges, none⟩
      | _ => ⟨.ok 255, none⟩
  | [] => ⟨.ok 255, none⟩

/-! ### nativedump -/

/-- msat/msg-native/MSG_native_line.cpp:220-232: the samples of a line. -/
def printLine (h : Heap) (l : Held) : Outcome (List Nat) :=
  match h[l.ptr]? with
  | some (some d) => do
    let (ss, n) ← toSample d none
    pure (ss.take n)
  | _ => .ub

/-- All the lines of a list. -/
def printLines (h : Heap) : List Held → Outcome (List (List Nat))
  | [] => .ok []
  | l :: ls => do
    let s ← printLine h l
    let r ← printLines h ls
    pure (s :: r)

/-- msat/msg-native/MSG_native.cpp:162-176 `operator<<`: the lines, channel after channel. -/
def printed (n : Loaded) : Outcome (List (List Nat)) :=
  printLines n.heap ((List.range 12).flatMap fun ic => if n.selected ic then n.held.filter (·.channel = ic) else [])

/-- tools/msg-native/nativedump.cpp:27-40 `main` -/
def nativedump (w : World) (args : List Bytes) : Outcome Nat :=
  match args with
  | [] => .ok 1
  | _ :: _ =>
    match w.input with
    | none => .ok 1
    | some file => ended do
      let n ← readNative file
      let _ ← printed n
      let _ ← close n.heap n.held
      pure 0

end Msat.NativeTools
