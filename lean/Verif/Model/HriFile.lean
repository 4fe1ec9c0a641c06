import Verif.Model.HriLabel
import Verif.Model.HriIdent

/-
msat/hri/HRI.cpp: reading a file in HRI format.

A file that can be opened is its bytes.  Messages on the standard streams are not modelled.  `throw;` without an active exception ends the
program: `terminate`.
-/
namespace Msat.Hri
open Msat

/-- The `ifstream`: what has not been read yet, and whether a read has failed. -/
structure In where
  rest : Bytes
  failed : Bool
deriving DecidableEq, Repr

/-- `hri.read(buf, n)`: the contents of the buffer afterwards.  A stream that has failed reads nothing; at the end of the file what there
is is read, and the stream fails. -/
def In.read (s : In) (buf : Bytes) (n : Nat) : Bytes × In :=
  if s.failed then (buf, s)
  else if n ≤ s.rest.length then (s.rest.take n ++ buf.drop n, ⟨s.rest.drop n, false⟩)
  else (s.rest ++ buf.drop s.rest.length, ⟨[], true⟩)

/-- msat/hri/HRI.cpp:548-555 (and 524-532): the synchronisation check, `true` if it is passed; `machine` is the byte order. -/
def syncOk (machine : Bool) (buf : Bytes) : Bool :=
  !(load machine (buf.take 2) != 0x0C05 && (load machine ((buf.drop 2).take 2) &&& 255) != 0xDF)

/-- msat/hri/HRI.cpp:536-557 `getbuff`: the frame read. -/
def getbuff (machine : Bool) (s : In) : Outcome (Bytes × In) :=
  let (f, s) := s.read (List.replicate 364 0) 364
  if s.failed then .ok (f, s)
  else if syncOk machine f then .ok (f, s)
  else .terminate

/-- msat/hri/HRI.cpp:511-534 `mod_getbuff` -/
def modGetbuff (machine : Bool) (s : In) (offset : Nat) : Outcome (Bytes × In) :=
  let (f, s) := s.read (List.replicate 2048 0) 2048
  if s.failed then .ok (f, s)
  else if syncOk machine (f.drop offset) then .ok (f, s)
  else .terminate

/-- `memcpy(p, framebuff + off, n)` -/
def part (f : Bytes) (off n : Nat) : Bytes := (f.drop off).take n

/-- `memcpy(line + pos, p, ...)`: the bytes of `p` replace those from `pos` on. -/
def overwrite (line : Bytes) (pos : Nat) (p : Bytes) : Bytes := line.take pos ++ p ++ line.drop (pos + p.length)

/-- msat/hri/HRI.cpp:433-473 `get_dataline`; `line` is the static buffer, of 2500 bytes. -/
def getDataline (machine : Bool) (id : UInt8) (s : In) (line : Bytes) : Outcome (Bytes × In) :=
  if id = 112 then do
    let (f0, s) ← getbuff machine s
    let line := overwrite line 0 (part f0 68 296)
    let (f1, s) ← getbuff machine s
    let line := overwrite line 296 (part f1 4 360)
    let (f2, s) ← getbuff machine s
    let line := overwrite line 656 (part f2 4 360)
    let (f3, s) ← getbuff machine s
    let line := overwrite line 1016 (part f3 4 360)
    let (f4, s) ← getbuff machine s
    let line := overwrite line 1376 (part f4 4 360)
    let (f5, s) ← getbuff machine s
    let line := overwrite line 1736 (part f5 4 360)
    let (f6, s) ← getbuff machine s
    let line := overwrite line 2096 (part f6 4 360)
    let (f7, s) ← getbuff machine s
    let line := overwrite line 2456 (part f7 4 44)
    pure (line, s)
  else if id = 48 then do
    let (f0, s) ← getbuff machine s
    let line := overwrite line 0 (part f0 36 328)
    let (f1, s) ← getbuff machine s
    let line := overwrite line 328 (part f1 4 360)
    let (f2, s) ← getbuff machine s
    let line := overwrite line 688 (part f2 4 360)
    let (f3, s) ← getbuff machine s
    let line := overwrite line 1048 (part f3 4 202)
    pure (line, s)
  else .terminate

/-- msat/hri/HRI.cpp:475-509 `mod_get_dataline`.  What `mod_framebuff` holds before the last read of the B and X formats does not matter
and is taken as zeros: only bytes that are read are used. -/
def modGetDataline (machine : Bool) (id : UInt8) (s : In) (line : Bytes) : Outcome (Bytes × In) :=
  if id = 112 then do
    let (f, s) ← modGetbuff machine s 0
    let line := overwrite line 0 (part f 388 1660)
    let (f, s) := s.read f 1024
    if s.failed then .terminate else pure (overwrite line 1660 (part f 0 840), s)
  else if id = 48 then do
    let (f, s) ← getbuff machine s
    let line := overwrite line 0 (part f 196 168)
    let (f, s) := s.read (List.replicate 2048 0) 1172
    if s.failed then .terminate else pure (overwrite line 168 (part f 0 1082), s)
  else .terminate

/-- `get_dataline` or `mod_get_dataline` -/
def dataline (tecnavia machine : Bool) (id : UInt8) (s : In) (line : Bytes) : Outcome (Bytes × In) :=
  if tecnavia then modGetDataline machine id s line else getDataline machine id s line

/-- One of the calls in the loops of `readfrom`, at iteration `i`: `put_line(..., i)` of an image, or `put_halfline(..., i * 2 + second,
first)`. -/
inductive Step where
  | full (img : Nat)
  | half (img : Nat) (second : Nat) (first : Bool)
deriving DecidableEq, Repr

/-- msat/hri/HRI.cpp:126-379: the steps of the loop of each format, in order.  They are the same whether the file is TECNAVIA or not. -/
def stepsOf (code : List Char) : List Step :=
  if code = ['A', 'V'] then [.half 0 0 true, .half 0 0 false, .half 0 1 true, .half 0 1 false]
  else if code = ['A', 'I', 'W'] then [.full 0, .full 1]
  else if code = ['A', 'I', 'V', 'H'] then [.full 0, .full 1]
  else if code = ['B', 'I', 'V'] ∨ code = ['B', 'I', 'V', 'H'] then
    [.full 0, .half 1 0 true, .half 1 0 false, .half 1 1 true, .half 1 1 false]
  else if code = ['B', 'I', 'W'] then [.full 0, .full 1]
  else [.full 0]

/-- msat/hri/HRI.cpp:130-132, 157, 162, 192, 217, 240, 257-259, 287, 318, 341, 362: the number of iterations, `image[0].nlines`, or half the
lines of the visible image when there are half lines. -/
def iterations (code : List Char) (images : List Image) : Nat :=
  if code = ['A', 'V'] then ((images[0]?).getD Image.empty).nlines / 2
  else if code = ['B', 'I', 'V'] ∨ code = ['B', 'I', 'V', 'H'] then ((images[1]?).getD Image.empty).nlines / 2
  else ((images[0]?).getD Image.empty).nlines

/-- What the loops change. -/
structure State where
  images : List Image
  inp : In
  line : Bytes
deriving DecidableEq, Repr

/-- One step of iteration `i`.  msat/hri/HRI.cpp:292 and 297 give the width of image 0 for a line of image 1: it is the same. -/
def step (tecnavia machine : Bool) (id : UInt8) (i : Nat) (st : State) : Step → Outcome State
  | .full k => do
    let (line, inp) ← dataline tecnavia machine id st.inp st.line
    let img := (st.images[k]?).getD Image.empty
    let img ← putLine img line img.npixels i
    pure ⟨st.images.set k img, inp, line⟩
  | .half k second first => do
    let (line, inp) ← dataline tecnavia machine id st.inp st.line
    let img := (st.images[k]?).getD Image.empty
    let img ← putHalfline img line (img.npixels / 2 : Nat) (i * 2 + second : Nat) first
    pure ⟨st.images.set k img, inp, line⟩

/-- The body of the loop. -/
def body (tecnavia machine : Bool) (id : UInt8) (i : Nat) : State → List Step → Outcome State
  | st, [] => .ok st
  | st, s :: ss => do
    let st ← step tecnavia machine id i st s
    body tecnavia machine id i st ss

/-- The loop, from iteration `i`, `n` times. -/
def loop (tecnavia machine : Bool) (id : UInt8) (steps : List Step) : Nat → Nat → State → Outcome State
  | 0, _, st => .ok st
  | n + 1, i, st => do
    let st ← body tecnavia machine id i st steps
    loop tecnavia machine id steps n (i + 1) st

/-- `set_format_band` on each image. -/
def makeImages : List (Format × Band) → Outcome (List Image)
  | [] => .ok []
  | (f, b) :: fbs => do
    let img ← setFormatBand f b
    let imgs ← makeImages fbs
    pure (img :: imgs)

/-- The members of `Hri` (msat/hri/HRI.h:74-99) after `readfrom`.  `keys` is `none` if they are not read; `images` is `none` if `readfrom`
returns before `nimages` is set. -/
structure File where
  label : Label
  seed : Bytes
  ident : Ident
  interp : List (String × Value) × Bytes
  keys : Option (List KeySlot)
  images : Option (List Image)

/-- msat/hri/HRI.cpp:45-81: the header: identifier of the frame, label, seed, identification, interpretation; and what follows, with the
frame that was read last. -/
def readHeader (longSize : Nat) (machine tecnavia : Bool) (utcoff : Int) (s : In) :
    Outcome ((UInt8 × Label × Bytes × Ident × (List (String × Value) × Bytes)) × Bytes × In) :=
  if tecnavia then do
    let (f, s) ← modGetbuff machine s 512
    let f' := f.drop 512
    let label ← readLabel machine (f'.drop 4)
    let ident ← readIdent machine utcoff (f'.drop 36)
    let interp ← readInterp longSize machine (part f' 84 1360)
    pure (((f'[3]?).getD 0, label, part f' 28 8, ident, interp), f, s)
  else do
    let (f0, s) ← getbuff machine s
    let label ← readLabel machine (f0.drop 4)
    let ident ← readIdent machine utcoff (f0.drop 36)
    let (f1, s) ← getbuff machine s
    let (f2, s) ← getbuff machine s
    let (f3, s) ← getbuff machine s
    let interp ← readInterp longSize machine (part f0 84 280 ++ part f1 4 360 ++ part f2 4 360 ++ part f3 4 360)
    pure (((f0[3]?).getD 0, label, part f0 28 8, ident, interp), f3, s)

/-- msat/hri/HRI.cpp:83-111: the keys; `none` instead of the stream if `readfrom` returns there. -/
def readKeysOf (machine tecnavia : Bool) (id : UInt8) (f : Bytes) (s : In) : Outcome (Option (List KeySlot) × Option In) :=
  if id = 112 then
    if tecnavia then
      -- both parts are copied to the beginning of a buffer that is not used any more
      let (_, s) := s.read f 1536
      if s.failed then .ok (none, none) else .ok (none, some s)
    else do
      let (f0, s) ← getbuff machine s
      let (f1, s) ← getbuff machine s
      let (f2, s) ← getbuff machine s
      let (f3, s) ← getbuff machine s
      let keys ← readKeys (part f0 4 360 ++ part f1 4 360 ++ part f2 4 360 ++ part f3 4 360)
      pure (some keys, some s)
  else .ok (none, some s)

/-- msat/hri/HRI.cpp:121-381: images and their pixels.  The calibration tables are not part of it (see Model/HriCal.lean). -/
def readImages (machine tecnavia : Bool) (id : UInt8) (label : Label) (s : In) (line : Bytes) : Outcome (List Image) := do
  let code ← label.formatCode
  let fbs ← imagesOf code
  let images ← makeImages fbs
  let st ← loop tecnavia machine id (stepsOf code) (iterations code images) 0 ⟨images, s, line⟩
  let _ ← geolocationOf code
  pure st.images

/-- msat/hri/HRI.cpp:40-383 `readfrom` on a file that can be opened; `line` is what the static buffer of lines holds at the beginning: zeros,
or the last line of the file read before.  `longSize` is `sizeof(unsigned long)`, `machine` the byte order, `utcoff` the time zone. -/
def readfrom (longSize : Nat) (machine tecnavia : Bool) (utcoff : Int) (line file : Bytes) : Outcome File := do
  let ((id, label, seed, ident, interp), f, s) ← readHeader longSize machine tecnavia utcoff ⟨file, false⟩
  let (keys, s) ← readKeysOf machine tecnavia id f s
  match s with
  | none => pure ⟨label, seed, ident, interp, keys, none⟩
  | some s => do
    let images ← readImages machine tecnavia id label s line
    pure ⟨label, seed, ident, interp, keys, some images⟩

end Msat.Hri
