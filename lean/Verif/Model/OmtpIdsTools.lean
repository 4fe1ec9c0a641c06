import Mathlib.Data.Nat.Sqrt
import Verif.Model.OmtpIds
import Verif.Model.Text

/-
tools/omtp-ids: the programs that print, copy, convert and cut OpenMTP-IDS files.

Simplifications: writing to an open output stream succeeds (the disk is not full); `double` arithmetic is exact
(the numbers involved are below 2^16 and the values rounded are never within 2^-20 of a boundary unless they are
on it); what is printed on the standard output is not modelled.
-/
namespace Msat.IdsTools
open Ids

/-- What an exception carries: a literal, the text of a `std::string` that no longer exists, or something that is
not a `const char*`. -/
inductive Thrown where
  | literal | dangling | other
deriving DecidableEq, Repr

/-- The exceptions of msat/omtp-ids: OpenMTP-IDS.cc:102-107 and 112-116 throw `err.c_str()` of a local string; the
other ones are literals, apart from `std::bad_alloc`. -/
def thrown (msg : String) : Thrown :=
  if msg = "bad_alloc" then .other
  else if msg = "could not open" ∨ msg = "error while reading" then .dangling
  else .literal

/-- How a program ends: its exit status and the files it wrote, in order, with the content of each. -/
structure Run where
  status : Nat
  files : List (String × Bytes)
deriving DecidableEq, Repr

/-- What a program finds: the content of the file named on the command line, if it can be opened, and which files
can be created. -/
structure World where
  input : Option Bytes
  creatable : String → Bool

/-- msat/omtp-ids/OpenMTP-IDS.cc:98-121 `read` and OpenMTP-IDS.hh:118-124, from the opening of the file. -/
def openIds (w : World) : Outcome OpenMTP_IDS :=
  match w.input with
  | none => .throws "could not open"
  | some content => readFile content

/-- msat/omtp-ids/OpenMTP-IDS.cc:123-147 `write`: an uncaught exception if the file cannot be created. -/
def writeTo (w : World) (name : String) (x : OpenMTP_IDS) : Outcome Run := do
  let bytes ← writeIds x
  if w.creatable name then pure ⟨0, [(name, bytes)]⟩ else .throws "could not open"

/-- The `catch (const char* err)` of tools/omtp-ids/OpenMTP-IDS_write.cc:64-67, OpenMTP-IDS_to_pgm.cc:191-194 and
OpenMTP-IDS_debug.cc:62-65: prints the text and fails. -/
def catchText (o : Outcome Run) : Outcome Run :=
  match o with
  | .throws msg =>
    match thrown msg with
    | .literal => .ok ⟨1, []⟩
    | .dangling => .ub
    | .other => .terminate
  | o => o

/-- tools/omtp-ids/OpenMTP-IDS_write.cc:46-70, with one argument that is not -V. -/
def writeTool (w : World) : Outcome Run := catchText do
  let x ← openIds w
  writeTo w "test.omtp-ids" x

/-! ### Images -/

/-- tools/omtp-ids/OpenMTP-IDS_to_pgm.cc:43-65 `filename`; the values of msat/omtp-ids/Constants.hh:60-74. -/
def pgmName (id : Int) : String :=
  if id ∈ [1, 2, 3, 8, 9, 10, 11, 12] then "vis.pgm"
  else if id ∈ [4, 5] then "ir.pgm"
  else if id ∈ [6, 7] then "wv.pgm"
  else "unknown-channel.pgm"

/-- The rows written by the loop of tools/omtp-ids/OpenMTP-IDS_to_pgm.cc:97-106: the loop ends at the first row of
another size.  Returns also whether there was none. -/
def pgmRows (size : Nat) : List Bytes → Bytes × Bool
  | [] => ([], true)
  | r :: rs => if r.length ≠ size then ([], false) else
      let rest := pgmRows size rs
      (r ++ rest.1, rest.2)

/-- tools/omtp-ids/OpenMTP-IDS_to_pgm.cc:70-110 `write_pgm` without a comment: the result and the file written. -/
def writePgm (w : World) (name : String) (image : List Bytes) : Bool × List (String × Bytes) :=
  match image with
  | [] => (false, [])
  | r :: rs =>
    if r.length = 0 then (false, [])
    else if !w.creatable name then (false, [])
    else
      let rows := pgmRows r.length (r :: rs)
      (rows.2, [(name, str "P5\n" ++ Text.decimal r.length ++ str " " ++ Text.decimal (rs.length + 1)
        ++ str "\n255\n" ++ rows.1)])

/-- The inner loop of tools/omtp-ids/OpenMTP-IDS_to_pgm.cc:131-139: lines that are not there are undefined. -/
def channelRows (id : Int) (no_scans : Nat) (lines : List ScanLine) : Outcome (List Bytes) :=
  if no_scans ≤ lines.length then
    .ok (((lines.take no_scans).filter (fun s => s.lineheader.channel_id = id)).map (·.linepixel))
  else .ub

/-- The loops of tools/omtp-ids/OpenMTP-IDS_to_pgm.cc:126-140. -/
def channelImage (id : Int) : List Record → Outcome (List Bytes)
  | [] => .ok []
  | r :: rs => do
    let a ← channelRows id (r.recordheader.no_scanlines % 2 ^ 32).toNat r.scanline
    let b ← channelImage id rs
    pure (a ++ b)

/-- tools/omtp-ids/OpenMTP-IDS_to_pgm.cc:112-143 `write_channel_pgm` -/
def writeChannel (w : World) (id : Int) (x : OpenMTP_IDS) : Outcome (Bool × List (String × Bytes)) :=
  if id = 0 then .ok (false, [])
  else
    let n := ((x.fileheader.no_records - 1) % 2 ^ 32).toNat
    if n ≤ x.record.length then do
      let image ← channelImage id (x.record.take n)
      pure (writePgm w (pgmName id) image)
    else .ub

/-- tools/omtp-ids/OpenMTP-IDS_to_pgm.cc:146-162 `openmtp_ids_to_pgm`: the result and the files written. -/
def toPgm (w : World) (x : OpenMTP_IDS) : Outcome (Bool × List (String × Bytes)) := do
  let a ← writeChannel w x.fileheader.vis_id x
  let b ← writeChannel w x.fileheader.ir_id x
  let c ← writeChannel w x.fileheader.wv_id x
  pure (!c.1, a.2 ++ b.2 ++ c.2)

/-- The end of `main`, tools/omtp-ids/OpenMTP-IDS_to_pgm.cc:196-200: EXIT_FAILURE if the function returns false. -/
def finish (r : Bool × List (String × Bytes)) : Run := ⟨if r.1 then 0 else 1, r.2⟩

/-- tools/omtp-ids/OpenMTP-IDS_to_pgm.cc:171-201, with one argument that is not -V.  Only the reading is within
the `try`; nothing else throws. -/
def pgmTool (w : World) : Outcome Run := catchText do
  let x ← openIds w
  let r ← toPgm w x
  pure (finish r)

/-! ### Sectors -/

/-- tools/omtp-ids/OpenMTP-IDS_sector.cc:48-51 -/
def line0 : Nat := 3 * (1770 / 2)
/-- tools/omtp-ids/OpenMTP-IDS_sector.cc:49 -/
def line1 : Nat := 3 * (2110 / 2)
/-- tools/omtp-ids/OpenMTP-IDS_sector.cc:50 -/
def pixel0 : Nat := 1092 / 2
/-- tools/omtp-ids/OpenMTP-IDS_sector.cc:51 -/
def pixel1 : Nat := 1604 / 2

/-- tools/omtp-ids/OpenMTP-IDS_sector.cc:53-59 `record_lines`: `rint(sqrt(8 * lines / pixels))`, to the nearest
integer and to the even one of two equally near.  Without pixels the square root is infinite or not a number and its
conversion to `int` undefined. -/
def recordLines (lines pixels : Nat) : Outcome Nat :=
  if pixels = 0 then .ub
  else
    let halves := Nat.sqrt (32 * lines / pixels)
    if halves % 2 = 0 then .ok (halves / 2)
    else if halves * halves * pixels = 32 * lines ∧ (halves / 2) % 2 = 0 then .ok (halves / 2)
    else .ok (halves / 2 + 1)

/-- tools/omtp-ids/OpenMTP-IDS_sector.cc:61-67 `no_records`: without lines in a record the quotient is infinite or
not a number and its conversion undefined. -/
def recordsFor (scanlines lines : Nat) : Outcome Nat :=
  if lines = 0 then .ub else .ok ((scanlines + lines - 1) / lines)

/-- tools/omtp-ids/OpenMTP-IDS_sector.cc:88-91: the line that fills the last record; the other members from the
constructor, msat/omtp-ids/LineHeader.cc:46-57. -/
def dummyLine (pixels : Nat) : ScanLine :=
  ⟨⟨pixels + 16, 0, 0, pixels, 0, 0, 0, 0⟩, List.replicate pixels 0⟩

/-- tools/omtp-ids/OpenMTP-IDS_sector.cc:76-80; the other members from the constructor,
msat/omtp-ids/RecordHeader.cc:45-52. -/
def sectorRecordHeader (lines pixels : Nat) : RecordHeader :=
  ⟨[0, 1], 8, lines, lines * (pixels + 16) + 8, 0⟩

/-- The loops of tools/omtp-ids/OpenMTP-IDS_sector.cc:93-99 -/
def fillRecords (header : RecordHeader) (dummy : ScanLine) (lines : Nat) : Nat → List ScanLine → List Record
  | 0, _ => []
  | n + 1, ls =>
    ⟨header, ls.take lines ++ List.replicate (lines - ls.length) dummy⟩ :: fillRecords header dummy lines n (ls.drop lines)

/-- tools/omtp-ids/OpenMTP-IDS_sector.cc:69-102 `repack`; `scanline[0]` of no lines is undefined. -/
def repack (ls : List ScanLine) : Outcome (List Record) :=
  match ls with
  | [] => .ub
  | l :: _ => do
    let pixels := l.linepixel.length
    let lines ← recordLines ls.length pixels
    let records ← recordsFor ls.length lines
    pure (fillRecords (sectorRecordHeader lines pixels) (dummyLine pixels) lines records ls)

/-- tools/omtp-ids/OpenMTP-IDS_sector.cc:104-121 `sector_line`: positions after the end of the line are undefined. -/
def sectorLine (l : ScanLine) : Outcome ScanLine :=
  if pixel1 ≤ l.linepixel.length then
    let pixels := (l.linepixel.take pixel1).drop pixel0
    .ok ⟨{ l.lineheader with length := 16 + pixels.length, start := pixel0, no_pixels := pixels.length }, pixels⟩
  else .ub

/-- The `for_each` of tools/omtp-ids/OpenMTP-IDS_sector.cc:128 -/
def sectorLines : List ScanLine → Outcome (List ScanLine)
  | [] => .ok []
  | l :: ls => do
    let a ← sectorLine l
    let b ← sectorLines ls
    pure (a :: b)

/-- tools/omtp-ids/OpenMTP-IDS_sector.cc:123-130 `sector` -/
def sector (x : OpenMTP_IDS) : Outcome (List Record) := do
  let ls ← scanlineRange x line0 line1
  let ls ← sectorLines ls
  repack ls

/-- tools/omtp-ids/OpenMTP-IDS_sector.cc:132-143 `openmtp_ids_sector`: the content that is written;
`record()[0]` of no records is undefined. -/
def sectorContent (x : OpenMTP_IDS) : Outcome OpenMTP_IDS := do
  let rs ← sector x
  match rs with
  | [] => .ub
  | r :: _ => pure ⟨{ x.fileheader with no_records := rs.length + 1, record_length := r.recordheader.record_length }, rs⟩

/-- The `catch (char* err)` of tools/omtp-ids/OpenMTP-IDS_sector.cc:174-177 does not catch a `const char*`: every
exception ends the program, those of the writing too. -/
def catchNothing (o : Outcome Run) : Outcome Run :=
  match o with
  | .throws _ => .terminate
  | o => o

/-- tools/omtp-ids/OpenMTP-IDS_sector.cc:155-184, with one argument that is not -V. -/
def sectorTool (w : World) : Outcome Run := catchNothing do
  let x ← openIds w
  let y ← sectorContent x
  writeTo w "omtp-ids-sector.ids" y

end Msat.IdsTools
