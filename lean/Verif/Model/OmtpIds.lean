import Verif.Model.Machine

/-
msat/omtp-ids: OpenMTP-IDS files.

Simplifications: `int` members are unbounded integers (what is written is their pattern of 16 bits);
allocation succeeds for every number of records, lines and pixels that fits in 16 bits.
-/
namespace Msat.Ids

/-! ### Streams -/

/-- A `std::istream`: what is left to read and `good()`. -/
structure IStream where
  rest : Bytes
  good : Bool
deriving DecidableEq, Repr

/-- A computation reading from a stream. -/
def Rd (α : Type) : Type := IStream → Outcome (α × IStream)

instance : Monad Rd where
  pure a := fun s => .ok (a, s)
  bind m f := fun s => (m s) >>= fun r => f r.1 r.2

/-- `is.get()`: the next byte, or -1 with `failbit` set at the end or when the stream is not good. -/
def get : Rd Int := fun s =>
  if s.good then
    match s.rest with
    | [] => .ok (-1, ⟨[], false⟩)
    | b :: bs => .ok (b.toNat, ⟨bs, true⟩)
  else .ok (-1, s)

/-- `is.read(buf, n)` into an array that holds `old`: bytes that are not there leave the array as it is. -/
def readInto (old : Bytes) : Rd Bytes := fun s =>
  if s.good then
    if old.length ≤ s.rest.length then .ok (s.rest.take old.length, ⟨s.rest.drop old.length, true⟩)
    else .ok (s.rest ++ old.drop s.rest.length, ⟨[], false⟩)
  else .ok (old, s)

/-- `is.setstate(std::ios::failbit)` -/
def setFail : Rd Unit := fun s => .ok ((), { s with good := false })

/-- `if (!is.good()) throw ...` -/
def checkGood (msg : String) : Rd Unit := fun s => if s.good then .ok ((), s) else .throws msg

/-- `for (int i = 0; i < offset; i++) is.get();` -/
def skip : Nat → Rd Unit
  | 0 => pure ()
  | n + 1 => do
    let _ ← get
    skip n

/-- msat/omtp-ids/ByteSex.cc:45-60 `big::read2` with two bytes: `u16 |= (uint16_t)is.get() << 8;
u16 |= is.get();` -/
def read2 : Rd Int := do
  let c0 ← get
  let c1 ← get
  pure (((BitVec.ofInt 16 c0) <<< 8 ||| BitVec.ofInt 16 c1).toNat : Int)

/-- msat/omtp-ids/ByteSex.cc:108-120 `big::write2` -/
def write2 (v : Int) : Bytes := Machine.bsBigWrite2 v

/-! ### Headers -/

/-- msat/omtp-ids/FileHeader.hh -/
structure FileHeader where
  fortran : Bytes
  no_records : Int
  year : Int
  julian_day : Int
  hour : Int
  minute : Int
  process_year : Int
  process_julian_day : Int
  process_hour : Int
  process_minute : Int
  no_channels : Int
  vis_id : Int
  wv_id : Int
  ir_id : Int
  satellite : Bytes
  satellite_id : Int
  record_length : Int
  no_vis_average : Int
  no_wv_average : Int
  no_ir_average : Int
  averaging_type : Int
  sample_interval : Int
  ir_calibration : Int
  wv_calibration : Int
  fine_adjustment : Int
  ir_space_count : Int
  wv_space_count : Int
deriving DecidableEq, Repr

/-- msat/omtp-ids/FileHeader.cc:86-131 `operator<<` -/
def writeFileHeader (h : FileHeader) : Bytes :=
  h.fortran ++ write2 h.no_records
    ++ write2 h.year ++ write2 h.julian_day ++ write2 h.hour ++ write2 h.minute
    ++ write2 h.process_year ++ write2 h.process_julian_day ++ write2 h.process_hour ++ write2 h.process_minute
    ++ write2 h.no_channels ++ write2 h.vis_id ++ write2 h.wv_id ++ write2 h.ir_id
    ++ h.satellite ++ write2 h.satellite_id ++ write2 h.record_length
    ++ write2 h.no_vis_average ++ write2 h.no_wv_average ++ write2 h.no_ir_average ++ write2 h.averaging_type
    ++ write2 h.sample_interval ++ write2 h.ir_calibration ++ write2 h.wv_calibration
    ++ write2 h.fine_adjustment ++ write2 h.ir_space_count ++ write2 h.wv_space_count
    ++ List.replicate (h.record_length + 2 - 60).toNat 0

/-- The end of `operator>>`, msat/omtp-ids/FileHeader.cc:174-183 and ScanLine.cc:89-97: fail on a negative
offset, else discard that many bytes. -/
def discard (offset : Int) : Rd Unit := do
  if offset < 0 then setFail
  skip offset.toNat

/-- msat/omtp-ids/FileHeader.cc:133-186 `operator>>`; the arrays hold the values of the constructor
(FileHeader.cc:80-81). -/
def readFileHeader : Rd FileHeader := do
  let fortran ← readInto [0, 1]
  let no_records ← read2
  let year ← read2
  let julian_day ← read2
  let hour ← read2
  let minute ← read2
  let process_year ← read2
  let process_julian_day ← read2
  let process_hour ← read2
  let process_minute ← read2
  let no_channels ← read2
  let vis_id ← read2
  let wv_id ← read2
  let ir_id ← read2
  let satellite ← readInto (str "METEOSAT")
  let satellite_id ← read2
  let record_length ← read2
  let no_vis_average ← read2
  let no_wv_average ← read2
  let no_ir_average ← read2
  let averaging_type ← read2
  let sample_interval ← read2
  let ir_calibration ← read2
  let wv_calibration ← read2
  let fine_adjustment ← read2
  let ir_space_count ← read2
  let wv_space_count ← read2
  discard (record_length + 2 - 60)
  pure ⟨fortran, no_records, year, julian_day, hour, minute, process_year, process_julian_day, process_hour,
    process_minute, no_channels, vis_id, wv_id, ir_id, satellite, satellite_id, record_length, no_vis_average,
    no_wv_average, no_ir_average, averaging_type, sample_interval, ir_calibration, wv_calibration,
    fine_adjustment, ir_space_count, wv_space_count⟩

/-- msat/omtp-ids/RecordHeader.hh -/
structure RecordHeader where
  fortran : Bytes
  record_header_length : Int
  no_scanlines : Int
  record_length : Int
  zero : Int
deriving DecidableEq, Repr

/-- msat/omtp-ids/RecordHeader.cc:57-68 -/
def writeRecordHeader (h : RecordHeader) : Bytes :=
  h.fortran ++ write2 h.record_header_length ++ write2 h.no_scanlines ++ write2 h.record_length ++ write2 h.zero

/-- msat/omtp-ids/RecordHeader.cc:70-83 -/
def readRecordHeader : Rd RecordHeader := do
  let fortran ← readInto [0, 1]
  let record_header_length ← read2
  let no_scanlines ← read2
  let record_length ← read2
  let zero ← read2
  pure ⟨fortran, record_header_length, no_scanlines, record_length, zero⟩

/-- msat/omtp-ids/LineHeader.hh -/
structure LineHeader where
  length : Int
  line : Int
  start : Int
  no_pixels : Int
  channel_id : Int
  quality : Int
  pad0 : Int
  pad1 : Int
deriving DecidableEq, Repr

/-- msat/omtp-ids/LineHeader.cc:61-77 -/
def writeLineHeader (h : LineHeader) : Bytes :=
  write2 h.length ++ write2 h.line ++ write2 h.start ++ write2 h.no_pixels ++ write2 h.channel_id
    ++ write2 h.quality ++ write2 h.pad0 ++ write2 h.pad1

/-- msat/omtp-ids/LineHeader.cc:79-97 -/
def readLineHeader : Rd LineHeader := do
  let length ← read2
  let line ← read2
  let start ← read2
  let no_pixels ← read2
  let channel_id ← read2
  let quality ← read2
  let pad0 ← read2
  let pad1 ← read2
  pure ⟨length, line, start, no_pixels, channel_id, quality, pad0, pad1⟩

/-! ### Scan lines, records, files -/

/-- msat/omtp-ids/ScanLine.hh -/
structure ScanLine where
  lineheader : LineHeader
  linepixel : Bytes
deriving DecidableEq, Repr

/-- msat/omtp-ids/ScanLine.cc:46-65.  The offset is computed with `unsigned` and converted to `int`: the
difference, for lines of less than 2^31 pixels. -/
def writeScanLine (l : ScanLine) : Bytes :=
  writeLineHeader l.lineheader ++ l.linepixel
    ++ List.replicate (l.lineheader.length - l.linepixel.length - 16).toNat 0

/-- msat/omtp-ids/ScanLine.cc:82-87 -/
def readPixels : Nat → Rd Bytes
  | 0 => pure []
  | n + 1 => do
    let c ← get
    checkGood "failure while reading line pixel"
    let cs ← readPixels n
    pure (UInt8.ofInt c :: cs)

/-- msat/omtp-ids/ScanLine.cc:67-100 -/
def readScanLine : Rd ScanLine := do
  let h ← readLineHeader
  checkGood "failure while reading line header"
  let px ← readPixels h.no_pixels.toNat
  discard (h.length - h.no_pixels - 16)
  pure ⟨h, px⟩

/-- msat/omtp-ids/Record.hh -/
structure Record where
  recordheader : RecordHeader
  scanline : List ScanLine
deriving DecidableEq, Repr

/-- msat/omtp-ids/Record.cc:46-58 -/
def writeRecord (r : Record) : Bytes := writeRecordHeader r.recordheader ++ r.scanline.flatMap writeScanLine

/-- The loop of msat/omtp-ids/Record.cc:74-79 -/
def readScanLines : Nat → Rd (List ScanLine)
  | 0 => pure []
  | n + 1 => do
    let l ← readScanLine
    checkGood "failure while reading scan line"
    let ls ← readScanLines n
    pure (l :: ls)

/-- msat/omtp-ids/Record.cc:60-82 -/
def readRecord : Rd Record := do
  let h ← readRecordHeader
  checkGood "failure while reading record header"
  let ls ← readScanLines h.no_scanlines.toNat
  pure ⟨h, ls⟩

/-- msat/omtp-ids/OpenMTP-IDS.hh -/
structure OpenMTP_IDS where
  fileheader : FileHeader
  record : List Record
deriving DecidableEq, Repr

/-- msat/omtp-ids/OpenMTP-IDS.cc:52-67: as many records as the header says, less one (of type `unsigned`);
reading a record that is not there is undefined. -/
def writeIds (x : OpenMTP_IDS) : Outcome Bytes :=
  let n := ((x.fileheader.no_records - 1) % 2 ^ 32).toNat
  if n ≤ x.record.length then .ok (writeFileHeader x.fileheader ++ (x.record.take n).flatMap writeRecord)
  else .ub

/-- The loop of msat/omtp-ids/OpenMTP-IDS.cc:85-90 -/
def readRecords : Nat → Rd (List Record)
  | 0 => pure []
  | n + 1 => do
    let r ← readRecord
    checkGood "failure while reading record"
    let rs ← readRecords n
    pure (r :: rs)

/-- msat/omtp-ids/OpenMTP-IDS.cc:82-83: the allocation of the records.  A header that announces no record
at all asks for 2^32-1 of them (more than 200 GB): `std::bad_alloc`. -/
def allocRecords (no_records : Int) : Rd Nat := fun s =>
  if no_records = 0 then .throws "bad_alloc" else .ok ((no_records - 1).toNat, s)

/-- msat/omtp-ids/OpenMTP-IDS.cc:69-93 -/
def readIds : Rd OpenMTP_IDS := do
  let h ← readFileHeader
  checkGood "failure while reading file header"
  let n ← allocRecords h.no_records
  let rs ← readRecords n
  pure ⟨h, rs⟩

/-- msat/omtp-ids/OpenMTP-IDS.cc:97-121 `read` on the content of a file. -/
def readFile (content : Bytes) : Outcome OpenMTP_IDS := do
  let (x, s) ← readIds ⟨content, true⟩
  if s.good then .ok x else .throws "error while reading"

/-! ### Access to the scan lines -/

/-- The loop of msat/omtp-ids/OpenMTP-IDS.cc:199-224.  `copy` from a position after its end is undefined. -/
def rangeLoop {α : Type} (first to : Nat) : List (List α) → Outcome (List α)
  | [] => .ok []
  | l :: ls => do
    let part ←
      if first < l.length then
        if first ≤ min to l.length then .ok ((l.take (min to l.length)).drop first) else .ub
      else .ok []
    if to < l.length then pure part
    else do
      let rest ← rangeLoop (if first < l.length then 0 else first - l.length) (to - l.length) ls
      pure (part ++ rest)

/-- msat/omtp-ids/OpenMTP-IDS.cc:189-227 `scanline(from, to)` -/
def scanlineRange (x : OpenMTP_IDS) (first to : Nat) : Outcome (List ScanLine) :=
  if to ≤ first then .ok [] else rangeLoop first to (x.record.map (·.scanline))

/-- msat/omtp-ids/OpenMTP-IDS.cc:182-186 `scanline(line)`; `unsigned` wraps around. -/
def scanlineAt (x : OpenMTP_IDS) (line : Nat) : Outcome (List ScanLine) := scanlineRange x line ((line + 1) % 2 ^ 32)

/-- msat/omtp-ids/OpenMTP-IDS.cc:168-179 `scanline()` -/
def scanlineAll (x : OpenMTP_IDS) : Outcome (List ScanLine) :=
  let last := x.record.foldl (fun last r => (last + r.scanline.length) % 2 ^ 32) 0
  scanlineRange x 0 (u32sub last 1)

end Msat.Ids
