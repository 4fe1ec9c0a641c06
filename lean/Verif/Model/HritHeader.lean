import Verif.Model.Time

/-
msat/hrit/MSG_header*.cpp: HRIT/LRIT header records.

Simplifications: enumerations are kept as the numbers cast to them; floating point numbers parsed
with sscanf out of the projection name are kept as the text given to sscanf; memory leaks
(a second record of the same type overwrites the pointer) are not modelled; allocation succeeds
for every size up to 2^32.
-/
namespace Msat.Hrit
open Machine Time

/-- msat/hrit/MSG_header_image_struct.h:47-52 -/
structure ImageStruct where
  bpp : Nat
  columns : Nat
  lines : Nat
  compression : Nat
  pixels : Nat
  size : Nat
deriving DecidableEq, Repr

/-- msat/hrit/MSG_header_image_struct.cpp:43-53.  `number_of_columns * number_of_lines` is a product
of `int`s: signed overflow is undefined behaviour. -/
def readImageStruct (r : Bytes) : Outcome ImageStruct := do
  let bpp ← ui1 r 3
  let cols ← ui2 r 4
  let lines ← ui2 r 6
  let comp ← ui1 r 8
  if cols * lines ≥ 2 ^ 31 then .ub
  else
    let pixels := cols * lines
    let bits := pixels * bpp
    pure { bpp := bpp, columns := cols, lines := lines, compression := comp, pixels := pixels,
           size := if bits % 8 ≠ 0 then bits / 8 + 1 else bits / 8 }

/-- msat/hrit/MSG_header_image_navig.h: scaling factors, offsets and projection. -/
structure ImageNavig where
  pname : Bytes
  /-- text handed to `sscanf("%f")` for the longitude (`GEOS`), or plane and longitude (`POLAR`) -/
  params : List Bytes
  cfac : Int
  lfac : Int
  coff : Int
  loff : Int
deriving DecidableEq, Repr

/-- C string stored at the start of a buffer: bytes up to the first NUL; reading past the end of
the buffer is undefined behaviour. -/
def cstr (b : Bytes) : Outcome Bytes :=
  if (0 : UInt8) ∈ b then .ok (b.takeWhile (· ≠ 0)) else .ub

/-- `strchr(b, c)` on a buffer, `c ≠ 0`: offset of the first `c` before any NUL, `none` if a NUL
comes first, undefined behaviour if the buffer ends first. -/
def strchr (c : UInt8) : Bytes → Outcome (Option Nat)
  | [] => .ub
  | b :: bs =>
    if b = c then .ok (some 0)
    else if b = 0 then .ok none
    else match strchr c bs with
      | .ok (some n) => .ok (some (n + 1))
      | o => o

/-- The projection name part of msat/hrit/MSG_header_image_navig.cpp:49-91.  `name` is the 32-byte
local array `projection_name`. -/
def readProjection (name : Bytes) : Outcome (Bytes × List Bytes) :=
  if name.head? = some 71 then        -- 'G'
    -- projection_name[4] = 0; pname = projection_name
    let pn := (name.take 4).takeWhile (· ≠ 0)
    match strchr 41 (name.drop 5) with   -- ')'
    | .ok (some n) => .ok (pn, [(name.drop 5).take n])
    | .ok none => .ok (pn, [(name.drop 5).takeWhile (· ≠ 0)])
    | _ => .ub
  else if name.take 2 = [80, 79] then   -- "PO"
    let pn := (name.take 5).takeWhile (· ≠ 0)
    match strchr 44 (name.drop 6) with   -- ','
    | .ok (some n) =>
      -- *tmp = 0; then strchr(tmp, ')') stops at that NUL and returns NULL: `*NULL = 0`
      let _ := n
      let _ := pn
      .ub
    | _ => .ub
  else if name.take 2 = [80, 83] then .ok (str "PSD", [])
  else if name.head? = some 77 then .ok (str "MERCATOR", [])
  else .ok ([], [])

/-- msat/hrit/MSG_header_image_navig.cpp:49-91 -/
def readImageNavig (r : Bytes) : Outcome ImageNavig := do
  let name ← slice r 3 32
  let cfac ← i4 r 35
  let lfac ← i4 r 39
  let coff ← i4 r 43
  let loff ← i4 r 47
  let (pn, ps) ← readProjection name
  pure { pname := pn, params := ps, cfac := cfac, lfac := lfac, coff := coff, loff := loff }

/-- msat/hrit/MSG_header_image_datafunc.cpp:45-66: text of the record up to a NUL.  With an
announced length of 0 or 1 the `size_t` wraps and `new` throws; with 2, `throw;` terminates. -/
def readDataFunc (r : Bytes) : Outcome Bytes := do
  let len ← ui2 r 1
  if len < 2 then .throws "bad_alloc"
  else if len = 2 then .terminate
  else
    let t ← slice r 3 (len - 3)
    pure (t.takeWhile (· ≠ 0))

/-- msat/hrit/MSG_header_annotation.h -/
structure Annotation where
  text : Bytes
  channelId : Bytes
  version : Bytes
  disseminating : Bytes
  product1 : Bytes
  product2 : Bytes
  product3 : Bytes
  product4 : Bytes
  flags : Bytes
deriving DecidableEq, Repr

/-- `std::string::substr(pos, n)`: throws `std::out_of_range` when `pos > size()`. -/
def substr (s : Bytes) (pos n : Nat) : Outcome Bytes :=
  if pos > s.length then .throws "out_of_range" else .ok ((s.drop pos).take n)

/-- msat/hrit/MSG_header_annotation.cpp:45-60 -/
def readAnnotation (r : Bytes) : Outcome Annotation := do
  let raw ← slice r 3 61
  let t := raw.takeWhile (· ≠ 0)
  let a ← substr t 0 1
  let b ← substr t 2 3
  let c ← substr t 6 6
  let d ← substr t 13 12
  let e ← substr t 26 9
  let f ← substr t 36 9
  let g ← substr t 46 12
  let h ← substr t 59 2
  pure { text := t, channelId := a, version := b, disseminating := c, product1 := d,
         product2 := e, product3 := f, product4 := g, flags := h }

/-- msat/hrit/MSG_header_timestamp.cpp:41-44 -/
def readTimestamp (r : Bytes) : Outcome CdsShort := cdsShort r 4

/-- msat/hrit/MSG_header_ancillary_text.cpp:52-71: the bytes of the text.  Length 0..2 wraps and
`new` throws, 3 terminates. -/
def readAncillary (r : Bytes) : Outcome Bytes := do
  let len ← ui2 r 1
  if len < 3 then .throws "bad_alloc"
  else if len = 3 then .terminate
  else slice r 3 (len - 3)

/-- msat/hrit/MSG_header_key.h:51-52 -/
structure Key where
  number : Nat
  seed : Nat
deriving DecidableEq, Repr

/-- msat/hrit/MSG_header_key.cpp:42-47 -/
def readKey (r : Bytes) : Outcome Key := do
  let n ← ui1 r 3
  let s ← ui8 r 4
  pure { number := n, seed := s }

/-- msat/hrit/MSG_header_key.cpp:49-52 -/
def Key.group1 (k : Key) : Bool := k.number ≥ 64 && k.number ≤ 127
/-- msat/hrit/MSG_header_key.cpp:54-57 -/
def Key.group2 (k : Key) : Bool := k.number ≥ 192
/-- msat/hrit/MSG_header_key.cpp:59-62 -/
def Key.reserved (k : Key) : Bool := k.number < 64 || (k.number > 127 && k.number < 192)

/-- msat/hrit/MSG_header_segment_id.h:52-57 -/
structure SegmentId where
  spacecraft : Nat
  channel : Nat
  sequence : Nat
  plannedStart : Nat
  plannedEnd : Nat
  format : Nat
deriving DecidableEq, Repr

/-- msat/hrit/MSG_header_segment_id.cpp:45-54 -/
def readSegmentId (r : Bytes) : Outcome SegmentId := do
  let sc ← ui2 r 3
  let ch ← ui1 r 5
  let sq ← ui2 r 6
  let st ← ui2 r 8
  let en ← ui2 r 10
  let df ← ui1 r 12
  pure { spacecraft := sc, channel := ch, sequence := sq, plannedStart := st, plannedEnd := en,
         format := df }

/-- msat/hrit/MSG_header_segment_quality.h:43-49 -/
structure LineQuality where
  line : Int
  acquisition : CdsShort
  validity : Nat
  radiometric : Nat
  geometric : Nat
deriving DecidableEq, Repr

/-- msat/hrit/MSG_header_segment_quality.cpp:85-95 `MSG_segment_quality::set` at offset `off`. -/
def readLineQuality (r : Bytes) (off : Nat) : Outcome LineQuality := do
  let l ← i4 r off
  let t ← cdsShort r (off + 4)
  let v ← ui1 r (off + 10)
  let a ← ui1 r (off + 11)
  let g ← ui1 r (off + 12)
  pure { line := l, acquisition := t, validity := v, radiometric := a, geometric := g }

/-- msat/hrit/MSG_header_segment_quality.cpp:54-66: `n` records of 13 bytes from offset `off`. -/
def readLineQualities (r : Bytes) (off : Nat) : Nat → Outcome (List LineQuality)
  | 0 => .ok []
  | n + 1 => do
    let q ← readLineQuality r off
    let qs ← readLineQualities r (off + 13) n
    pure (q :: qs)

/-- msat/hrit/MSG_header.h:84-96 -/
structure Header where
  typecode : Nat
  totalHeaderLength : Nat
  dataFieldLength : Nat
  filesize : Nat
  imageStructure : Option ImageStruct
  imageNavigation : Option ImageNavig
  dataFunction : Option Bytes
  annotation : Option Annotation
  timestamp : Option CdsShort
  ancillary : Option Bytes
  key : Option Key
  segmentId : Option SegmentId
  segmentQuality : Option (List LineQuality)
deriving DecidableEq, Repr

/-- msat/hrit/MSG_header.cpp:33-46 `MSG_header::MSG_header()`: no record yet.  The numeric members
are uninitialised in C++ and are always set before being read. -/
def Header.fresh : Header :=
  { typecode := 0, totalHeaderLength := 0, dataFieldLength := 0, filesize := 0,
    imageStructure := none, imageNavigation := none, dataFunction := none, annotation := none,
    timestamp := none, ancillary := none, key := none, segmentId := none, segmentQuality := none }

/-- Check of the announced record length, e.g. msat/hrit/MSG_header.cpp:123-128; on mismatch the
bare `throw;` terminates the program. -/
def checkLen (r : Bytes) (len : Nat) : Outcome Unit := do
  let l ← ui2 r 1
  if l ≠ len then .terminate else pure ()

/-- One pass of the switch in msat/hrit/MSG_header.cpp:119-221 on the record at the start of `r`:
the updated header and the number of bytes to advance. -/
def readRecord (h : Header) (r : Bytes) : Outcome (Header × Nat) := do
  let ty ← ui1 r 0
  match ty with
  | 1 => do
    checkLen r 9
    let x ← readImageStruct r
    pure ({ h with imageStructure := some x }, 9)
  | 2 => do
    checkLen r 51
    let x ← readImageNavig r
    pure ({ h with imageNavigation := some x }, 51)
  | 3 => do
    let n ← ui2 r 1
    let x ← readDataFunc r
    pure ({ h with dataFunction := some x }, n)
  | 4 => do
    checkLen r 64
    let x ← readAnnotation r
    pure ({ h with annotation := some x }, 64)
  | 5 => do
    checkLen r 10
    let x ← readTimestamp r
    pure ({ h with timestamp := some x }, 10)
  | 6 => do
    let n ← ui2 r 1
    let x ← readAncillary r
    pure ({ h with ancillary := some x }, n)
  | 7 => do
    checkLen r 12
    let x ← readKey r
    pure ({ h with key := some x }, 12)
  | 128 => do
    checkLen r 13
    let x ← readSegmentId r
    pure ({ h with segmentId := some x }, 13)
  | 129 =>
    match h.imageStructure with
    | none => .ub     -- image_structure->number_of_lines through a null pointer
    | some s => do
      let x ← readLineQualities r 3 s.lines
      let n ← ui2 r 1
      pure ({ h with segmentQuality := some x }, n)
  | _ => .terminate

/-- msat/hrit/MSG_header.cpp:117-223: `while (left)`.  `r` is the part of `hbuff` from `pnt` on.
While no record overruns the buffer `left = r.length`.  When a record overruns it, `left` wraps to a
huge value and the next `*pnt` is out of bounds; when the advance is 0 the same record is read for
ever. -/
def readRecords (h : Header) (r : Bytes) : Outcome Header :=
  match r with
  | [] => .ok h
  | b :: bs =>
    match readRecord h (b :: bs) with
    | .ok (h', n) =>
      if n = 0 then .diverges
      else if _hn : n ≤ (b :: bs).length then readRecords h' ((b :: bs).drop n)
      else .ub
    | .throws m => .throws m
    | .ub => .ub
    | .terminate => .terminate
    | .diverges => .diverges
  termination_by r.length
  decreasing_by simp only [List.length_drop, List.length_cons] at *; omega

/-- msat/hrit/MSG_header.cpp:74-225 `MSG_header::read_from` on the content of a file; returns the
header and the rest of the file (the data field).  A bare `throw;` with no exception being handled
calls `std::terminate`. -/
def readHeader (h0 : Header) (file : Bytes) : Outcome (Header × Bytes) :=
  if file.length < 16 then .terminate
  else do
    let b0 ← ui1 file 0
    if b0 ≠ 0 then .terminate else do
    let l ← ui2 file 1
    if l ≠ 16 then .terminate else do
    let ty ← ui1 file 3
    let thl ← ui4 file 4
    let dfl ← ui8 file 8
    let hsize := u32sub thl 16     -- unsigned int arithmetic
    let h := { h0 with typecode := ty, totalHeaderLength := thl, dataFieldLength := dfl,
                       filesize := dfl / 8 + thl }
    if (file.drop 16).length < hsize then .terminate else do
    let h' ← readRecords h ((file.drop 16).take hsize)
    pure (h', (file.drop 16).drop hsize)

end Msat.Hrit
