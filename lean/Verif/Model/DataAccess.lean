import Verif.Model.FileAccess

/-
msat/xrit/dataaccess.cpp and gdal/xrit/rasterband.cpp: lines of an xRIT product.

Simplifications: the decoding of one file (`MSG_header::read_from` and `MSG_data::read_from`,
modelled in HritHeader.lean) is a function `disk` from file names to its outcome, that is, the files
do not change while the product is open; and every segment file carries the three records used
(segment identification, image structure, image navigation).  `size_t` is 64 bits wide.
-/
namespace Msat.Xrit

/-- What is kept of a decoded segment: `MSG_data::image` (null for other kinds of files), as its
samples in file order. -/
structure SegData where
  image : Option (List Nat)
deriving DecidableEq, Repr

/-- What `scan` uses of the header of a segment file. -/
structure SegHeader where
  /-- `segment_id->data_field_format`, 0 is `MSG_NO_FORMAT` -/
  format : Nat
  /-- `segment_id->sequence_number` -/
  sequence : Nat
  /-- `segment_id->planned_end_segment_sequence_number` -/
  plannedEnd : Nat
  /-- `segment_id->spectral_channel_id` -/
  channel : Nat
  /-- `image_structure->number_of_lines` -/
  lines : Nat
  /-- `image_structure->number_of_columns` -/
  columns : Nat
  /-- `image_navigation->column_scaling_factor` -/
  cfac : Int
deriving DecidableEq, Repr

/-- `MSG_ActualL15CoverageHRV` of the epilogue. -/
structure Coverage where
  lowerSouth : Nat
  lowerNorth : Nat
  lowerEast : Nat
  lowerWest : Nat
  upperSouth : Nat
  upperNorth : Nat
  upperEast : Nat
  upperWest : Nat
deriving DecidableEq, Repr

/-- msat/xrit/dataaccess.h:42-104 `DataAccess`, without the cache. -/
structure DataAccess where
  seglines : Nat
  columns : Nat
  lines : Nat
  hrv : Bool
  swapX : Bool
  segnames : List Bytes
  cov : Coverage
  maxLine : Nat
  southLine : Nat
  westColumn : Nat
deriving DecidableEq, Repr

/-- `DataAccess::segcache`, most recently used first. -/
abbrev Cache := List (Nat × SegData)

/-- msat/xrit/dataaccess.cpp:153-196 `DataAccess::segment`: the segment (`none` is the null pointer)
or an exception of `read_file`, and the new cache. -/
def segment (da : DataAccess) (disk : Bytes → Outcome SegData) (cache : Cache) (idx : Nat) :
    Outcome (Option SegData) × Cache :=
  if cache.head?.map (·.1) = some idx then (.ok (cache.head?.map (·.2)), cache)
  else match cache.find? (fun e => e.1 == idx) with
    | some e => (.ok (some e.2), e :: cache.eraseP (fun e => e.1 == idx))
    | none =>
      match da.segnames[idx]? with
      | none => (.ok none, cache)
      | some name =>
        if name = [] then (.ok none, cache)
        else
          let cache := if cache.length = 2 then cache.dropLast else cache
          match disk name with
          | .ok d => (.ok (some d), (idx, d) :: cache)
          | .throws m => (.throws m, cache)
          | .ub => (.ub, cache)
          | .terminate => (.terminate, cache)
          | .diverges => (.diverges, cache)

/-- msat/xrit/dataaccess.cpp:198-211 `DataAccess::line_start` -/
def lineStart (da : DataAccess) (line : Nat) : Nat :=
  if !da.hrv then u64sub da.westColumn 1
  else if line ≥ da.maxLine then 0
  else
    let line := da.maxLine - line
    if line < da.cov.lowerSouth then 0
    else if line ≤ da.cov.lowerNorth then u64sub 11136 da.cov.lowerWest
    else if line < da.cov.upperSouth then 0
    else if line ≤ da.cov.upperNorth then u64sub 11136 da.cov.upperWest
    else 0

/-- msat/xrit/dataaccess.cpp:220-234: the line counted from the first row of the first segment. -/
def rowNumber (da : DataAccess) (line : Nat) : Nat :=
  if da.hrv then u64sub (u64sub da.maxLine line) 1
  else u64sub (u64sub 3712 line) da.southLine

/-- msat/xrit/dataaccess.cpp:236-246: what is written to `buf`, from the segment found. -/
def rowOf (da : DataAccess) (segline : Nat) : Option SegData → Outcome (List Nat)
  | none => .ok (List.replicate da.columns 0)
  | some d => match d.image with
    | none => .ub
    | some img =>
      if segline * da.columns + da.columns ≤ img.length then
        let row := (img.drop (segline * da.columns)).take da.columns
        .ok (if da.swapX then row.reverse else row)
      else .ub

/-- msat/xrit/dataaccess.cpp:213-247 `DataAccess::line_read`: the `columns` samples written to `buf`
and the new cache. -/
def lineRead (da : DataAccess) (disk : Bytes → Outcome SegData) (cache : Cache) (line : Nat) :
    Outcome (List Nat) × Cache :=
  if da.seglines = 0 then (.ub, cache)
  else
    let n := rowNumber da line
    match segment da disk cache (n / da.seglines) with
    | (.ok d, cache) => (rowOf da (n % da.seglines) d, cache)
    | (.throws m, cache) => (.throws m, cache)
    | (.ub, cache) => (.ub, cache)
    | (.terminate, cache) => (.terminate, cache)
    | (.diverges, cache) => (.diverges, cache)

/-- `if (idx >= segnames.size()) segnames.resize(idx + 1); segnames[idx] = i;`
(msat/xrit/dataaccess.cpp:110-112) -/
def setName (names : List Bytes) (idx : Nat) (file : Bytes) : List Bytes :=
  (names ++ List.replicate (idx + 1 - names.length) []).set idx file

/-- The loop of `scan`, msat/xrit/dataaccess.cpp:101-113: the names by index and the last header
read. -/
def scanFiles (hdr : Bytes → Outcome SegHeader) :
    List Bytes → List Bytes × Option SegHeader → Outcome (List Bytes × Option SegHeader)
  | [], st => .ok st
  | f :: fs, (names, _) => do
    let h ← hdr f
    if h.format = 0 then .throws "product dumped in binary format"
    else if h.sequence = 0 then scanFiles hdr fs (names, some h)
    else scanFiles hdr fs (setName names (h.sequence - 1) f, some h)

/-- msat/xrit/dataaccess.cpp:67-84 `scanSegment` and 121-150: the fields computed from the last
header read and from the epilogue. -/
def geometry (names : List Bytes) (h : SegHeader) (cov : Coverage) : DataAccess :=
  { seglines := h.lines
    columns := h.columns
    lines := h.lines * h.plannedEnd
    hrv := h.channel == 12
    swapX := decide (h.cfac < 0)
    segnames := names
    cov := cov
    maxLine := max cov.lowerNorth cov.upperNorth
    southLine := 1
    westColumn := 1 }

/-- msat/xrit/dataaccess.cpp:86-151 `scan`, after the reading of prologue and epilogue: `segfiles` is
the result of `segmentFiles`. -/
def scan (hdr : Bytes → Outcome SegHeader) (cov : Coverage) (segfiles : List Bytes) :
    Outcome DataAccess := do
  let (names, last) ← scanFiles hdr segfiles ([], none)
  if names = [] then .throws "no segments found"
  else match last with
    | none => .ub
    | some h => pure (geometry names h cov)

/-! ### gdal/xrit/rasterband.cpp -/

/-- The samples `vs` stored at `buf + off`: undefined when they do not fit. -/
def store (buf : List Nat) (off : Nat) (vs : List Nat) : Outcome (List Nat) :=
  if off + vs.length ≤ buf.length then .ok (buf.take off ++ vs ++ buf.drop (off + vs.length))
  else .ub

/-- `isnan` on the bits of a `float` -/
def isNaN32 (b : Nat) : Bool := b % 2 ^ 31 > 0x7f800000

/-- `res < 0` on the bits of a `float` (minus zero is not less than zero) -/
def isNeg32 (b : Nat) : Bool := b / 2 ^ 31 == 1 && b % 2 ^ 31 != 0 && !isNaN32 b

/-- gdal/xrit/rasterband.cpp:93-95: one calibrated sample, as the bits of a `float`.  Undefined when
the sample is outside of the calibration table. -/
def calibrated (calibration : List Nat) (raw : Nat) : Outcome Nat :=
  match calibration[raw]? with
  | none => .ub
  | some b => .ok (if isNeg32 b || isNaN32 b then 0 else b)

/-- The loop of gdal/xrit/rasterband.cpp:91-96. -/
def calibrateRow (calibration : List Nat) : List Nat → Outcome (List Nat)
  | [] => .ok []
  | r :: rs => do
    let v ← calibrated calibration r
    let vs ← calibrateRow calibration rs
    pure (v :: vs)

/-- Result of a block request: `CE_None` with the row, or `CE_Failure` with nothing written. -/
inductive BlockResult where
  | none (row : List Nat)
  | failure
deriving DecidableEq, Repr

/-- gdal/xrit/rasterband.cpp:71-102 `XRITRasterBand::IReadBlock`.  The row is made of samples in the
linear case and of the bits of `float`s otherwise (the bits of `0.0` are 0). -/
def readBlock (da : DataAccess) (disk : Bytes → Outcome SegData) (cache : Cache) (blockX : Nat)
    (calibration : Option (List Nat)) (xblock : Int) (yblock : Nat) : Outcome BlockResult × Cache :=
  if xblock ≠ 0 then (.ok .failure, cache)
  else
    let start := lineStart da yblock
    let (row, cache) := lineRead da disk cache yblock
    (do
      let row ← row
      match calibration with
      | none =>
        let buf ← store (List.replicate blockX 0) start row
        pure (.none buf)
      | some cal =>
        if da.columns = 0 then .ub
        else
          let vals ← calibrateRow cal row
          let buf ← store (List.replicate blockX 0) start vals
          pure (.none buf), cache)

end Msat.Xrit
