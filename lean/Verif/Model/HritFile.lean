import Verif.Model.HritHeader
import Verif.Model.HritData
import Verif.Model.DataAccess

/-
msat/hrit/MSG_data.cpp, MSG_HRIT.cpp, MSG_data_image.cpp, MSG_data_text.cpp, MSG_data_gts.cpp,
MSG_data_key.cpp, MSG_data_SGS_header.cpp: reading and printing a whole xRIT file; the reading of
files and headers in msat/xrit/dataaccess.cpp.

Simplifications: the decompression library is a parameter; the text printed is not modelled, only
whether printing it is defined; memory leaks are not modelled.
-/
namespace Msat.Hrit
open Machine Layout

/-- What the code needs from outside of itself. -/
structure Env where
  /-- `new` of this many bytes succeeds (it throws `std::bad_alloc` otherwise) -/
  alloc : Nat → Bool
  /-- the decompression library: from format, bits per pixel, columns, lines and compressed bytes to
  the samples of the image it makes -/
  decode : Nat → Nat → Nat → Nat → Bytes → Outcome (List Nat)
  /-- a file of this name can be created -/
  creatable : Bytes → Bool

/-- msat/hrit/MSG_data_image.h:57-75 `MSG_data_image`: `len`, and the samples in the block `data`
points to. -/
structure Image where
  len : Nat
  samples : List Nat
deriving DecidableEq, Repr

/-- msat/hrit/MSG_data_SGS_header.h:48-70: the members of the two headers of a foreign satellite
prologue, the members of the common header by their names. -/
structure Sgs where
  common : List (Path × Val)
  length : Nat
  data : Bytes
deriving DecidableEq, Repr

/-- msat/hrit/MSG_data.h:82-107 `MSG_data`: what its pointers point to.  `typecode` is `none` before
anything is read (uninitialised). -/
structure Data where
  typecode : Option Nat
  key : Option (List (List (Path × Val)))
  gts : Option Bytes
  text : Option Bytes
  prologue : Option (List (Path × Val))
  epilogue : Option (List (Path × Val))
  sgs : Option Sgs
  image : Option Image
deriving DecidableEq, Repr

/-- msat/hrit/MSG_data.cpp:56-65 `MSG_data::MSG_data()` -/
def Data.fresh : Data :=
  { typecode := none, key := none, gts := none, text := none, prologue := none, epilogue := none,
    sgs := none, image := none }

/-- `new unsigned char[n]`, `new MSG_SAMPLE[n/2]`... -/
def new (env : Env) (n : Nat) : Outcome Unit := if env.alloc n then .ok () else .throws "bad_alloc"

/-- msat/hrit/MSG_data.cpp:95-102 (the same lines in every case): a buffer of
`data_field_length / 8` bytes read from the file; the bare `throw;` on a short read terminates. -/
def dataField (env : Env) (h : Header) (rest : Bytes) : Outcome Bytes := do
  new env (h.dataFieldLength / 8)
  if rest.length < h.dataFieldLength / 8 then .terminate
  else pure (rest.take (h.dataFieldLength / 8))

/-- The 16 bit objects in a block of bytes, on a little-endian host. -/
def samplesOf : Bytes → List Nat
  | b0 :: b1 :: bs => load .little [b0, b1] :: samplesOf bs
  | _ => []

/-- msat/hrit/MSG_data_image.cpp:43-78 `MSG_data_image_encoded::decode` (formats: 1 JPEG, 2 T4,
3 wavelet, msat/hrit/MSG_data_format.h:35-40).  `nx * ny` does not overflow, as it did not when the
image structure record was read. -/
def decodeImage (env : Env) (format bpp nx ny : Nat) (data : Bytes) : Outcome Image := do
  new env data.length
  if format = 1 ∨ format = 2 ∨ format = 3 then do
    let img ← env.decode format bpp nx ny data
    new env (2 * (nx * ny))
    if img.length < nx * ny then .ub
    else pure { len := nx * ny, samples := img.take (nx * ny) }
  else .terminate

/-- msat/hrit/MSG_data.cpp:104-121: the samples of an image file, from its data field.  Without
compression `len` is the number of bytes. -/
def imageData (env : Env) (h : Header) (data : Bytes) : Outcome Image :=
  match h.imageStructure with
  | none => .ub
  | some s =>
    if s.compression = 0 then do
      new env data.length
      pure { len := data.length, samples := samplesOf data }
    else match h.segmentId with
      | none => .ub
      | some sid => decodeImage env sid.format s.bpp s.columns s.lines data

/-- msat/hrit/MSG_data_gts.cpp:49-61 `MSG_data_gts::read_from` -/
def gtsData (env : Env) (data : Bytes) : Outcome Bytes :=
  if data.length = 0 ∨ data.length > 15000 * 65535 then .terminate
  else do new env data.length; pure data

/-- msat/hrit/MSG_data_text.cpp:49-61 `MSG_data_text::read_from` -/
def textData (env : Env) (data : Bytes) : Outcome Bytes :=
  if data.length = 0 then .terminate
  else do new env data.length; pure data

/-- msat/hrit/MSG_data_key.cpp:60-68: the loop on the keys, `n` of them from `pnt` on. -/
def keyLoop (data : Bytes) (pnt : Nat) : Nat → Outcome (List (List (Path × Val)))
  | 0 => .ok []
  | n + 1 => do
    let k ← run keyMessage data pnt
    let ks ← keyLoop data (pnt + 197) n
    pure (k.1 :: ks)

/-- msat/hrit/MSG_data_key.cpp:49-70 `MSG_data_key::read_from`.  `nkeys` is an `int`: the quotient is
reduced modulo 2^32. -/
def keyData (env : Env) (data : Bytes) : Outcome (List (List (Path × Val))) :=
  let q := data.length / 197 % 2 ^ 32
  if q ≥ 2 ^ 31 ∨ q > 65536 ∨ q = 0 then .terminate
  else do new env (198 * q); keyLoop data 0 q

/-- msat/hrit/MSG_data_SGS_header.cpp:44-64 `MSG_SGSCommonHeader::read_from` -/
def sgsCommon : ReadFrom := body [
    adv 4,
    get [.f "NominalSGSProductTime"] .t6 0, adv 6,
    get [.f "SGSProductQuality"] .u1 0, adv 1,
    get [.f "SGSProductCompleteness"] .u1 0, adv 1,
    get [.f "SGSProductTimeliness"] .u1 0, adv 1,
    get [.f "SGSProcessingInstanceId"] .u1 0, adv 1,
    get [.f "BaseAlgorithmVersion"] (.mem 16 16) 0, adv 16,
    get [.f "ProductAlgorithmVersion"] (.mem 16 16) 0, adv 16]

/-- msat/hrit/MSG_data_SGS_header.cpp:102-115, 141-146, 162-168: the common header, then the header
of the image product: 4 bytes skipped, a length, and length less 8 (in 32 bits) bytes of data. -/
def sgsData (env : Env) (data : Bytes) : Outcome Sgs := do
  let c ← run sgsCommon data 0
  let l ← ui4 data (c.2 + 4)
  new env (u32sub l 8)
  let d ← slice data (c.2 + 8) (u32sub l 8)
  pure { common := c.1, length := l, data := d }

/-- `s.find(sub) != std::string::npos` -/
def contains (s sub : Bytes) : Bool := (List.range (s.length + 1)).any fun i => sub.isPrefixOf (s.drop i)

/-- The foreign satellites of msat/hrit/MSG_data.cpp:211-221 -/
def foreign (product : Bytes) : Bool :=
  contains product (str "GOES") || contains product (str "GMS") || contains product (str "MTSAT") ||
  contains product (str "NOAA") || contains product (str "METOP")

/-- Files written while reading: name and content. -/
abbrev Written := List (Bytes × Bytes)

/-- msat/hrit/MSG_data_gts.cpp:79-85 `MSG_data_gts::dump(std::string)`: the file is opened for
writing, which empties it; nothing is said when that fails. -/
def dumpGts (env : Env) (name data : Bytes) : Written :=
  if env.creatable name then [(name, data)] else []

/-- msat/hrit/MSG_data.cpp:83-301 `MSG_data::read_from`: `rest` is what follows the header in the
file. -/
def readData (env : Env) (d : Data) (h : Header) (rest : Bytes) : Outcome (Data × Written) :=
  let d := { d with typecode := some h.typecode }
  match h.typecode with
  | 0 => do
    let data ← dataField env h rest
    let i ← imageData env h data
    pure ({ d with image := some i }, [])
  | 1 => do
    let data ← dataField env h rest
    let g ← gtsData env data
    match h.annotation with
    | none => .ub
    | some a => pure ({ d with gts := some g }, dumpGts env (a.text ++ str ".bin") data)
  | 2 => do
    let data ← dataField env h rest
    let t ← textData env data
    pure ({ d with text := some t }, [])
  | 3 => do
    let data ← dataField env h rest
    let k ← keyData env data
    pure ({ d with key := some k }, [])
  | 128 => do
    let data ← dataField env h rest
    match h.annotation with
    | none => .ub
    | some a =>
      if contains a.product1 (str "MSG") then do
        let p ← run prologueData data 0
        pure ({ d with prologue := some p.1 }, [])
      else if foreign a.product1 then do
        let s ← sgsData env data
        pure ({ d with sgs := some s }, [])
      else pure (d, [])
  | 129 => do
    let data ← dataField env h rest
    match h.annotation with
    | none => .ub
    | some a =>
      if contains a.product1 (str "MSG") then do
        let p ← run epilogueData data 0
        pure ({ d with epilogue := some p.1 }, [])
      else pure (d, [])
  | 130 => pure (d, [])
  | 144 => do
    let data ← dataField env h rest
    match h.annotation with
    | none => .ub
    | some a =>
      if env.creatable (a.text ++ str ".bin") then pure (d, [(a.text ++ str ".bin", data)])
      else .terminate
  | _ => .terminate

/-- msat/hrit/MSG_HRIT.cpp:43-48 `MSG_HRIT::read`, on the content of the file. -/
def readFile (env : Env) (file : Bytes) : Outcome (Header × Data × Written) := do
  let (h, rest) ← readHeader .fresh file
  let (d, w) ← readData env .fresh h rest
  pure (h, d, w)

/-! ### printing -/

/-- `(int) n` of a `size_t` -/
def toInt32 (n : Nat) : Int := if n % 2 ^ 32 < 2 ^ 31 then (n % 2 ^ 32 : Nat) else ((n % 2 ^ 32 : Nat) : Int) - 2 ^ 32

/-- What is printed of a data field, titles apart: the samples, one per line; the text; station, number,
text and checksum of each key. -/
inductive Shown where
  | samples (s : List Nat)
  | text (t : Bytes)
  | keys (k : List (Val × Val × Bytes × Val))
  | other
deriving DecidableEq, Repr

/-- msat/hrit/MSG_data_image.cpp:80-85: `data[pix]` for every `pix` below `(int) len`. -/
def printImage (i : Image) : Outcome (List Nat) :=
  if toInt32 i.len ≤ i.samples.length then .ok (i.samples.take (toInt32 i.len).toNat) else .ub

/-- A C string in a block of characters: what comes before its first NUL, which has to be there. -/
def cString (t : Bytes) : Outcome Bytes := if (0 : UInt8) ∈ t then .ok (t.takeWhile (· ≠ 0)) else .ub

/-- msat/hrit/MSG_data_key.cpp:72-81: `std::string keystr = k.Public_key` of an array of 192
characters. -/
def printKey (k : List (Path × Val)) : Outcome (Val × Val × Bytes × Val) :=
  match k.lookup [.f "User_Station_number"], k.lookup [.f "Key_Number"], k.lookup [.f "Public_key"],
    k.lookup [.f "Public_Key_CRC"] with
  | some s, some n, some (.bytes b), some c => do let t ← cString b; pure (s, n, t, c)
  | _, _, _, _ => .ub

/-- The loop of msat/hrit/MSG_data_key.cpp:89-93 -/
def printKeys : List (List (Path × Val)) → Outcome (List (Val × Val × Bytes × Val))
  | [] => .ok []
  | k :: ks => do let x ← printKey k; let xs ← printKeys ks; pure (x :: xs)

/-- msat/hrit/MSG_data.cpp:303-339 `operator<<(std::ostream&, MSG_data&)`; the text in
msat/hrit/MSG_data_text.cpp:88-97.  The texts of the prologue, of the epilogue and of meteorological
messages are not modelled, only that there has to be one. -/
def printData (d : Data) : Outcome Shown :=
  match d.typecode with
  | none => .ub
  | some 0 => match d.image with | none => .ub | some i => do let s ← printImage i; pure (.samples s)
  | some 1 => match d.gts with | none => .ub | some _ => .ok .other
  | some 2 => match d.text with | none => .ub | some t => do let s ← cString t; pure (.text s)
  | some 3 => match d.key with | none => .ub | some k => do let s ← printKeys k; pure (.keys s)
  | some 128 => match d.prologue with | none => .ub | some _ => .ok .other
  | some 129 => match d.epilogue with | none => .ub | some _ => .ok .other
  | some _ => .ok .other

/-! ### msat/xrit/dataaccess.cpp -/

/-- The files of the disk that can be opened, by name. -/
abbrev Disk := Bytes → Option Bytes

/-- msat/xrit/dataaccess.cpp:45-52 `DataAccess::read_file(file, head)`: the header object given is
filled, keeping the records of what was read into it before. -/
def readFileHeader (disk : Disk) (h0 : Header) (name : Bytes) : Outcome Header :=
  match disk name with
  | none => .throws "cannot open"
  | some file => do let (h, _) ← readHeader h0 file; pure h

/-- msat/xrit/dataaccess.cpp:54-65 `DataAccess::read_file(file, head, data)`, with the new header and
data objects of lines 174-178. -/
def readFileData (env : Env) (disk : Disk) (name : Bytes) : Outcome Data :=
  match disk name with
  | none => .throws "cannot open"
  | some file => do
    let (h, rest) ← readHeader .fresh file
    if h.segmentId.map (·.format) = some 0 then .throws "product dumped in binary format"
    else do let (d, _) ← readData env .fresh h rest; pure d

/-- What `DataAccess::segment` uses of a segment file. -/
def segDisk (env : Env) (disk : Disk) (name : Bytes) : Outcome Xrit.SegData := do
  let d ← readFileData env disk name
  pure { image := d.image.map (·.samples) }

/-- The loop of `scan`, msat/xrit/dataaccess.cpp:100-113, with the one header object used for all the
files. -/
def scanHeaders (disk : Disk) : List Bytes → List Bytes × Header → Outcome (List Bytes × Header)
  | [], st => .ok st
  | f :: fs, (names, h0) => do
    let h ← readFileHeader disk h0 f
    match h.segmentId with
    | none => .ub
    | some s =>
      if s.format = 0 then .throws "product dumped in binary format"
      else if s.sequence = 0 then scanHeaders disk fs (names, h)
      else scanHeaders disk fs (Xrit.setName names (s.sequence - 1) f, h)

/-- msat/xrit/dataaccess.cpp:67-84 `scanSegment`: the members used of the last header. -/
def segHeader (h : Header) : Outcome Xrit.SegHeader :=
  match h.segmentId, h.imageStructure, h.imageNavigation with
  | some s, some i, some n =>
    .ok { format := s.format, sequence := s.sequence, plannedEnd := s.plannedEnd, channel := s.channel,
          lines := i.lines, columns := i.columns, cfac := n.cfac }
  | _, _, _ => .ub

/-- msat/xrit/dataaccess.cpp:99-151, after the reading of prologue and epilogue; `cov` is the coverage
in the epilogue (null without one), used for HRV only. -/
def scanFiles (disk : Disk) (cov : Option Xrit.Coverage) (files : List Bytes) :
    Outcome Xrit.DataAccess := do
  let (names, last) ← scanHeaders disk files ([], .fresh)
  if names = [] then .throws "no segments found"
  else do
    let h ← segHeader last
    if h.channel = 12 then
      match cov with
      | none => .ub
      | some c => pure (Xrit.geometry names h c)
    else pure (Xrit.geometry names h (cov.getD ⟨0, 0, 0, 0, 0, 0, 0, 0⟩))

end Msat.Hrit
