import Verif.Model.HritData

/-
msat/msg-native: MSG native (U-MARF) files.

The `sscanf` calls of msat/msg-native/MSG_native.cpp:83-117 that take positions, band selection and sizes out
of the text header are in Model/NativeTools.lean; their results are parameters here.
-/
namespace Msat.Native
open Machine Layout

/-! ### Packet and line headers -/

/-- msat/msg-native/MSG_native_packetheader.cpp:28-56 `IMPF_Packet_Header::read_from` -/
def packetHeader : ReadFrom := bodyRet [
    get [.f "HeaderVersionNo"] .u1 0,
    get [.f "PacketType"] .u1 1,
    get [.f "SubHeaderType"] .u1 2,
    get [.f "SourceFacilityId"] .u1 3,
    get [.f "SourceEnvId"] .u1 4,
    get [.f "SourceInstanceId"] .u1 5,
    get [.f "SourceSUId"] .u4 6,
    get [.f "SourceCPUId", .i 0] .u1 10,
    get [.f "SourceCPUId", .i 1] .u1 11,
    get [.f "SourceCPUId", .i 2] .u1 12,
    get [.f "SourceCPUId", .i 3] .u1 13,
    get [.f "DestFacilityId"] .u1 14,
    get [.f "DestEnvId"] .u1 15,
    get [.f "SequenceCount"] .u2 16,
    get [.f "PacketLength"] .u4 18,
    get [.f "SubHeaderVersionNo"] .u1 22,
    get [.f "ChecksumFlag"] .u1 23,
    get [.f "Acknowledgement", .i 0] .u1 24,
    get [.f "Acknowledgement", .i 1] .u1 25,
    get [.f "Acknowledgement", .i 2] .u1 26,
    get [.f "Acknowledgement", .i 3] .u1 27,
    get [.f "ServiceType"] .u1 28,
    get [.f "ServiceSubtype"] .u1 29,
    get [.f "PacketTime"] .t6 30,
    get [.f "SpacecraftId"] .u2 36] 38

/-- `pkh_len`, msat/msg-native/MSG_native_packetheader.h:61 -/
def pkhLen : Nat := 38

/-- msat/msg-native/MSG_native_line.cpp:145-157 `MSG_native_lineheader::read_from` -/
def lineHeader : ReadFrom := bodyRet [
    get [.f "LINE1_5Version"] .u1 0,
    get [.f "SatelliteId"] .u2 1,
    get [.f "TrueRepeatCycleStart"] .t10 3,
    get [.f "LineNumberInGrid"] .u4 13,
    get [.f "ChannelId"] .u1 17,
    get [.f "L10LineMeanAcquisitionTime"] .t6 18,
    get [.f "LineValidity"] .u1 24,
    get [.f "LineRadiometricQuality"] .u1 25,
    get [.f "LineGeometricQuality"] .u1 26] 27

/-- `lhlen`, msat/msg-native/MSG_native_line.h:73 -/
def lhLen : Nat := 27

/-- `PacketLength` of a packet header. -/
def packetLength (hdr : Bytes) : Outcome Nat := ui4 hdr 18

/-- `in.read(buf, n); if (in.fail()) throw;`: a bare `throw;` terminates the program. -/
def readN (s : Bytes) (n : Nat) : Outcome (Bytes × Bytes) :=
  if n ≤ s.length then .ok (s.take n, s.drop n) else .terminate

/-! ### The header and the trailer -/

/-- Assignment of a `char *` to a `std::string`: the bytes up to the first NUL.  There is no end mark after
the buffer: without a NUL in it the search leaves the buffer. -/
def cstr (buf : Bytes) (off : Nat) : Outcome Bytes :=
  if (0 : UInt8) ∈ buf.drop off then .ok ((buf.drop off).takeWhile (· ≠ 0)) else .ub

/-- Where the entries of the text header come from, msat/msg-native/MSG_native_header.cpp:28-80: one or two
C strings each. -/
def mphOffsets : List (List Nat) :=
  [[0], [80], [160], [240], [320], [400], [480, 526], [542, 588], [604, 650], [666, 712], [728, 774]]
  ++ (List.range 37).map (fun i => [2154 + 80 * i])

/-- One entry. -/
def mphEntry (buf : Bytes) : List Nat → Outcome Bytes
  | [] => .ok []
  | o :: os => do
    let s ← cstr buf o
    let r ← mphEntry buf os
    pure (s ++ r)

/-- All the entries. -/
def mphEntries (buf : Bytes) : List (List Nat) → Outcome (List Bytes)
  | [] => .ok []
  | os :: r => do
    let s ← mphEntry buf os
    let t ← mphEntries buf r
    pure (s :: t)

/-- msat/msg-native/MSG_native_header.cpp:26-82 `U_MARF_Header::read_from` -/
def readMph (buf : Bytes) : Outcome (List Bytes) := mphEntries buf mphOffsets

/-- `mph_len`, msat/msg-native/MSG_native_header.h:36 -/
def mphLen : Nat := 5114

/-- Reading a level 1.5 packet of known size, msat/msg-native/MSG_native_header.cpp:97-116 and
MSG_native_trailer.cpp:32-52: its header and its content. -/
def readPacket (l15 : Nat) (s : Bytes) : Outcome ((Bytes × Bytes) × Bytes) := do
  let (lbuf, s) ← readN s pkhLen
  let n ← packetLength lbuf
  if l15 ≠ u64sub n 15 then .terminate
  else do
    let (body, s) ← readN s l15
    pure ((lbuf, body), s)

/-- The structures of a level 1.5 packet, msat/msg-native/MSG_native_header.cpp:117-137 and
MSG_native_trailer.cpp:53-71: each is read where the pointer `p` is, then `p` is advanced by the constant
for its length. -/
def parts : List (String × ReadFrom × Nat) → Stmt
  | [] => fun _ p => ([], p)
  | (nm, f, len) :: r => block [callAt [.f nm] f 0, adv len, parts r]

/-- msat/msg-native/MSG_native_header.cpp:119-132 -/
def headerParts : List (String × ReadFrom × Nat) :=
  [("sat_status", satelliteStatus, 60134), ("image_acquisition", imageAcquisition, 700),
   ("celestial_events", celestialEvents, 326058), ("image_description", imageDescription, 101),
   ("radiometric_proc", radiometricProc, 20815), ("geometric_proc", geometricProc, 17653),
   ("IMPF_config", iMPFConfiguration, 19786)]

/-- msat/msg-native/MSG_native_trailer.cpp:56-65 -/
def trailerParts : List (String × ReadFrom × Nat) :=
  [("product_stats", imageProdStats, 340), ("navig_result", navigExtrResult, 5680),
   ("radiometric_qlty", radiometricQuality, 371256), ("geometric_qlty", geometricQuality, 2916),
   ("timelin_comple", timelinComple, 132)]

/-- `p = l15buf + 1`, the structures, and `p - x`. -/
def level15 (ps : List (String × ReadFrom × Nat)) : ReadFrom := body [adv 1, parts ps]

/-- `l15_len`, msat/msg-native/MSG_native_header.h:44 -/
def headerLen : Nat := 445248
/-- `l15_len`, msat/msg-native/MSG_native_trailer.h:35 -/
def trailerLen : Nat := 380325

/-- msat/msg-native/MSG_native_header.cpp:84-140.  The members of the structures are decoded by the plans
of `headerParts` (see C05); here the content of the packet is returned. -/
def readNativeHeader (s : Bytes) : Outcome ((List Bytes × Bytes × Bytes) × Bytes) := do
  let (ubuf, s) ← readN s mphLen
  let mph ← readMph ubuf
  let ((lbuf, l15buf), s) ← readPacket headerLen s
  if (level15 headerParts 0).2 ≠ headerLen then .terminate
  else pure ((mph, lbuf, l15buf), s)

/-- msat/msg-native/MSG_native_trailer.cpp:27-74 -/
def readNativeTrailer (s : Bytes) : Outcome ((Bytes × Bytes) × Bytes) := do
  let ((lbuf, l15buf), s) ← readPacket trailerLen s
  if (level15 trailerParts 0).2 ≠ trailerLen then .terminate
  else pure ((lbuf, l15buf), s)

/-! ### Samples -/

/-- The loop of msat/msg-native/MSG_native_line.cpp:166-182: four samples from five bytes, as long as there
are bytes; when less than five are left it reads after the end of the data. -/
def unpack : Bytes → Outcome (List Nat)
  | [] => .ok []
  | a :: b :: c :: d :: e :: rest => do
    let ss ← unpack rest
    pure (((a.toNat <<< 2) ||| (b.toNat >>> 6)) :: (((b.toNat &&& 63) <<< 4) ||| (c.toNat >>> 4))
      :: (((c.toNat &&& 15) <<< 6) ||| (d.toNat >>> 2)) :: (((d.toNat &&& 3) <<< 8) ||| e.toNat) :: ss)
  | _ => .ub

/-- msat/msg-native/MSG_native_line.cpp:159-184 `to_sample`: `room` is the number of samples the buffer
given by the caller can hold, `none` for a null pointer.  Returns the samples stored and `*nsample`. -/
def toSample (data : Bytes) (room : Option Nat) : Outcome (List Nat × Nat) := do
  let nsample := data.length * 8 / 10
  let ss ← unpack data
  if ss.length ≤ room.getD nsample then pure (ss, nsample) else .ub

/-! ### Lines -/

/-- A line as it is in the file: packet header, line header, data. -/
structure Line where
  pkh : Bytes
  header : Bytes
  data : Bytes
deriving DecidableEq, Repr

/-- msat/msg-native/MSG_native_line.cpp:186-218 `MSG_native_line::read`.  `datasize` is unsigned: its test
for a negative value never fails, a packet that is too short asks for more memory than there is. -/
def readLine (s : Bytes) : Outcome (Line × Bytes) := do
  let (lbuf, s) ← readN s pkhLen
  let n ← packetLength lbuf
  let datasize := u64sub (u64sub n 15) lhLen
  if 2 ^ 63 ≤ datasize then .throws "bad_array_new_length"
  else do
    let (lhbuf, s) ← readN s lhLen
    let (d, s) ← readN s datasize
    pure (⟨lbuf, lhbuf, d⟩, s)

/-- msat/msg-native/MSG_native.cpp:119-134: the channels of the lines, in the order they are read: for each
line all the selected channels, with three lines for channel 11. -/
def lineOrder (selected : Nat → Bool) (nlines : Nat) : List Nat :=
  (List.range nlines).flatMap fun _ => (List.range 12).flatMap fun ic =>
    if selected ic then List.replicate (if ic = 11 then 3 else 1) ic else []

/-- The memory of the lines: block `i` is the one allocated for the `i`-th line read, `none` once it has
been deleted. -/
abbrev Heap := List (Option Bytes)

/-- A line of the lists `line[ic]`: its channel, and the pointer `data_10bit`. -/
structure Held where
  channel : Nat
  ptr : Nat
deriving DecidableEq, Repr

/-- The loop of msat/msg-native/MSG_native.cpp:119-134.  `aline.read` allocates a block (and forgets the
previous one), `push_back(aline)` copies the pointer: there is no copy constructor. -/
def readLines : List Nat → Bytes → Heap → List Held → Outcome (Heap × List Held × Bytes)
  | [], s, h, ls => .ok (h, ls, s)
  | ic :: ics, s, h, ls => do
    let (l, s) ← readLine s
    readLines ics s (h ++ [some l.data]) (ls ++ [⟨ic, h.length⟩])

/-- `delete [] data_10bit` -/
def free (h : Heap) (p : Nat) : Outcome Heap :=
  match h[p]? with
  | some (some _) => .ok (h.set p none)
  | _ => .ub

/-- What `MSG_native::read` leaves, msat/msg-native/MSG_native.cpp:118-159: when the function ends `aline`
is destroyed, and its block with it (if it ever read a line). -/
def readImage (selected : Nat → Bool) (nlines : Nat) (s : Bytes) : Outcome (Heap × List Held) := do
  let (h, ls, _) ← readLines (lineOrder selected nlines) s [] []
  match ls.getLast? with
  | none => pure (h, ls)
  | some l => do
    let h ← free h l.ptr
    pure (h, ls)

/-- Storing samples in an array of samples at position `pos`; `none` is not initialised. -/
def storeAt (buf : List (Option Nat)) (pos : Nat) (ss : List Nat) : Outcome (List (Option Nat)) :=
  if pos + ss.length ≤ buf.length then .ok (buf.take pos ++ ss.map some ++ buf.drop (pos + ss.length))
  else .ub

/-- The loop of msat/msg-native/MSG_native.cpp:233-241. -/
def dataLoop (h : Heap) (px : Nat) : Nat → List Held → List (Option Nat) → Outcome (List (Option Nat))
  | _, [], buf => .ok buf
  | count, l :: ls, buf =>
    match h[l.ptr]? with
    | some (some d) => do
      let ss ← unpack d
      let buf ← storeAt buf (count * px) ss
      dataLoop h px (count + 1) ls buf
    | _ => .ub

/-- msat/msg-native/MSG_native.cpp:221-243 `MSG_native::data` of a selected channel. -/
def channelData (h : Heap) (ls : List Held) (channel lines columns : Nat) : Outcome (List (Option Nat)) :=
  dataLoop h columns 0 (ls.filter (·.channel = channel)) (List.replicate (lines * columns) none)

/-- The loop of msat/msg-native/MSG_native.cpp:195-201 in `pgmdump`: the samples written after the text.
The first line allocates the buffer, the others reuse it. -/
def dumpLoop (h : Heap) : Option Nat → List Held → Outcome (List Nat)
  | _, [] => .ok []
  | room, l :: ls =>
    match h[l.ptr]? with
    | some (some d) => do
      let (ss, n) ← toSample d room
      let rest ← dumpLoop h (some (room.getD n)) ls
      pure (ss ++ rest)
    | _ => .ub

/-- msat/msg-native/MSG_native.cpp:178-207 `pgmdump`: the sequence of samples. -/
def dumpSamples (h : Heap) (ls : List Held) (channel : Nat) : Outcome (List Nat) :=
  dumpLoop h none (ls.filter (·.channel = channel))

/-- msat/msg-native/MSG_native.cpp:56-60 `close()`: `line[i].clear()` destroys all the lines, channel after
channel. -/
def freeAll (h : Heap) : List Held → Outcome Heap
  | [] => .ok h
  | l :: ls => do
    let h ← free h l.ptr
    freeAll h ls

/-- msat/msg-native/MSG_native.cpp:56-78: `close()` and the destructor. -/
def close (h : Heap) (ls : List Held) : Outcome Heap :=
  freeAll h ((List.range 12).flatMap fun ic => ls.filter (·.channel = ic))

end Msat.Native
