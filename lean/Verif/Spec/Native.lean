import Verif.Spec.Prologue
import Verif.Spec.Bytes

/-
Specification of MSG native data: samples packed in a string of bits, packets of a header and a content.
-/
namespace Msat.NativeSpec
open Spec Layout

/-- The `w` low bits of a number, most significant first. -/
def bits (w v : Nat) : List Bool := (List.range w).map fun i => v.testBit (w - 1 - i)

/-- The bits of a byte string, most significant bit of each byte first. -/
def bitsOfBytes (bs : List UInt8) : List Bool := bs.flatMap fun b => bits 8 b.toNat

/-- A sequence of samples of ten bits, packed one after the other. -/
def bitsOfSamples (ss : List Nat) : List Bool := ss.flatMap fun s => bits 10 s

/-- Members of a packet header, msat/msg-native/MSG_native_packetheader.h:30-56, in the order of the file. -/
def packetHeaderLay : Lay := .struct [
    ("HeaderVersionNo", u1), ("PacketType", u1), ("SubHeaderType", u1), ("SourceFacilityId", u1),
    ("SourceEnvId", u1), ("SourceInstanceId", u1), ("SourceSUId", u4), ("SourceCPUId", .arr 4 u1),
    ("DestFacilityId", u1), ("DestEnvId", u1), ("SequenceCount", u2), ("PacketLength", u4),
    ("SubHeaderVersionNo", u1), ("ChecksumFlag", u1), ("Acknowledgement", .arr 4 u1), ("ServiceType", u1),
    ("ServiceSubtype", u1), ("PacketTime", t6), ("SpacecraftId", u2)]

/-- Members of a line header, msat/msg-native/MSG_native_line.h:71-87, in the order of the file. -/
def lineHeaderLay : Lay := .struct [
    ("LINE1_5Version", u1), ("SatelliteId", u2), ("TrueRepeatCycleStart", t10), ("LineNumberInGrid", u4),
    ("ChannelId", u1), ("L10LineMeanAcquisitionTime", t6), ("LineValidity", u1),
    ("LineRadiometricQuality", u1), ("LineGeometricQuality", u1)]

/-- A packet header (38 bytes) that announces `n` bytes after it: the length counts 15 bytes of it. -/
def Announces (hdr : List UInt8) (n : Nat) : Prop :=
  hdr.length = 38 ∧ beVal ((hdr.drop 18).take 4) = n + 15

/-- A line of the file: the packet header announces the line header (27 bytes) and the data. -/
def LineBytes (bytes data : List UInt8) : Prop :=
  ∃ pkh lh, bytes = pkh ++ lh ++ data ∧ lh.length = 27 ∧ Announces pkh (27 + data.length)

/-- The lines of an image, in the order of the file: for each line the selected channels in increasing order,
three lines of channel 11 (HRV) for one of the others. -/
def imageOrder (selected : Nat → Bool) (nlines : Nat) : List Nat :=
  (List.replicate nlines ((((List.range 11).filter selected) ++ if selected 11 then [11, 11, 11] else []))).flatten

/-- A text field of the header: the text and NUL bytes up to the width of the field. -/
def field (w : Nat) (t : List UInt8) : List UInt8 := t ++ List.replicate (w - t.length) 0

/-- The text fits in a field of width `w`. -/
def Fits (w : Nat) (t : List UInt8) : Prop := t.length < w ∧ (0 : UInt8) ∉ t

/-- The text header: six records of 80 bytes, five product entries (46 bytes of name and size, 16 bytes of
address), 1364 bytes that are not used, 37 records of 80 bytes. -/
def textHeader (a : List (List UInt8)) (b : List (List UInt8 × List UInt8)) (gap : List UInt8)
    (c : List (List UInt8)) : List UInt8 :=
  a.flatMap (field 80) ++ b.flatMap (fun x => field 46 x.1 ++ field 16 x.2) ++ gap ++ c.flatMap (field 80)

end Msat.NativeSpec
