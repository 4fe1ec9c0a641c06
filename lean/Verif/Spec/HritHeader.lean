import Verif.Spec.Bytes

/-
Specification: the binary encoding of HRIT header records (CGMS LRIT/HRIT specification, as
used by the library), independent of the model.
-/
namespace Msat.HritSpec
open Msat.Spec

/-- Quality information of one image line. -/
structure LineQ where
  line : Int
  day : Nat
  msec : Nat
  validity : Nat
  radiometric : Nat
  geometric : Nat

/-- An HRIT secondary header record, with its field values. -/
inductive Rec where
  | imageStructure (bpp columns lines compression : Nat)
  | navigation (projection : List UInt8) (cfac lfac coff loff : Int)
  | dataFunction (text : List UInt8)
  | annotation (text : List UInt8)
  | timestamp (pfield day msec : Nat)
  | ancillary (text : List UInt8)
  | key (number seed : Nat)
  | segmentId (spacecraft channel sequence plannedStart plannedEnd format : Nat)
  | lineQuality (lines : List LineQ)

/-- Encoding of a line quality entry: 13 bytes. -/
def LineQ.encode (q : LineQ) : List UInt8 :=
  encBE 4 (pattern 32 q.line) ++ encBE 2 q.day ++ encBE 4 q.msec ++ encBE 1 q.validity ++
  encBE 1 q.radiometric ++ encBE 1 q.geometric

/-- Record type code. -/
def Rec.code : Rec → Nat
  | imageStructure .. => 1
  | navigation .. => 2
  | dataFunction .. => 3
  | annotation .. => 4
  | timestamp .. => 5
  | ancillary .. => 6
  | key .. => 7
  | segmentId .. => 128
  | lineQuality .. => 129

/-- Record content after type and length. -/
def Rec.body : Rec → List UInt8
  | imageStructure bpp c l comp => encBE 1 bpp ++ encBE 2 c ++ encBE 2 l ++ encBE 1 comp
  | navigation p a b c d =>
      p ++ encBE 4 (pattern 32 a) ++ encBE 4 (pattern 32 b) ++ encBE 4 (pattern 32 c) ++
      encBE 4 (pattern 32 d)
  | dataFunction t => t
  | annotation t => t
  | timestamp p d m => encBE 1 p ++ encBE 2 d ++ encBE 4 m
  | ancillary t => t
  | key n s => encBE 1 n ++ encBE 8 s
  | segmentId sc ch sq st en df =>
      encBE 2 sc ++ encBE 1 ch ++ encBE 2 sq ++ encBE 2 st ++ encBE 2 en ++ encBE 1 df
  | lineQuality qs => qs.flatMap LineQ.encode

/-- A record: type (1 byte), length of the whole record (2 bytes), content. -/
def Rec.encode (r : Rec) : List UInt8 :=
  encBE 1 r.code ++ encBE 2 (3 + r.body.length) ++ r.body

/-- Fields within the range of their encoding. -/
def LineQ.InRange (q : LineQ) : Prop :=
  -2 ^ 31 ≤ q.line ∧ q.line < 2 ^ 31 ∧ q.day < 2 ^ 16 ∧ q.msec < 2 ^ 32 ∧ q.validity < 2 ^ 8 ∧
  q.radiometric < 2 ^ 8 ∧ q.geometric < 2 ^ 8

/-- Fields within the range of their encoding.  Text fields are free of NUL bytes; the projection
is 32 characters long, is not polar stereographic, and has its parameter in parentheses if it is
geostationary; an image has less than 2^31 pixels. -/
def Rec.InRange : Rec → Prop
  | imageStructure bpp c l comp =>
      bpp < 2 ^ 8 ∧ c < 2 ^ 16 ∧ l < 2 ^ 16 ∧ comp < 2 ^ 8 ∧ c * l < 2 ^ 31
  | navigation p a b c d =>
      p.length = 32 ∧ (0 : UInt8) ∉ p ∧ (p.head? = some 71 → (41 : UInt8) ∈ p.drop 5) ∧
      p.take 2 ≠ [80, 79] ∧
      (∀ v ∈ [a, b, c, d], -2 ^ 31 ≤ v ∧ v < 2 ^ 31)
  | dataFunction t => (0 : UInt8) ∉ t ∧ t.length + 3 < 2 ^ 16
  | annotation t => t.length = 61 ∧ (0 : UInt8) ∉ t
  | timestamp p d m => p < 2 ^ 8 ∧ d < 2 ^ 16 ∧ m < 2 ^ 32
  | ancillary t => 0 < t.length ∧ t.length + 3 < 2 ^ 16
  | key n s => n < 2 ^ 8 ∧ s < 2 ^ 64
  | segmentId sc ch sq st en df =>
      sc < 2 ^ 16 ∧ ch < 2 ^ 8 ∧ sq < 2 ^ 16 ∧ st < 2 ^ 16 ∧ en < 2 ^ 16 ∧ df < 2 ^ 8
  | lineQuality qs => 13 * qs.length + 3 < 2 ^ 16 ∧ ∀ q ∈ qs, q.InRange

/-- Number of lines announced by the last image structure record of a sequence. -/
def imageLines : List Rec → Option Nat :=
  fun rs => (rs.filterMap fun | .imageStructure _ _ l _ => some l | _ => none).getLast?

/-- A line quality record must come after an image structure record and describe all its lines. -/
def QualityConsistent (rs : List Rec) : Prop :=
  ∀ before qs after, rs = before ++ .lineQuality qs :: after → imageLines before = some qs.length

/-- A whole header: the 16-byte primary header, then the records. -/
def encodeHeader (typecode dataFieldBits : Nat) (rs : List Rec) : List UInt8 :=
  encBE 1 0 ++ encBE 2 16 ++ encBE 1 typecode ++
  encBE 4 (16 + (rs.flatMap Rec.encode).length) ++ encBE 8 dataFieldBits ++ rs.flatMap Rec.encode

/-- Which announced lengths a record of a given type may have: six types have a fixed length. -/
def LengthAllowed (code len : Nat) : Prop :=
  (code = 1 ∧ len = 9) ∨ (code = 2 ∧ len = 51) ∨ (code = 3 ∧ 3 ≤ len) ∨ (code = 4 ∧ len = 64) ∨
  (code = 5 ∧ len = 10) ∨ (code = 6 ∧ 4 ≤ len) ∨ (code = 7 ∧ len = 12) ∨ (code = 128 ∧ len = 13) ∨
  (code = 129 ∧ 0 < len)

/-- A byte string that is a chain of records of known types, each with an allowed announced length that
leads exactly to the next record or to the end. -/
inductive Framed : List UInt8 → Prop
  | nil : Framed []
  | record (code hi lo : UInt8) (tl : List UInt8) :
      LengthAllowed code.toNat (beVal [hi, lo]) →
      beVal [hi, lo] ≤ (code :: hi :: lo :: tl).length →
      Framed ((code :: hi :: lo :: tl).drop (beVal [hi, lo])) →
      Framed (code :: hi :: lo :: tl)

/-- The last of the values of interest found in a sequence of records. -/
def lastOf {β : Type} (g : Rec → Option β) (rs : List Rec) : Option β := (rs.filterMap g).getLast?

end Msat.HritSpec
