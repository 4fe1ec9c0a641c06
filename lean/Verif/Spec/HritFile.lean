import Verif.Spec.HritHeader
import Verif.Spec.Prologue

/-
Specification of whole xRIT files: a header, the data field it announces, and whatever follows.
-/
namespace Msat.HritSpec
open Msat.Spec

/-- A file of a given type with these header records and this data field; `rest` is what follows the
data field. -/
def fileOf (typecode : Nat) (rs : List Rec) (data rest : List UInt8) : List UInt8 :=
  encodeHeader typecode (8 * data.length) rs ++ (data ++ rest)

/-- The fields of the file are in the range of their encoding. -/
structure FileOk (typecode : Nat) (rs : List Rec) (data : List UInt8) : Prop where
  type : typecode < 2 ^ 8
  size : 8 * data.length < 2 ^ 64
  header : 16 + (rs.flatMap Rec.encode).length < 2 ^ 32
  records : ∀ r ∈ rs, r.InRange
  quality : QualityConsistent rs

/-- The annotation of a file: the text of its last annotation record. -/
def annotation : List Rec → Option (List UInt8) :=
  lastOf fun | .annotation t => some t | _ => none

/-- The image structure: bits per pixel, columns, lines, compression. -/
def structureOf : List Rec → Option (Nat × Nat × Nat × Nat) :=
  lastOf fun | .imageStructure a b c d => some (a, b, c, d) | _ => none

/-- The identification of the segment: spacecraft, channel, sequence number, first and last planned
segment, data format. -/
def segmentOf : List Rec → Option (Nat × Nat × Nat × Nat × Nat × Nat) :=
  lastOf fun | .segmentId a b c d e f => some (a, b, c, d, e, f) | _ => none

/-- Scaling factors and offsets of columns and lines. -/
def navigationOf : List Rec → Option (Int × Int × Int × Int) :=
  lastOf fun | .navigation _ a b c d => some (a, b, c, d) | _ => none

/-- The product in an annotation: characters 14 to 25. -/
def productOf (text : List UInt8) : List UInt8 := (text.drop 13).take 12

/-- `w` occurs in `s`. -/
def Mentions (s w : List UInt8) : Prop := ∃ a b, s = a ++ (w ++ b)

/-- The common header of the prologue of a foreign satellite, msat/hrit/MSG_data_SGS_header.h:48-56:
four bytes of another length, then the members. -/
def sgsCommonLay : Layout.Lay := .skip 4 (.struct [
    ("NominalSGSProductTime", Layout.t6),
    ("SGSProductQuality", Layout.u1),
    ("SGSProductCompleteness", Layout.u1),
    ("SGSProductTimeliness", Layout.u1),
    ("SGSProcessingInstanceId", Layout.u1),
    ("BaseAlgorithmVersion", Layout.raw 16),
    ("ProductAlgorithmVersion", Layout.raw 16)])

/-- A foreign satellite prologue: the common header, then four bytes, the length of the specific
header (with these eight bytes), and its data. -/
def sgsOf (ρ : Layout.Path → Layout.Val) (pad data : List UInt8) : List UInt8 :=
  sgsCommonLay.encode ρ ++ (pad ++ (encBE 4 (8 + data.length) ++ data))

end Msat.HritSpec
