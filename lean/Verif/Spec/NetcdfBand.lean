import Verif.Model.NetcdfBand

/-
Pixel types of GDAL and their values.
-/
namespace Msat.NetcdfBandSpec
open Msat NetcdfBand

/-- Types of the pixels that have one number. -/
def Plain (t : DataType) : Prop :=
  t = .byte ∨ t = .int16 ∨ t = .uint16 ∨ t = .int32 ∨ t = .uint32 ∨ t = .float32 ∨ t = .float64

/-- Smallest and largest value of an integer type; `none` for others. -/
def range : DataType → Option (Int × Int)
  | .byte => some (0, 255)
  | .int16 => some (-32768, 32767)
  | .uint16 => some (0, 65535)
  | .int32 => some (-2147483648, 2147483647)
  | .uint32 => some (0, 4294967295)
  | _ => none

/-- A cell of the given type. -/
def HasType (t : DataType) (c : Cell) : Prop :=
  match range t, c with
  | some (a, b), .bits n => a ≤ n ∧ n ≤ b
  | none, .real _ => True
  | _, _ => False

/-- A missing value that is a value of the type. -/
def NodataHasType (t : DataType) (x : Option Rat) : Prop :=
  match range t with
  | some (a, b) => ∃ n : Int, x = some (n : Rat) ∧ a ≤ n ∧ n ≤ b
  | none => True

/-- Largest value of the signed type of the same size. -/
def signedMax : DataType → Int
  | .byte => 127
  | .int16 => 32767
  | .uint16 => 32767
  | .int32 => 2147483647
  | .uint32 => 2147483647
  | _ => 0

/-- A missing value of an integer band that also is a value of the signed type; anything for floating point numbers. -/
def NodataFits (t : DataType) (x : Option Rat) : Prop :=
  match range t with
  | some (a, _) => ∃ n : Int, x = some (n : Rat) ∧ a ≤ n ∧ n ≤ signedMax t
  | none => True

end Msat.NetcdfBandSpec
