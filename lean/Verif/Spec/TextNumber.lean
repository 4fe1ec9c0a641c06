import Verif.Model.Basic

/-
Decimal numbers in text.  Independent of the model.
-/
namespace Msat.TextSpec
open Msat

/-- Characters of a number: digits, and blanks that stand for zeros. -/
def Numeral (text : Bytes) : Prop := ∀ c ∈ text, c = 32 ∨ (48 ≤ c ∧ c ≤ 57)

/-- What a character counts. -/
def digitValue (c : UInt8) : Nat := if c = 32 then 0 else c.toNat - 48

/-- The number that is written, as a whole number. -/
def value (text : Bytes) : Nat := text.foldl (fun a c => 10 * a + digitValue c) 0

/-- The `k` last decimal digits of a number as text. -/
def digits : Nat → Nat → Bytes
  | 0, _ => []
  | k + 1, n => digits k (n / 10) ++ [UInt8.ofNat (48 + n % 10)]

end Msat.TextSpec
