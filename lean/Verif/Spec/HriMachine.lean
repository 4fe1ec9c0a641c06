import Mathlib.Algebra.Field.Rat
import Mathlib.Algebra.Order.Field.Basic

/-
Values of IBM hexadecimal and IEEE binary floating point numbers, and of numbers in text.  Nothing of the
model is used.
-/
namespace Msat.HriSpec

/-- The sign of a number whose sign bit is bit `k`. -/
def sgn (k w : Nat) : ℚ := if w / 2 ^ k % 2 = 1 then -1 else 1

/-- An IBM number of 32 bits: sign, characteristic (7 bits, excess 64, base 16), fraction (24 bits). -/
def ibm4 (w : Nat) : ℚ := sgn 31 w * (((w % 2 ^ 24 : Nat) : ℚ) / 2 ^ 24) * (16 : ℚ) ^ (((w / 2 ^ 24 % 128 : Nat) : ℤ) - 64)

/-- An IBM number of 64 bits: the fraction has 56 bits. -/
def ibm8 (w : Nat) : ℚ := sgn 63 w * (((w % 2 ^ 56 : Nat) : ℚ) / 2 ^ 56) * (16 : ℚ) ^ (((w / 2 ^ 56 % 128 : Nat) : ℤ) - 64)

/-- An IEEE number of 32 bits; infinities and not-a-numbers have no value. -/
def ieee4 (b : Nat) : Option ℚ :=
  let e : Nat := b / 2 ^ 23 % 256
  let m : Nat := b % 2 ^ 23
  if e = 255 then none
  else if e = 0 then some (sgn 31 b * m * (2 : ℚ) ^ (-149 : ℤ))
  else some (sgn 31 b * ((2 ^ 23 + m : Nat) : ℚ) * (2 : ℚ) ^ ((e : ℤ) - 150))

/-- An IEEE number of 64 bits. -/
def ieee8 (b : Nat) : Option ℚ :=
  let e : Nat := b / 2 ^ 52 % 2048
  let m : Nat := b % 2 ^ 52
  if e = 2047 then none
  else if e = 0 then some (sgn 63 b * m * (2 : ℚ) ^ (-1074 : ℤ))
  else some (sgn 63 b * ((2 ^ 52 + m : Nat) : ℚ) * (2 : ℚ) ^ ((e : ℤ) - 1075))

/-- The bytes of a number, most significant first. -/
def bytes4 (w : Nat) : List UInt8 :=
  [UInt8.ofNat (w / 2 ^ 24), UInt8.ofNat (w / 2 ^ 16), UInt8.ofNat (w / 2 ^ 8), UInt8.ofNat w]

end Msat.HriSpec
