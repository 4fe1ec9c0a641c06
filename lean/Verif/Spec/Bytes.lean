/-
Specification of big-endian and little-endian encodings, independent of the model.
-/
namespace Msat.Spec

/-- The number denoted by a big-endian byte string: most significant byte first. -/
def beVal : List UInt8 → Nat
  | [] => 0
  | b :: bs => b.toNat * 256 ^ bs.length + beVal bs

/-- The number denoted by a little-endian byte string: least significant byte first. -/
def leVal : List UInt8 → Nat
  | [] => 0
  | b :: bs => b.toNat + 256 * leVal bs

/-- The `n`-byte big-endian encoding of `v`. -/
def encBE : Nat → Nat → List UInt8
  | 0, _ => []
  | n + 1, v => UInt8.ofNat (v / 256 ^ n) :: encBE n v

/-- The `n`-byte little-endian encoding of `v`. -/
def encLE (n v : Nat) : List UInt8 := (encBE n v).reverse

/-- Two's complement reading of a `w`-bit pattern. -/
def signed (w : Nat) (v : Nat) : Int :=
  if v < 2 ^ (w - 1) then (v : Int) else (v : Int) - 2 ^ w

/-- Two's complement pattern of an integer. -/
def pattern (w : Nat) (i : Int) : Nat := (i % (2 ^ w : Int)).toNat

end Msat.Spec
