import Verif.Model.Basic

/-
The keys of an HRI file: 120 slots of 12 bytes, each with a mark of use, the number of the key, the number of the station (two bytes, big
endian), and the 8 bytes of the key.
-/
namespace Msat.HriSpec
open Msat

/-- Slot `i` holds a key. -/
def slotUsed (b : Bytes) (i : Nat) : Prop := b.getD (12 * i) 0 ≠ 0
/-- Its number. -/
def slotNumber (b : Bytes) (i : Nat) : Nat := (b.getD (12 * i + 1) 0).toNat
/-- Its station. -/
def slotStation (b : Bytes) (i : Nat) : Nat := (b.getD (12 * i + 2) 0).toNat * 256 + (b.getD (12 * i + 3) 0).toNat
/-- Its bytes. -/
def slotKey (b : Bytes) (i : Nat) : Bytes := (b.drop (12 * i + 4)).take 8

/-- Slot `i` holds key `number` of `station`. -/
def slotIs (b : Bytes) (station number i : Nat) : Prop := slotUsed b i ∧ slotStation b i = station ∧ slotNumber b i = number

end Msat.HriSpec
