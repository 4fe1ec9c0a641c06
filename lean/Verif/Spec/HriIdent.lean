import Verif.Spec.Calendar
import Verif.Spec.HriFile

/-
What the 48 bytes of identification of an HRI file say.
-/
namespace Msat.HriSpec
open Msat Spec

/-- Two bytes, big endian, without sign. -/
def word (s : Bytes) (n : Nat) : Nat := (s.getD n 0).toNat * 256 + (s.getD (n + 1) 0).toNat

/-- The satellites. -/
def satelliteName (b0 b1 : Nat) : Option String :=
  if b0 = 212 then
    if b1 ≤ 240 then some "METEOSAT"
    else ["METEOSAT-1", "METEOSAT-2", "METEOSAT-3", "METEOSAT-4", "METEOSAT-5", "METEOSAT-6", "METEOSAT-7", "METEOSAT-8", "METEOSAT-9",
      "METEOSAT-10", "METEOSAT-11", "METEOSAT-12", "METEOSAT-13", "METEOSAT-14", "METEOSAT-15"][b1 - 241]?
  else if b0 = 0 then ["GOES-E", "GOES-W", "GMS", "GOMS"][b1]?
  else none

/-- Day `n` of year `y`, counted from 1, is day `d` of month `m`. -/
def dayOfYear (y n m d : Nat) : Prop := ValidDate y m d ∧ daysBeforeMonth y m + d = n

/-- The day of the week, Sunday 0, of day `n` of year `y`; the first of January of 1970 was a Thursday. -/
def weekdayOf (y n : Nat) : Nat := (4 + daysBetweenYears 1970 y + (n - 1)) % 7

end Msat.HriSpec
