import Verif.Spec.TextNumber
import Verif.Spec.Calendar

/-
Dates and times as text, and as seconds since 2000.  Independent of the model.
-/
namespace Msat.DatetimeSpec
open Msat Spec TextSpec

/-- YYYY-MM-DD HH:MM:SS -/
def stamp (y mo d h mi s : Nat) : Bytes :=
  digits 4 y ++ [45] ++ digits 2 mo ++ [45] ++ digits 2 d ++ [32] ++ digits 2 h ++ [58] ++ digits 2 mi ++ [58] ++ digits 2 s

/-- The parts have at most four and two digits. -/
def Fits (y mo d h mi s : Nat) : Prop := y ≤ 9999 ∧ mo ≤ 99 ∧ d ≤ 99 ∧ h ≤ 99 ∧ mi ≤ 99 ∧ s ≤ 99

/-- Seconds from the beginning of 2000 to a date and time of the Gregorian calendar not before 2000. -/
def since2000 (y mo d h mi s : Nat) : Nat :=
  (daysBetweenYears 2000 y + daysBeforeMonth y mo + (d - 1)) * 86400 + h * 3600 + mi * 60 + s

end Msat.DatetimeSpec
