/-
Specification of the (proleptic) Gregorian calendar, independent of the model.
-/
namespace Msat.Spec

/-- Gregorian leap years. -/
def isLeap (y : Nat) : Bool := (y % 4 == 0 && y % 100 != 0) || y % 400 == 0

/-- Number of days in a year. -/
def yearLen (y : Nat) : Nat := if isLeap y then 366 else 365

/-- Number of days in month `m` (1..12) of year `y`. -/
def daysInMonth (y m : Nat) : Nat :=
  match m with
  | 1 => 31 | 2 => if isLeap y then 29 else 28 | 3 => 31 | 4 => 30 | 5 => 31 | 6 => 30
  | 7 => 31 | 8 => 31 | 9 => 30 | 10 => 31 | 11 => 30 | 12 => 31
  | _ => 0

/-- Days from January 1st of year `a` to January 1st of year `b`. -/
def daysBetweenYears (a b : Nat) : Nat := ((List.range (b - a)).map fun k => yearLen (a + k)).sum

/-- Days of the year that precede month `m`. -/
def daysBeforeMonth (y m : Nat) : Nat :=
  ((List.range (m - 1)).map fun k => daysInMonth y (k + 1)).sum

/-- A date of the Gregorian calendar. -/
def ValidDate (y m d : Nat) : Prop := 1 ≤ m ∧ m ≤ 12 ∧ 1 ≤ d ∧ d ≤ daysInMonth y m

/-- The date following a given date. -/
def nextDate (y m d : Nat) : Nat × Nat × Nat :=
  if d < daysInMonth y m then (y, m, d + 1)
  else if m < 12 then (y, m + 1, 1) else (y + 1, 1, 1)

end Msat.Spec
