import Verif.Spec.Datetime

/-
Times of day counts from 1958 as dates of the calendar, and their texts.  Independent of the model.
-/
namespace Msat.TimeTextsSpec
open Msat Spec TextSpec DatetimeSpec

/-- The date is that many days after the first of January 1958. -/
def On (days y m d : Nat) : Prop :=
  1958 ≤ y ∧ ValidDate y m d ∧ daysBetweenYears 1958 y + daysBeforeMonth y m + (d - 1) = days

/-- YYYY-MM-DD hh:mm:ss +mmm.uuunnn msecs, where a part of the fraction may be missing; `msec` are the milliseconds of the day. -/
def timeText (y m d msec : Nat) (fraction : Bytes) : Bytes :=
  stamp y m d (msec / 3600000 % 24) (msec / 60000 % 60) (msec / 1000 % 60) ++ str " +" ++ digits 3 (msec % 1000) ++ fraction ++
    str " msecs"

/-- YYYYMMDDhhmmssZ -/
def generalized (y mo d h mi s : Nat) : Bytes :=
  digits 4 y ++ digits 2 mo ++ digits 2 d ++ digits 2 h ++ digits 2 mi ++ digits 2 s ++ str "Z"

end Msat.TimeTextsSpec
