import Verif.Spec.OpenMTP
import Verif.Spec.TextNumber
import Verif.Spec.Calendar
import Mathlib.Analysis.SpecialFunctions.Log.Basic

/-
Specification for the export of OpenMTP files: what the header of a file tells.  The binary header begins at byte 1345.
-/
namespace Msat.MtpToolsSpec
open Msat MtpSpec

/-- The text in `n` bytes of the binary header, up to the first zero. -/
def text (file : Bytes) (off n : Nat) : Bytes := ((file.drop (1345 + off)).take n).takeWhile (· ≠ 0)

/-- Names of the satellites whose files are exported. -/
def satelliteName (code : Bytes) : Option Bytes :=
  if code = str "M7" then some (str "METEOSAT 7") else if code = str "M6" then some (str "METEOSAT 6") else none

/-- Channel code. -/
def code (file : Bytes) : Int := field file (1345 + 40)

/-- First line of the image in the full disk. -/
def firstLine (file : Bytes) : Int := field file (1345 + 123)

/-- The header tells a date and time: the year, the date as a number that ends in month and day, the time as hours and minutes. -/
structure At (file : Bytes) (y mo d h mi : Nat) : Prop where
  year : field file (1345 + 8) = y
  date : ∃ before : Nat, field file (1345 + 24) = before * 10000 + mo * 100 + d
  time : field file (1345 + 28) = h * 100 + mi
  valid : Spec.ValidDate y mo d
  years : 2000 ≤ y ∧ y ≤ 9999
  hour : h ≤ 23
  minute : mi ≤ 59

/-- The calibration numbers of the header: a coefficient below one in five characters and the count of space, up to 99.9, in
three. -/
structure Calibrated (file : Bytes) (cc sc : ℝ) : Prop where
  numeral : TextSpec.Numeral ((file.drop (1345 + 44)).take 8)
  coefficient : cc = TextSpec.value ((file.drop (1345 + 44)).take 5) / 100000
  space : sc = TextSpec.value ((file.drop (1345 + 49)).take 3) / 10

/-- A body of temperature `t` (kelvin) gives the radiance `r` in a channel: `r = exp (a + b / t)`, with `a` and `b` of the
channel as EUMETSAT has published them. -/
def Radiates (a b t r : ℝ) : Prop := 0 < t ∧ r = Real.exp (a + b / t)

end Msat.MtpToolsSpec
