import Mathlib.Analysis.SpecialFunctions.Exp
import Verif.Spec.HriInterp
import Verif.Spec.HriLabel

/-
Calibration of METEOSAT images: a count above the one of space stands for a radiance, in proportion; a temperature has a radiance by the
formula of the METEOSAT handbook, `exp (A + B / T)`.
-/
namespace Msat.HriSpec
open Msat.Hri

/-- `A` and `B` for the two thermal bands of METEOSAT. -/
noncomputable def handbook : Band → Option (ℝ × ℝ)
  | .IR => some (6.9618, -1255.5465)
  | .WV => some (9.2477, -2233.4882)
  | _ => none

/-- `A` and `B` for the infrared band of METEOSAT-5 over the Indian Ocean. -/
noncomputable def indoex : ℝ × ℝ := (6.7348, -1272.2)

/-- The radiance of a body at a temperature. -/
noncomputable def radiance (AB : ℝ × ℝ) (T : ℝ) : ℝ := Real.exp (AB.1 + AB.2 / T)

/-- The calibration coefficient of a band: five digits after the point, at byte 51 or 64 of the interpretation data. -/
noncomputable def coefficient (interp : List UInt8) (b : Band) : ℝ :=
  (textNumber ((interp.drop (if b = .IR then 51 else 64)).take 5) : ℝ) / 100000

/-- The count of space: two digits and a decimal one, at byte 56 or 69. -/
noncomputable def spaceCount (interp : List UInt8) (b : Band) : ℝ :=
  (textNumber ((interp.drop (if b = .IR then 56 else 69)).take 3) : ℝ) / 10

/-- All of that is in digits and spaces. -/
def isCalibrated (interp : List UInt8) (b : Band) : Prop :=
  isText ((interp.drop (if b = .IR then 51 else 64)).take 5) ∧ isText ((interp.drop (if b = .IR then 56 else 69)).take 3)

end Msat.HriSpec
