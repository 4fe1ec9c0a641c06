import Mathlib.Analysis.SpecialFunctions.Trigonometric.Inverse
import Verif.Model.Facts
import Verif.Model.Solar

/-
Functions of msat/hrit/MSG_data_RadiometricProc.cpp that are not used elsewhere.

Simplification: `double` and `float` are exact real numbers.
-/
namespace Msat.Radiance
open Msat Real

/-- msat/hrit/MSG_data_RadiometricProc.cpp:650-657 `scan2zen`; `asin` of a number below -1 is not a number (`none`). -/
noncomputable def scan2zen (scan satheight : ℝ) : Option ℝ :=
  let temp := (6357.0 + satheight) * (sin scan / 6357.0)
  let temp := if temp > 1.0 then 1.0 else temp
  if temp < -1 then none else some (arcsin temp)

/-- msat/hrit/MSG_data_RadiometricProc.cpp:659-660 -/
noncomputable def cos80 : ℝ := 0.173648178

/-- msat/hrit/MSG_data_RadiometricProc.cpp:662-687 `radiance_to_reflectance`, where `cosSza` is what `cos_sol_za` returns;
`throw;` without an exception ends the program. -/
noncomputable def radianceToReflectance (chnum : Int) (radiance : ℝ) (year month day : Int) (cosSza : ℝ) : Outcome ℝ :=
  if chnum ≠ 1 ∨ chnum ≠ 2 ∨ chnum ≠ 3 ∨ chnum ≠ 12 then .terminate
  else
    let jd := Facts.jday year month day
    let esd := 1.0 - 0.0167 * cos (2.0 * π * ((jd - 3 : ℤ) : ℝ) / 365.0)
    let one := 1.0 / (esd * esd)
    let tr := if chnum = 1 then 20.76 * one else if chnum = 2 then 23.24 * one else if chnum = 3 then 19.85 * one else 25.11 * one
    if cosSza < cos80 then .ok cos80 else .ok (100.0 * radiance / tr / cosSza)

end Msat.Radiance
