import Mathlib.Analysis.SpecialFunctions.Exp
import Verif.Spec.Satellites

/-
Radiances and temperatures of SEVIRI, after EUMETSAT's "Conversion from effective radiances to equivalent brightness temperatures".
-/
namespace Msat.SeviriSpec

/-- The radiance of a black body at a wave number (in 1/cm) and a temperature: Planck's law, in mW/(m² sr 1/cm). -/
noncomputable def planck (ν T : ℝ) : ℝ := 0.0000119104 * ν ^ 3 / (Real.exp (1.43877 * ν / T) - 1)

/-- The effective radiance of a channel with central wave number `ν` and coefficients `α` and `β`. -/
noncomputable def effective (k : ℝ × ℝ × ℝ) (T : ℝ) : ℝ := planck k.1 (k.2.1 * T + k.2.2)

/-- The constants of the thermal channels, 4 to 11, as the library has them. -/
noncomputable def constants : Nat → Option (ℝ × ℝ × ℝ)
  | 4 => some (2569.094, 0.9959, 3.471)
  | 5 => some (1598.566, 0.9963, 2.2219)
  | 6 => some (1362.142, 0.9991, 0.485)
  | 7 => some (1149.083, 0.9996, 0.181)
  | 8 => some (1034.345, 0.9999, 0.060)
  | 9 => some (930.659, 0.9983, 0.627)
  | 10 => some (839.661, 0.9988, 0.397)
  | 11 => some (752.381, 0.9981, 0.576)
  | _ => none

/-- What a pixel says, in a band with a missing value, a scale and an offset: `none` if it is missing. -/
noncomputable def reading (nodata scale offset v : ℝ) : Option ℝ := by
  classical exact if v = nodata then none else some (v * scale + offset)

end Msat.SeviriSpec
