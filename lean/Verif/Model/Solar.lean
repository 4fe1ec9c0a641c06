import Mathlib.Analysis.SpecialFunctions.Trigonometric.Basic
import Mathlib.Analysis.SpecialFunctions.Trigonometric.Arctan
import Mathlib.Analysis.SpecialFunctions.Pow.Real
import Verif.Model.Basic

/-
Positions of the sun and of the satellite: msat/facts.cpp, and the bands computed from them, gdal/reflectance/.

Simplification: `double` and `float` are exact real numbers, infinities and NaN.
-/
namespace Msat.Solar
open Real

/-- msat/facts.cpp:619 `dpy`, 617 `sinob`, 621 `dph`, 623 `rpd`, 625 `dpr` -/
noncomputable def dpy : ℝ := 365.242
noncomputable def sinob : ℝ := 0.3978
noncomputable def dph : ℝ := 15.0
noncomputable def rpd : ℝ := π / 180.0
noncomputable def dpr : ℝ := 1.0 / rpd

/-- msat/facts.cpp:627: angle in the orbit of the earth. -/
noncomputable def dang (jday : ℤ) : ℝ := 2.0 * π * ((jday - 1 : ℤ) : ℝ) / dpy

/-- msat/facts.cpp:628-629: hour of noon. -/
noncomputable def homp (jday : ℤ) : ℝ :=
  12.0 + 0.123570 * sin (dang jday) - 0.004289 * cos (dang jday) + 0.153809 * sin (2.0 * dang jday) +
    0.060783 * cos (2.0 * dang jday)

/-- msat/facts.cpp:631: hour angle in degrees. -/
noncomputable def hang (jday : ℤ) (hour dlon : ℝ) : ℝ := dph * (hour - homp jday) + dlon

/-- msat/facts.cpp:632 -/
noncomputable def ang (jday : ℤ) : ℝ := 279.9348 * rpd + dang jday

/-- msat/facts.cpp:633-634 -/
noncomputable def sigma (jday : ℤ) : ℝ :=
  (ang jday * dpr + 0.4087 * sin (ang jday) + 1.8724 * cos (ang jday) - 0.0182 * sin (2.0 * ang jday) +
    0.0083 * cos (2.0 * ang jday)) * rpd

/-- msat/facts.cpp:636: sine of the declination of the sun. -/
noncomputable def sindlt (jday : ℤ) : ℝ := sinob * sin (sigma jday)

/-- msat/facts.cpp:638: cosine of the declination of the sun. -/
noncomputable def cosdlt (jday : ℤ) : ℝ := √(1.0 - sindlt jday * sindlt jday)

/-- msat/facts.cpp:612-643 `cos_sol_za` -/
noncomputable def cosSolZa (jday : ℤ) (hour dlat dlon : ℝ) : ℝ :=
  sindlt jday * sin (rpd * dlat) + cosdlt jday * cos (rpd * dlat) * cos (rpd * hang jday hour dlon)

/-- `EARTH_RADIUS / ORBIT_RADIUS`, msat/facts.h:11-16 -/
noncomputable def rrh : ℝ := 6378.1370 / 42164.0

/-- `atan(a / b)` for `0 ≤ b`; dividing a positive or negative number by zero gives an infinity. -/
noncomputable def atanDiv (a b : ℝ) : ℝ := if b = 0 then (if 0 < a then π / 2 else -(π / 2)) else arctan (a / b)

/-- msat/facts.cpp:545-573 `sat_za` -/
noncomputable def satZa (lat lon : ℝ) : ℝ :=
  let rlat := lat * π / 180.0
  let rlon := lon * π / 180.0
  let cosg := cos rlon * cos rlat
  let ele := atanDiv (cosg - rrh) (√(1 - cosg * cosg))
  π / 2 - ele

/-- A floating point number; `inf true` is the negative infinity. -/
inductive Fp where
  | nan
  | inf (neg : Bool)
  | fin (r : ℝ)

/-- "Normalise outliars": gdal/reflectance/reflectance.cpp:154-164 and 298-308, cos_sol_za.cpp:68-78, sat_za.cpp:54-64;
`hi` is the upper bound and `tiny` the smallest number that is not subnormal. -/
noncomputable def normalise (tiny hi : ℝ) : Fp → ℝ
  | .nan => 0
  | .inf true => 0
  | .inf false => hi
  | .fin r => if |r| < tiny then 0 else if r < 0 then 0 else if hi < r then hi else r

/-- Smallest normal `float` and `double`. -/
noncomputable def tinyFloat : ℝ := 2⁻¹ ^ 126
noncomputable def tinyDouble : ℝ := 2⁻¹ ^ 1022

/-- A pixel of gdal/reflectance/cos_sol_za.cpp:51-81 `IReadBlock`; a pixel that is not on earth has no position: its
coordinates are infinite, and the cosine is NaN. -/
noncomputable def cosSolZaPixel (jday : ℤ) (daytime : ℝ) (pos : Option (ℝ × ℝ)) : ℝ :=
  normalise tinyDouble 1 (match pos with
    | none => .nan
    | some (lat, lon) => .fin (cosSolZa jday daytime lat lon))

/-- A pixel of gdal/reflectance/sat_za.cpp:40-70 `IReadBlock` -/
noncomputable def satZaPixel (pos : Option (ℝ × ℝ)) : ℝ :=
  normalise tinyDouble 1 (match pos with
    | none => .nan
    | some (lat, lon) => .fin (satZa lat lon))

/-! ### Reflectances -/

/-- gdal/reflectance/reflectance.cpp:113 and 249: distance from the sun. -/
noncomputable def esd (jday : ℤ) : ℝ := 1.0 - 0.0167 * cos (2.0 * π * ((jday - 3 : ℤ) : ℝ) / 365.0)

/-- gdal/reflectance/reflectance.cpp:114-121: `none` for channels that are refused. -/
noncomputable def tr (channel : Int) (jday : ℤ) : Option ℝ :=
  if channel = 1 then some (20.76 / (esd jday * esd jday))
  else if channel = 2 then some (23.24 / (esd jday * esd jday))
  else if channel = 3 then some (19.85 / (esd jday * esd jday))
  else if channel = 12 then some (25.11 / (esd jday * esd jday))
  else none

/-- `cos80`, reflectance.cpp:50 -/
noncomputable def cos80 : ℝ := 0.173648178

/-- reflectance.cpp:148-150: the cosine that is divided by. -/
noncomputable def boundedCos (c : ℝ) : ℝ := if c < cos80 then cos80 else c

/-- A pixel of reflectance.cpp:130-168 `SingleChannelReflectanceRasterBand::IReadBlock` -/
noncomputable def singlePixel (tr : ℝ) (jday : ℤ) (daytime raw slope offset : ℝ) (pos : Option (ℝ × ℝ)) : ℝ :=
  normalise tinyFloat 100 (match pos with
    | none => .nan
    | some (lat, lon) => .fin (100.0 * (raw * slope + offset) / tr / boundedCos (cosSolZa jday daytime lat lon)))

/-- reflectance.cpp:243-248 -/
noncomputable def c1 : ℝ := 0.0000119104
noncomputable def c2 : ℝ := 1.43877
noncomputable def Vc : ℝ := 2569.094
noncomputable def A : ℝ := 0.9959
noncomputable def B : ℝ := 3.471

/-- The Planck function, reflectance.cpp:273 and 276. -/
noncomputable def planck (bt : ℝ) : ℝ := c1 * (Vc * Vc * Vc) / (exp (c2 * Vc / (A * bt + B)) - 1)

/-- reflectance.cpp:266-269: what the fourth root is taken of. -/
noncomputable def co2Base (bt039 bt108 bt134 : ℝ) : ℝ := bt039 ^ 4 + bt108 ^ 4 - (bt108 - (bt108 - bt134) / 4) ^ 4

/-- reflectance.cpp:275 -/
noncomputable def r39corr (bt108 bt134 : ℝ) : ℝ := ((bt108 - 0.25 * (bt108 - bt134)) / bt108) ^ 4

/-- reflectance.cpp:273, 276, 284-289: radiances, `R_tot`, `R_therm` and `TOARAD`. -/
noncomputable def rTot0 (bt039 bt108 bt134 : ℝ) : ℝ := planck (co2Base bt039 bt108 bt134 ^ (0.25 : ℝ)) + 0.015
noncomputable def rTherm (bt108 bt134 : ℝ) : ℝ := planck bt108 * r39corr bt108 bt134
noncomputable def toarad0 (jday : ℤ) (bt108 bt134 cosTeta sat : ℝ) : ℝ :=
  4.92 / (esd jday * esd jday) * cosTeta ^ (0.75 : ℝ) * exp (-(1 - r39corr bt108 bt134) * cosTeta) *
    exp (-(1 - r39corr bt108 bt134) / cos sat)

/-- reflectance.cpp:290-291 -/
noncomputable def above (x therm : ℝ) : ℝ := if x ≤ therm then therm + 0.0000001 else x

/-- No division by zero and no root of a negative number. -/
def Regular (bt039 bt108 bt134 sat : ℝ) : Prop :=
  bt108 ≠ 0 ∧ 0 ≤ co2Base bt039 bt108 bt134 ∧ A * (co2Base bt039 bt108 bt134) ^ (0.25 : ℝ) + B ≠ 0 ∧ A * bt108 + B ≠ 0 ∧
    cos sat ≠ 0

open Classical in
/-- reflectance.cpp:259-296: the reflectance before it is normalised; `other` is what the machine computes when an operation
is not regular. -/
noncomputable def refl39 (other : Fp) (jday : ℤ) (daytime bt039 bt108 bt134 lat lon : ℝ) : Fp :=
  if Regular bt039 bt108 bt134 (satZa lat lon) then
    let therm := rTherm bt108 bt134
    let cosTeta := boundedCos (cosSolZa jday daytime lat lon)
    let tot := above (rTot0 bt039 bt108 bt134) therm
    let toarad := above (toarad0 jday bt108 bt134 cosTeta (satZa lat lon)) therm
    .fin (100 * (tot - therm) / toarad)
  else other

/-- A pixel of reflectance.cpp:209-315 `Reflectance39RasterBand::IReadBlock` -/
noncomputable def pixel39 (other : Fp) (jday : ℤ) (daytime bt039 bt108 bt134 : ℝ) (pos : Option (ℝ × ℝ)) : ℝ :=
  normalise tinyFloat 100 (match pos with
    | none => .nan
    | some (lat, lon) => refl39 other jday daytime bt039 bt108 bt134 lat lon)

end Msat.Solar
