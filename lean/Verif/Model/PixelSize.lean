import Mathlib.Analysis.SpecialFunctions.Trigonometric.Arctan
import Mathlib.Analysis.SpecialFunctions.Trigonometric.Inverse
import Verif.Model.Basic

/-
msat/facts.cpp: scale factors, grid increments and pixel sizes.

Simplification: `double` numbers are exact real numbers.  What is divided by zero is not modelled (`x / 0 = 0` here): the theorems
exclude it.
-/
namespace Msat.PixelSize
open Msat Real

/-- `METEOSAT_PIXELSIZE_X`, `METEOSAT_PIXELSIZE_Y`, msat/facts.h:33-34 -/
noncomputable def sizeX : ℝ := 3000.40307617188
noncomputable def sizeY : ℝ := 3000.40307617188
/-- `METEOSAT_PIXELSIZE_X_HRV`, `METEOSAT_PIXELSIZE_Y_HRV`, msat/facts.h:35-36 -/
noncomputable def sizeXHrv : ℝ := 1000.13433837891
noncomputable def sizeYHrv : ℝ := 1000.13433837891
/-- `EARTH_RADIUS`, `ORBIT_RADIUS`, msat/facts.h:11-16 -/
noncomputable def earthRadius : ℝ := 6378.1370
noncomputable def orbitRadius : ℝ := 42164.0

/-- Conversion of a `double` to `int`: truncation, undefined out of range. -/
noncomputable def toInt (x : ℝ) : Outcome ℤ :=
  let n : ℤ := if 0 ≤ x then ⌊x⌋ else ⌈x⌉
  if -2 ^ 31 ≤ n ∧ n < 2 ^ 31 then .ok n else .ub

/-- `round`: halves away from zero. -/
noncomputable def roundC (x : ℝ) : ℤ := if 0 ≤ x then ⌊x + 1 / 2⌋ else ⌈x - 1 / 2⌉

/-- `nearbyint`: halves to the even number. -/
noncomputable def nearbyint (x : ℝ) : ℤ :=
  if x - ⌊x⌋ < 1 / 2 then ⌊x⌋ else if 1 / 2 < x - ⌊x⌋ then ⌊x⌋ + 1 else if ⌊x⌋ % 2 = 0 then ⌊x⌋ else ⌊x⌋ + 1

/-- msat/facts.cpp:38-53 `pixelHSizeFromCFAC` -/
noncomputable def pixelHSizeFromCFAC (cfac : ℝ) : Outcome ℝ := do
  let test ← toInt (roundC (cfac * 2 ^ 16))
  if test = 13642337 then pure sizeX
  else if test = -13642337 then pure (-sizeX)
  else if test = 40927000 then pure sizeXHrv
  else if test = -40927000 then pure (-sizeXHrv)
  else pure ((orbitRadius - earthRadius) * tan (π / 180.0 / cfac) * 1000.0)

/-- msat/facts.cpp:54-67 `pixelVSizeFromLFAC` -/
noncomputable def pixelVSizeFromLFAC (lfac : ℝ) : Outcome ℝ := do
  let test ← toInt (roundC (lfac * 2 ^ 16))
  if test = 13642337 then pure sizeY
  else if test = -13642337 then pure (-sizeY)
  else if test = 40927000 then pure sizeYHrv
  else if test = -40927000 then pure (-sizeYHrv)
  else pure ((orbitRadius - earthRadius) * tan (π / 180.0 / lfac) * 1000.0)

/-- msat/facts.cpp:69-78 `CFACFromPixelHSize` -/
noncomputable def cfacFromPixelHSize (psx : ℝ) : ℝ :=
  if |psx - sizeX| < 0.001 then 13642337 * (2 ^ 16)⁻¹
  else if |psx - -sizeX| < 0.001 then -13642337 * (2 ^ 16)⁻¹
  else if |psx - sizeXHrv| < 0.001 then 40927000 * (2 ^ 16)⁻¹
  else if |psx - -sizeXHrv| < 0.001 then -40927000 * (2 ^ 16)⁻¹
  else π / arctan (psx / ((orbitRadius - earthRadius) * 1000.0)) / 180.0

/-- msat/facts.cpp:80-87 `LFACFromPixelVSize` -/
noncomputable def lfacFromPixelVSize (psy : ℝ) : ℝ :=
  if |psy - sizeY| < 0.001 then 13642337 * (2 ^ 16)⁻¹
  else if |psy - -sizeY| < 0.001 then -13642337 * (2 ^ 16)⁻¹
  else if |psy - sizeYHrv| < 0.001 then 40927000 * (2 ^ 16)⁻¹
  else if |psy - -sizeYHrv| < 0.001 then -40927000 * (2 ^ 16)⁻¹
  else π / arctan (psy / ((orbitRadius - earthRadius) * 1000.0)) / 180.0

/-- msat/facts.cpp:89-98 `seviriDXFromColumnRes` and 117-126 `seviriDXFromCFAC` -/
noncomputable def seviriDXFromCFAC (columnRes : ℝ) : Outcome ℤ :=
  toInt (roundC (arcsin (earthRadius / orbitRadius) * columnRes * 360 / π))

/-- msat/facts.cpp:100-105 `seviriDYFromLineRes` and 128-133 `seviriDYFromLFAC` -/
noncomputable def seviriDYFromLFAC (lineRes : ℝ) : Outcome ℤ :=
  toInt (roundC (arcsin (earthRadius / orbitRadius) * lineRes * 360 / π))

/-- msat/facts.cpp:107-110 `columnResFromSeviriDX` and 135-138 `CFACFromSeviriDX` -/
noncomputable def cfacFromSeviriDX (dx : ℤ) : ℝ := dx * π / (arcsin (earthRadius / orbitRadius) * 360)

/-- msat/facts.cpp:112-115 `lineResFromSeviriDY` and 140-143 `LFACFromSeviriDY` -/
noncomputable def lfacFromSeviriDY (dy : ℤ) : ℝ := dy * π / (arcsin (earthRadius / orbitRadius) * 360)

/-- msat/facts.cpp:145-152 `seviriDXFromPixelHSize` -/
noncomputable def seviriDXFromPixelHSize (psx : ℝ) : Outcome ℤ :=
  if |psx - sizeX| < 0.001 then .ok 3622 else seviriDXFromCFAC (cfacFromPixelHSize psx)

/-- msat/facts.cpp:154-161 `seviriDYFromPixelVSize` -/
noncomputable def seviriDYFromPixelVSize (psy : ℝ) : Outcome ℤ :=
  if |psy - sizeY| < 0.001 then .ok 3622 else seviriDYFromLFAC (lfacFromPixelVSize psy)

/-- msat/facts.cpp:163-173 `pixelHSizeFromSeviriDX` -/
noncomputable def pixelHSizeFromSeviriDX (dx : ℤ) : Outcome ℝ :=
  if dx = 3608 then .ok sizeX
  else if dx = 3622 then .ok sizeX
  else pixelHSizeFromCFAC (cfacFromSeviriDX dx)

/-- msat/facts.cpp:175-185 `pixelVSizeFromSeviriDY` -/
noncomputable def pixelVSizeFromSeviriDY (dy : ℤ) : Outcome ℝ :=
  if dy = 3608 then .ok sizeY
  else if dy = 3622 then .ok sizeY
  else pixelVSizeFromLFAC (lfacFromSeviriDY dy)

end Msat.PixelSize
