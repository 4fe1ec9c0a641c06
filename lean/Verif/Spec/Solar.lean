import Mathlib.Analysis.SpecialFunctions.Trigonometric.Basic

/-
Directions in space, and reflectance.  Independent of the model.
-/
namespace Msat.SolarSpec
open Real

/-- A vector: towards latitude 0 and longitude 0, towards longitude 90 east, towards the north pole. -/
structure Vec where
  x : ℝ
  y : ℝ
  z : ℝ

/-- Scalar product. -/
def dot (u v : Vec) : ℝ := u.x * v.x + u.y * v.y + u.z * v.z

/-- Difference. -/
def sub (u v : Vec) : Vec := ⟨u.x - v.x, u.y - v.y, u.z - v.z⟩

/-- Length. -/
noncomputable def len (u : Vec) : ℝ := √(dot u u)

/-- Degrees as an angle. -/
noncomputable def deg (d : ℝ) : ℝ := d * π / 180

/-- The vertical of a point of the (spherical) earth; also its position, in units of the radius. -/
noncomputable def vertical (lat lon : ℝ) : Vec :=
  ⟨cos (deg lat) * cos (deg lon), cos (deg lat) * sin (deg lon), sin (deg lat)⟩

/-- A satellite over the equator at the given longitude and at a distance from the centre of the earth. -/
noncomputable def satellite (lon dist : ℝ) : Vec := ⟨dist * cos (deg lon), dist * sin (deg lon), 0⟩

/-- `z` is the angle between the vertical of a point and the line from it to the satellite. -/
def IsZenithAngle (lat lon : ℝ) (sat : Vec) (z : ℝ) : Prop :=
  0 ≤ z ∧ z ≤ π ∧
    cos z * len (sub sat (vertical lat lon)) = dot (vertical lat lon) (sub sat (vertical lat lon))

/-- Reflectance in percent of a surface with radiance `L`, with solar irradiance `E` at the mean distance from the sun,
distance `d` and cosine `c` of the zenith angle of the sun. -/
noncomputable def reflectance (L E d c : ℝ) : ℝ := 100 * L / (E / d ^ 2 * c)

end Msat.SolarSpec
