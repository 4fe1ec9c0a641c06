import Mathlib.Analysis.SpecialFunctions.Trigonometric.Basic
import Verif.Spec.Geo

/-
Places of the pixels of an image.
-/
namespace Msat.ComputedSpec
open Geo GeoSpec

/-- Latitude and longitude of the pixel in column `c` and line `l` of an image with geotransform `gt`: its projected coordinates are given by
the affine map, and `unproject` gives the longitude and the latitude of projected coordinates, if they are on earth. -/
def place (gt : GT) (unproject : Rat × Rat → Option (ℝ × ℝ)) (c l : Nat) : Option (ℝ × ℝ) :=
  (unproject (affine gt ((c : Rat), (l : Rat)))).map fun q => (q.2, q.1)

/-- The projection and its inverse: every point on earth is projected back to where it was. -/
def Inverse (unproject : Rat × Rat → Option (ℝ × ℝ)) (project : ℝ × ℝ → Option (Rat × Rat)) : Prop :=
  ∀ p q, unproject p = some q → project q = some p

end Msat.ComputedSpec
