import Verif.Model.Georef

/-
Images on the grid of the satellite.
-/
namespace Msat.GeorefSpec
open Msat PixelSize Georef

/-- The image has pixels of size `psx` by `psy`, its left side is `cx` pixels left of the point below the satellite, and its
upper side is `cy` pixels above. -/
def OnGrid (gt : Gt) (psx psy : ℝ) (cx cy : ℤ) : Prop :=
  gt = { x0 := -(cx : ℝ) * psx, dx := psx, rx := 0, y0 := (cy : ℝ) * psy, ry := 0, dy := -psy }

/-- Numbers of pixels that can occur. -/
def Near (c : ℤ) : Prop := -1000000 ≤ c ∧ c ≤ 1000000

/-- Pixel sizes of the images of Meteosat. -/
def Standard (ps : ℝ) : Prop := ps = 3000.40307617188 ∨ ps = 1000.13433837891

end Msat.GeorefSpec
