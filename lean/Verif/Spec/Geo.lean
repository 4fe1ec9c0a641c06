import Verif.Model.Geo

/-
Georeference as geometry: a geotransform is an affine map of the plane, a source window is a rectangle.
-/
namespace Msat.GeoSpec
open Geo

/-- The affine map of a geotransform (GDAL data model). -/
def affine (gt : GT) (p : Rat × Rat) : Rat × Rat :=
  (gt.g0 + gt.g1 * p.1 + gt.g2 * p.2, gt.g3 + gt.g4 * p.1 + gt.g5 * p.2)

/-- The determinant of its linear part. -/
def det (gt : GT) : Rat := gt.g1 * gt.g5 - gt.g2 * gt.g4

/-- A window of positive size inside of a raster of size `nx` by `ny`. -/
def Inside (w : Win) (nx ny : Int) : Prop :=
  0 ≤ w.xoff ∧ 0 ≤ w.yoff ∧ 0 < w.xsize ∧ 0 < w.ysize ∧ w.xoff + w.xsize ≤ nx ∧ w.yoff + w.ysize ≤ ny

/-- The point of the source raster that is shown at point `p` of an output of `nox` by `noy` pixels. -/
def sourcePoint (w : Win) (nox noy : Int) (p : Rat × Rat) : Rat × Rat :=
  (w.xoff + p.1 * w.xsize / nox, w.yoff + p.2 * w.ysize / noy)

end Msat.GeoSpec
