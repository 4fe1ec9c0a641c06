import Verif.Model.Boxes

/-
What C115 means: rectangles, and the smallest one around two points.
-/
namespace Msat.BoxesSpec
open Msat Boxes

/-- The point is in the rectangle that starts at `x0`, `y0` and is `w` wide and `h` high. -/
def Contains {α : Type} [LE α] [Add α] (r : Bounds α) (p : Pt α) : Prop := r.x0 ≤ p.x ∧ p.x ≤ r.x0 + r.w ∧ r.y0 ≤ p.y ∧ p.y ≤ r.y0 + r.h

/-- The smallest rectangle with the two points in it: it has them, and all its points are in any other that has them. -/
def Smallest {α : Type} [LE α] [Add α] (r : Bounds α) (p q : Pt α) : Prop :=
  Contains r p ∧ Contains r q ∧ ∀ r' : Bounds α, Contains r' p → Contains r' q → ∀ s, Contains r s → Contains r' s

/-- The point of the earth is between the parallels and the meridians. -/
def MapContains (r : MapBounds) (p : MapPoint) : Prop := r.latmin ≤ p.lat ∧ p.lat ≤ r.latmax ∧ r.lonmin ≤ p.lon ∧ p.lon ≤ r.lonmax

def MapSmallest (r : MapBounds) (p q : MapPoint) : Prop :=
  MapContains r p ∧ MapContains r q ∧ ∀ r' : MapBounds, MapContains r' p → MapContains r' q → ∀ s, MapContains r s → MapContains r' s

/-- A number of a column or line that is in an image of GDAL, whose sizes are `int`. -/
def Column (v : Int) : Prop := 0 ≤ v ∧ v < 2 ^ 31

/-- The longitude is in the strip that goes eastwards from `west` to `east`, where longitudes are from -180 to 180. -/
def Eastwards (west east lon : Rat) : Prop := if west ≤ east then west ≤ lon ∧ lon ≤ east else west ≤ lon ∨ lon ≤ east

end Msat.BoxesSpec
