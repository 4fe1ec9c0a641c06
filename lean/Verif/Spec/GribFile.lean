import Verif.Spec.Satellites

/-
What an exported image means: every pixel is either missing or a measure, which is the number of the pixel times a scale plus an offset.
-/
namespace Msat.GribSpec

/-- The measure of a pixel; `none` if it is missing. -/
def measure (nodata : Option Rat) (scale offset v : Rat) : Option Rat :=
  if some v = nodata then none else some (v * scale + offset)

/-- The measure of a pixel that was read, in a band without scale and offset. -/
def readMeasure (nodata : Option Rat) (p : Option Rat) : Option Rat := if p = nodata then none else p

/-- The same measure, to within `ε`; or missing in both. -/
def Near (ε : Rat) : Option Rat → Option Rat → Prop
  | none, none => True
  | some x, some y => x - y ≤ ε ∧ y - x ≤ ε
  | _, _ => False

end Msat.GribSpec
