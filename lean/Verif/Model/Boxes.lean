import Verif.Model.Basic
import Mathlib.Data.Rat.Defs
import Mathlib.Algebra.Order.Ring.Rat

/-
msat/gdal/points.h: points and boxes of images, of projected coordinates and of the earth.

`long` has 64 bits and `int` 32.  `double` is rational: NaN and the rounding of the subtraction are not modelled.
-/
namespace Msat.Boxes
open Msat

/-- msat/gdal/points.h:38-44 `ImagePoint`, 46-52 `ProjectedPoint`: a column or x, and a line or y. -/
structure Pt (α : Type) where
  x : α
  y : α
deriving DecidableEq, Repr

/-- msat/gdal/points.h:54-60 `MapPoint` -/
structure MapPoint where
  lat : Rat
  lon : Rat
deriving DecidableEq, Repr

/-- msat/gdal/points.h:39-42, 47-50, 55-58: the points that are made without arguments. -/
def origin : Pt Int := ⟨0, 0⟩
def projectedOrigin : Pt Rat := ⟨0, 0⟩
def mapOrigin : MapPoint := ⟨0, 0⟩

/-- msat/gdal/points.h:63-77 `Box` -/
structure Box (P : Type) where
  topLeft : P
  bottomRight : P
deriving DecidableEq, Repr

/-- msat/gdal/points.h:67-68 `min` -/
def min' {α : Type} [LE α] [DecidableRel (α := α) (· ≤ ·)] (a b : α) : α := if a ≤ b then a else b

/-- msat/gdal/points.h:69-70 `max` -/
def max' {α : Type} [LE α] [DecidableRel (α := α) (· ≤ ·)] (a b : α) : α := if b ≤ a then a else b

/-- `int` from `long` -/
def toInt (v : Int) : Int := (v + 2 ^ 31) % 2 ^ 32 - 2 ^ 31

/-- A difference of two `int`s -/
def minus (a b : Int) : Outcome Int := if -2 ^ 31 ≤ a - b ∧ a - b < 2 ^ 31 then .ok (a - b) else .ub

/-- What `boundingBox` of images and projected coordinates gives: `x0`, `y0`, `w`, `h`. -/
structure Bounds (α : Type) where
  x0 : α
  y0 : α
  w : α
  h : α
deriving DecidableEq, Repr

/-- msat/gdal/points.h:81-89 `ImageBox::boundingBox` -/
def imageBounds (b : Box (Pt Int)) : Outcome (Bounds Int) := do
  let x0 := toInt (min' b.topLeft.x b.bottomRight.x)
  let y0 := toInt (min' b.topLeft.y b.bottomRight.y)
  let x1 := toInt (max' b.topLeft.x b.bottomRight.x)
  let y1 := toInt (max' b.topLeft.y b.bottomRight.y)
  let w ← minus x1 x0
  let h ← minus y1 y0
  pure ⟨x0, y0, w, h⟩

/-- msat/gdal/points.h:90-93 `ImageBox::isNonZero` -/
def imageNonZero (b : Box (Pt Int)) : Bool := b.topLeft.x != 0 || b.topLeft.y != 0 || b.bottomRight.x != 0 || b.bottomRight.y != 0

/-- msat/gdal/points.h:99-107 `ProjectedBox::boundingBox` -/
def projectedBounds (b : Box (Pt Rat)) : Bounds Rat :=
  let x0 := min' b.topLeft.x b.bottomRight.x
  let y0 := min' b.topLeft.y b.bottomRight.y
  let x1 := max' b.topLeft.x b.bottomRight.x
  let y1 := max' b.topLeft.y b.bottomRight.y
  ⟨x0, y0, x1 - x0, y1 - y0⟩

/-- msat/gdal/points.h:108-111 `ProjectedBox::isNonZero` -/
def projectedNonZero (b : Box (Pt Rat)) : Bool := b.topLeft.x != 0 || b.topLeft.y != 0 || b.bottomRight.x != 0 || b.bottomRight.y != 0

/-- What `MapBox::boundingBox` gives. -/
structure MapBounds where
  latmin : Rat
  latmax : Rat
  lonmin : Rat
  lonmax : Rat
deriving DecidableEq, Repr

/-- msat/gdal/points.h:117-123 `MapBox::boundingBox` -/
def mapBounds (b : Box MapPoint) : MapBounds :=
  ⟨min' b.topLeft.lat b.bottomRight.lat, max' b.topLeft.lat b.bottomRight.lat,
   min' b.topLeft.lon b.bottomRight.lon, max' b.topLeft.lon b.bottomRight.lon⟩

/-- msat/gdal/points.h:124-127 `MapBox::isNonZero` -/
def mapNonZero (b : Box MapPoint) : Bool := b.topLeft.lat != 0 || b.topLeft.lon != 0 || b.bottomRight.lat != 0 || b.bottomRight.lon != 0

end Msat.Boxes
