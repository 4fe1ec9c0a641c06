import Mathlib.Data.Rat.Floor
import Verif.Model.Basic

/-
msat/gdal/dataset.cpp, msat/gdal/gdaltranslate.cpp and tools/msat.cpp: georeference and source windows.

Simplification: floating point numbers are exact rationals.  `int` and `size_t` have 32 and 64 bits.
-/
namespace Msat.Geo

/-- A GDAL geotransform: the six coefficients. -/
structure GT where
  g0 : Rat
  g1 : Rat
  g2 : Rat
  g3 : Rat
  g4 : Rat
  g5 : Rat
deriving DecidableEq, Repr

/-- msat/gdal/dataset.cpp:146-176 `invertGeoTransform`; `none` is `CE_Failure`. -/
def invert (n : GT) : Option GT :=
  let det := n.g1 * n.g5 - n.g2 * n.g4
  if |det| < 1 / 1000000000000000 then none
  else
    let inv := 1 / det
    some {
      g1 := n.g5 * inv
      g4 := -n.g4 * inv
      g2 := -n.g2 * inv
      g5 := n.g1 * inv
      g0 := (n.g2 * n.g3 - n.g0 * n.g5) * inv
      g3 := (-n.g1 * n.g3 + n.g0 * n.g4) * inv }

/-- msat/gdal/dataset.cpp:224-230 `GeoReferencer::pixelToProjected` -/
def pixelToProjected (gt : GT) (x y : Int) : Rat × Rat :=
  (gt.g0 + gt.g1 * x + gt.g2 * y, gt.g3 + gt.g4 * x + gt.g5 * y)

/-- C `lrint` in the default rounding mode: to nearest, ties to even. -/
def lrint (q : Rat) : Int :=
  let f := ⌊q⌋
  if q - f < 1 / 2 then f
  else if 1 / 2 < q - f then f + 1
  else if f % 2 = 0 then f else f + 1

/-- msat/gdal/dataset.cpp:232-236 `GeoReferencer::projectedToPixel`, given the inverted matrix.  The
conversion of the `long` to `int` is not modelled. -/
def projectedToPixel (inv : GT) (px py : Rat) : Int × Int :=
  (lrint (inv.g0 + px * inv.g1 + py * inv.g2), lrint (inv.g3 + px * inv.g4 + py * inv.g5))

/-- msat/gdal/dataset.cpp:74-84 `decodeGeotransform`: offsets and pixel sizes. -/
def decodeGeotransform (gt : GT) : Int × Int × Rat × Rat :=
  let psx := gt.g1
  let psy := -gt.g5
  (lrint (-gt.g0 / psx), lrint (gt.g3 / psy), psx, psy)

/-! ### Source windows -/

/-- `anSrcWin`: offsets and sizes. -/
structure Win where
  xoff : Int
  yoff : Int
  xsize : Int
  ysize : Int
deriving DecidableEq, Repr

/-- A value of type `int`. -/
def isInt (x : Int) : Bool := -2147483648 ≤ x && x ≤ 2147483647

/-- Conversion of a floating point number to `int`: truncation, undefined when out of range. -/
def toInt (q : Rat) : Outcome Int :=
  let t := if 0 ≤ q then ⌊q⌋ else ⌈q⌉
  if isInt t then .ok t else .ub

/-- Sum of two `int`s: undefined on overflow. -/
def addInt (a b : Int) : Outcome Int := if isInt (a + b) then .ok (a + b) else .ub

/-- Division of floating point numbers that is then converted to `int`: undefined when the divisor is
zero (infinity or NaN). -/
def divThenInt (a b c : Rat) : Outcome Int := if b = 0 then .ub else toInt (a / b + c)

/-- `off + size > limit` -/
def beyond (off size limit : Int) : Outcome Bool := do
  let s ← addInt off size
  pure (decide (limit < s))

/-- `dfULX dfULY dfLRX dfLRY`: a window in projected coordinates, absent when all are zero. -/
structure ProjWin where
  ulx : Rat := 0
  uly : Rat := 0
  lrx : Rat := 0
  lry : Rat := 0
deriving DecidableEq, Repr

def ProjWin.given (p : ProjWin) : Bool := p.ulx ≠ 0 || p.uly ≠ 0 || p.lrx ≠ 0 || p.lry ≠ 0

/-- msat/gdal/gdaltranslate.cpp:189-193: an empty window becomes the whole raster. -/
def defaultWin (w : Win) (nx ny : Int) : Win :=
  if w.xsize = 0 ∧ w.ysize = 0 then { w with xsize := nx, ysize := ny } else w

/-- msat/gdal/gdaltranslate.cpp:232-277: the window from projected coordinates. -/
def projectedWin (p : ProjWin) (gt : GT) (nx ny : Int) (w : Win) : Outcome (Option Win) :=
  if p.given then
    if gt.g2 ≠ 0 ∨ gt.g4 ≠ 0 then .ok none
    else do
      let x ← divThenInt (p.ulx - gt.g0) gt.g1 (1 / 1000)
      let y ← divThenInt (p.uly - gt.g3) gt.g5 (1 / 1000)
      let sx ← divThenInt (p.lrx - p.ulx) gt.g1 (1 / 2)
      let sy ← divThenInt (p.lry - p.uly) gt.g5 (1 / 2)
      if x < 0 ∨ y < 0 then .ok none
      else do
        if ← beyond x sx nx then .ok none
        else if ← beyond y sy ny then .ok none
        else .ok (some ⟨x, y, sx, sy⟩)
  else .ok (some w)

/-- msat/gdal/gdaltranslate.cpp:280-298: verification of the source window. -/
def verifyWin (w : Win) (nx ny : Int) : Outcome (Option Win) :=
  if w.xoff < 0 ∨ w.yoff < 0 ∨ w.xsize ≤ 0 ∨ w.ysize ≤ 0 then .ok none
  else do
    if ← beyond w.xoff w.xsize nx then .ok none
    else if ← beyond w.yoff w.ysize ny then .ok none
    else .ok (some w)

/-- The source window selected by `GDALTranslate::translate`, msat/gdal/gdaltranslate.cpp:186-298;
`none` when the request is rejected (a null pointer is returned). -/
def sourceWin (w : Win) (p : ProjWin) (gt : GT) (nx ny : Int) : Outcome (Option Win) := do
  match ← projectedWin p gt nx ny (defaultWin w nx ny) with
  | none => .ok none
  | some w => verifyWin w nx ny

/-- msat/gdal/gdaltranslate.cpp:320-331: the output size; `size` is the parsed `pszOXSize`, a number of
pixels or a percentage. -/
inductive OutSize where
  | pixels (n : Int)
  | percent (q : Rat)
deriving DecidableEq, Repr

def outSize (size : Option OutSize) (win : Int) : Outcome Int :=
  match size with
  | none => .ok win
  | some (.pixels n) => .ok n
  | some (.percent q) => toInt (q / 100 * win)

/-- msat/gdal/gdaltranslate.cpp:356-367: the geotransform of the output from given bounds
(`adfULLR`). -/
def boundsTransform (ulx uly lrx lry : Rat) (nox noy : Int) : GT :=
  ⟨ulx, (lrx - ulx) / nox, 0, uly, 0, (lry - uly) / noy⟩

/-- msat/gdal/gdaltranslate.cpp:369-383: the geotransform of the output from the one of the source. -/
def outTransform (gt : GT) (w : Win) (nox noy : Int) : GT :=
  let g0 := gt.g0 + (w.xoff * gt.g1 + w.yoff * gt.g2)
  let g3 := gt.g3 + (w.xoff * gt.g4 + w.yoff * gt.g5)
  { g0 := g0
    g1 := gt.g1 * (w.xsize / nox)
    g2 := gt.g2 * (w.ysize / noy)
    g3 := g3
    g4 := gt.g4 * (w.xsize / nox)
    g5 := gt.g5 * (w.ysize / noy) }

/-- msat/gdal/gdaltranslate.cpp:407-413: a ground control point of the output. -/
def outGCP (w : Win) (nox noy : Int) (pixel line : Rat) : Rat × Rat :=
  ((pixel - w.xoff) * (nox / w.xsize), (line - w.yoff) * (noy / w.ysize))

/-- msat/gdal/gdaltranslate.cpp:494-508: scale and offset applied to the samples. -/
def scaling (srcMin srcMax dstMin dstMax : Rat) : Rat × Rat :=
  let srcMax := if srcMax = srcMin then srcMax + 1 / 10 else srcMax
  let dstMax := if dstMax = dstMin then dstMax + 1 / 10 else dstMax
  let scale := (dstMax - dstMin) / (srcMax - srcMin)
  (scale, -1 * srcMin * scale + dstMin)

/-! ### tools/msat.cpp -/

/-- tools/msat.cpp:337-364 `Msat::scale_if_needed`: the size asked for, if any. -/
def scaleIfNeeded (maxx maxy sx sy : Nat) : Option (Nat × Nat) :=
  let (tx, ty) := (sx, sy)
  let (tx, ty) := if maxx ≠ 0 ∧ maxx < tx then (maxx, ty * maxx / tx) else (tx, ty)
  let (tx, ty) := if maxy ≠ 0 ∧ maxy < ty then (tx * maxy / ty, maxy) else (tx, ty)
  if tx ≠ sx ∧ ty ≠ sy then some (tx, ty) else none

/-- tools/msat.cpp:632-662: the window that encloses the four corners of an area given in latitudes and
longitudes, clipped to nothing: `corners` are the pixels of the corners. -/
def areaWin (nx ny : Int) (corners : List (Int × Int)) : Win :=
  let (xmin, ymin, xmax, ymax) := corners.foldl (fun (xmin, ymin, xmax, ymax) (x, y) =>
    (if x < xmin then x else xmin, if y < ymin then y else ymin,
     if xmax < x then x else xmax, if ymax < y then y else ymax)) (nx, ny, 0, 0)
  ⟨xmin, ymin, xmax - xmin, ymax - ymin⟩

/-- `Msat::main`, tools/msat.cpp:561-: the windows selected for a list of input images, given as their
sizes.  The same `translate` object serves all the images: `anSrcWin` keeps the window of the previous
image (gdaltranslate.cpp:189-193 writes it back).  Images have no projected window here. -/
def mainWindows (w : Win) : List (Int × Int) → Outcome (List (Option Win))
  | [] => .ok []
  | (nx, ny) :: rest => do
    let w' := defaultWin w nx ny
    let r ← verifyWin w' nx ny
    let rs ← mainWindows w' rest
    pure (r :: rs)

end Msat.Geo
