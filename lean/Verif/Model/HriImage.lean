import Verif.Model.Basic

/-
msat/hri/HRI_image.cpp: the image buffers of HRI files.

Not modelled here: names, units, `samplex`, `sampley`; `set_calibration` and `get_calibration` (see
Model/HriCal.lean).  `throw;` without an active exception ends the program: `terminate`.
-/
namespace Msat.Hri

/-- msat/hri/HRI_image.h:41-47 `HRI_image_satellite` -/
inductive Sat where
  | METEOSAT | GOES_E | GOES_W | GMS | INDOX
deriving DecidableEq, Repr

/-- msat/hri/HRI_image.h:49-53 `HRI_image_format` -/
inductive Format where
  | A | B | X
deriving DecidableEq, Repr

/-- msat/hri/HRI_image.h:55-60 `HRI_image_band` -/
inductive Band where
  | IR | WV | VIS | VH
deriving DecidableEq, Repr

/-- The members of `HRI_image` (msat/hri/HRI_image.h:62-96) that say where pixels are, and the pixels: `none`
is a byte of `new unsigned char[size]` that has not been written. -/
structure Image where
  npixels : Nat
  nlines : Nat
  lastpix : Nat
  lastlin : Nat
  halflin : Nat
  size : Nat
  data : List (Option UInt8)
deriving DecidableEq, Repr

/-- msat/hri/HRI_image.cpp:35-46 `HRI_image::HRI_image()` -/
def Image.empty : Image := ⟨0, 0, 0, 0, 0, 0, []⟩

/-- The buffer of `new unsigned char[size]`. -/
def newImage (npixels nlines lastpix lastlin halflin size : Nat) : Image :=
  ⟨npixels, nlines, lastpix, lastlin, halflin, size, List.replicate size none⟩

/-- msat/hri/HRI_image.cpp:61-238 `HRI_image::set_format_band`.  The satellite only matters for the
calibration. -/
def setFormatBand : Format → Band → Outcome Image
  | .A, .IR => .ok (newImage 2500 2500 2499 2499 1250 6250000)
  | .A, .WV => .ok (newImage 2500 2500 2499 2499 1250 6250000)
  | .A, .VH => .ok (newImage 2500 2500 2499 2499 1250 6250000)
  | .A, .VIS => .ok (newImage 5000 5000 4999 4999 2500 25000000)
  | .B, .IR => .ok (newImage 1250 625 1249 624 625 781250)
  | .B, .WV => .ok (newImage 1250 625 1249 624 625 781250)
  | .B, .VIS => .ok (newImage 2500 1250 2499 1249 1250 3125000)
  | .B, .VH => .terminate
  | .X, .IR => .ok (newImage 1250 1250 1249 1249 625 1562500)
  | .X, .WV => .ok (newImage 1250 1250 1249 1249 625 1562500)
  | .X, .VH => .ok (newImage 1250 1250 1249 1249 625 1562500)
  | .X, .VIS => .terminate

/-- `memcpy(data + pos, dataline, n)`: undefined behaviour outside of either buffer. -/
def copyInto (data : List (Option UInt8)) (pos : Nat) (dataline : Bytes) (n : Nat) :
    Outcome (List (Option UInt8)) :=
  if n ≤ dataline.length ∧ pos + n ≤ data.length then
    .ok (data.take pos ++ (dataline.take n).map some ++ data.drop (pos + n))
  else .ub

/-- msat/hri/HRI_image.cpp:240-258 `put_line`; `dataline` is all the memory behind the pointer. -/
def putLine (img : Image) (dataline : Bytes) (linesize linenum : Int) : Outcome Image :=
  if img.size = 0 then .ok img
  else if linesize ≠ img.npixels then .terminate
  else if linenum < 0 ∨ linenum > img.lastlin then .terminate
  else do
    let d ← copyInto img.data (linenum.toNat * img.npixels) dataline linesize.toNat
    pure { img with data := d }

/-- msat/hri/HRI_image.cpp:260-283 `put_halfline` -/
def putHalfline (img : Image) (dataline : Bytes) (linesize linenum : Int) (firsthalf : Bool) : Outcome Image :=
  if img.size = 0 then .ok img
  else if linesize ≠ img.halflin then .terminate
  else if linenum < 0 ∨ linenum > img.lastlin then .terminate
  else do
    let d ← if firsthalf then copyInto img.data (linenum.toNat * img.npixels) dataline linesize.toNat
      else copyInto img.data (linenum.toNat * img.npixels + img.halflin - 2) dataline linesize.toNat
    pure { img with data := d }

/-- msat/hri/HRI_image.cpp:285-297 `get_line`: the bytes of `aline`, `none` for a null pointer. -/
def getLine (img : Image) (linenum : Int) : Outcome (Option (List (Option UInt8))) :=
  if img.size = 0 then .ok none
  else if linenum < 0 ∨ linenum > img.lastlin then .terminate
  else
    let pos := linenum.toNat * img.npixels
    if pos + img.npixels ≤ img.data.length then .ok (some ((img.data.drop pos).take img.npixels)) else .ub

/-- msat/hri/HRI_image.cpp:309-327 `get_pixel`; `none` is an indeterminate value. -/
def getPixel (img : Image) (linenum pixelnum : Int) : Outcome (Option UInt8) :=
  if img.size = 0 then .ok (some 0)
  else if linenum < 0 ∨ linenum > img.lastlin then .terminate
  else if pixelnum < 0 ∨ pixelnum > img.lastpix then .terminate
  else match img.data[linenum.toNat * img.npixels + pixelnum.toNat]? with
    | some v => .ok v
    | none => .ub

end Msat.Hri
