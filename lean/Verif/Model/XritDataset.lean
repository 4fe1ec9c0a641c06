import Mathlib.Analysis.SpecialFunctions.Log.Basic
import Verif.Model.HriIdent
import Verif.Model.Time
import Verif.Model.Facts

/-
gdal/xrit/dataset.cpp, gdal/xrit/rasterband.cpp and the calibration of msat/hrit/MSG_data_RadiometricProc.cpp: what an xRIT image is said to
be, and what its pixels are.  The lines of the image are in Model/DataAccess.lean.

Numbers are real: the rounding of `double` and `float` is not modelled.  Setting metadata succeeds.
-/
namespace Msat.XritDataset
open Msat

/-- What is used of the prologue, `MSG_data_prologue`. -/
structure Prologue where
  /-- `image_acquisition.PlannedAquisitionTime.TrueRepeatCycleStart` -/
  start : Time.CdsShort
  /-- `image_description.ReferenceGridVIS_IR`: `ColumnDirGridStep` and `LineDirGridStep` -/
  gridVisIr : ℝ × ℝ
  /-- `image_description.ReferenceGridHRV` -/
  gridHrv : ℝ × ℝ
  /-- `radiometric_proc.ImageCalibration`, 12 of them: `Cal_Slope` and `Cal_Offset` -/
  calibration : List (ℝ × ℝ)

/-- What is used of the header of the last segment, `MSG_header`. -/
structure Header where
  /-- `segment_id->spacecraft_id` -/
  spacecraft : Nat
  /-- `segment_id->spectral_channel_id` -/
  channel : Nat
  /-- `image_structure->number_of_bits_per_pixel` -/
  bpp : Nat
  /-- `image_navigation->subsatellite_longitude`, which is set only if the projection is GEOS -/
  sublon : Option ℝ

/-! ### Date -/

/-- `gmtime` of the C library for times from 1958 on: year, month, day, hour, minute. -/
def gmtime (t : Int) : Nat × Nat × Nat × Nat × Nat :=
  let s := (t + 378691200).toNat
  let (y, n) := Hri.yearOf 1958 (s / 86400)
  let (m, d) := Hri.monthOf y 12 1 n
  (y, m, d, s % 86400 / 3600, s % 3600 / 60)

/-- A number with `w` digits, the last ones. -/
def digitsOf : Nat → Nat → List Char
  | 0, _ => []
  | w + 1, n => digitsOf w (n / 10) ++ [Char.ofNat (48 + n % 10)]

/-- gdal/xrit/dataset.cpp:60-63: `strftime(buf, 20, "%Y-%m-%d %H:%M:00", tmtime)`.  The years have four digits. -/
def dateText (t : Int) : List Char :=
  let (y, m, d, h, mi) := gmtime t
  digitsOf 4 y ++ ['-'] ++ digitsOf 2 m ++ ['-'] ++ digitsOf 2 d ++ [' '] ++ digitsOf 2 h ++ [':'] ++ digitsOf 2 mi ++ [':', '0', '0']

/-! ### Calibration -/

/-- msat/hrit/MSG_data_RadiometricProc.cpp:586-597 `cold_ccw`, `cold_A`, `cold_B`, in this order. -/
noncomputable def cold : List (ℝ × ℝ × ℝ) :=
  [(2569.094, 0.9959, 3.471), (1598.566, 0.9963, 2.2219), (1362.142, 0.9991, 0.485), (1149.083, 0.9996, 0.181),
   (1034.345, 0.9999, 0.060), (930.659, 0.9983, 0.627), (839.661, 0.9988, 0.397), (752.381, 0.9981, 0.576)]

/-- msat/hrit/MSG_data_RadiometricProc.cpp:626-648 `get_slope_offset`: slope, offset, `scalesToInt`. -/
noncomputable def slopeOffset (cal : List (ℝ × ℝ)) (channel : Nat) : Outcome (ℝ × ℝ × Bool) :=
  if 3 < channel ∧ channel < 12 then
    match cold[channel - 4]? with
    | some (_, A, B) => .ok (1 / A, -B, false)
    | none => .ub
  else if channel = 0 then .ub
  else match cal[channel - 1]? with
    | some (slope, offset) => .ok (slope, offset, true)
    | none => .ub

/-- msat/hrit/MSG_data_RadiometricProc.cpp:601-614: the temperature of a radiance; `none` if it is not a number.  `c1nuc3/radiance` is
infinite if the radiance is zero, and so is the logarithm of zero: the quotient by an infinite number is zero. -/
noncomputable def temperature (ccw A B radiance : ℝ) : Option ℝ :=
  let c1nuc3 := ccw ^ 3 * 0.0000119104
  let c2nuc := ccw * 1.43877
  let x := c1nuc3 / radiance + 1
  if radiance = 0 ∨ x = 0 then some ((0 - B) / A)
  else if x < 0 then none
  else some ((c2nuc / Real.log x - B) / A)

/-- msat/hrit/MSG_data_RadiometricProc.cpp:576-624 `get_calibration`, for the channels where it is used: the table, as its length and its
entries.  `(int) pow(2.0, bpp)` is undefined if it is not an `int`. -/
noncomputable def getCalibration (cal : List (ℝ × ℝ)) (channel bpp : Nat) : Outcome (Nat × (Nat → Option ℝ)) :=
  if 31 ≤ bpp then .ub
  else match cold[channel - 4]?, cal[channel - 1]? with
    | some (ccw, A, B), some (slope, offset) => .ok (2 ^ bpp, fun i => temperature ccw A B (i * slope + offset))
    | _, _ => .ub

/-! ### Dataset -/

/-- `XRITRasterBand` -/
structure RasterBand where
  channelId : Nat
  channel : String
  units : String
  blockX : Nat
  blockY : Nat
  /-- `eDataType` is `GDT_UInt16`; if not, `GDT_Float32` -/
  linear : Bool
  scale : ℝ
  offset : ℝ
  nodata : ℝ
  calibration : Option (Nat × (Nat → Option ℝ))

/-- gdal/xrit/rasterband.cpp:22-69 `XRITRasterBand::init` and `GetUnitType`, 104-121 -/
noncomputable def initBand (hrv : Bool) (sc : Int) (pro : Prologue) (h : Header) : Outcome RasterBand := do
  let n := if hrv then 11136 else 3712
  let (slope, offset, linear) ← slopeOffset pro.calibration h.channel
  let calibration ← if linear then pure none else do
    let c ← getCalibration pro.calibration h.channel h.bpp
    pure (some c)
  pure { channelId := h.channel, channel := Facts.channelName sc h.channel, units := Facts.channelUnit sc h.channel,
         blockX := n, blockY := 1, linear := linear, scale := if linear then slope else 1, offset := if linear then offset else 0,
         nodata := 0, calibration := calibration }

/-- gdal/xrit/rasterband.cpp:83-99: what is written for a count. -/
noncomputable def RasterBand.pixel (b : RasterBand) (count : Nat) : Outcome ℝ :=
  match b.calibration with
  | none => .ok count
  | some (n, table) =>
    if count < n then
      match table count with
      | some res => .ok (if res < 0 then 0 else res)
      | none => .ok 0
    else .ub

/-- `XRITDataset` -/
structure Dataset where
  nx : Nat
  ny : Nat
  spacecraftId : Int
  spacecraft : String
  datetime : List Char
  sublon : ℝ
  geotransform : Fin 6 → ℝ
  band : RasterBand

/-- gdal/xrit/dataset.cpp:68-97: the geotransform. -/
noncomputable def geotransformOf (hrv : Bool) (pro : Prologue) : Fin 6 → ℝ :=
  let grid := if hrv then pro.gridHrv else pro.gridVisIr
  let pixelSizeX := 1000 * grid.1
  let pixelSizeY := 1000 * grid.2
  let column_offset : ℝ := if hrv then 5568 else 1856
  let line_offset : ℝ := if hrv then 5568 else 1856
  ![-(column_offset - 0) * |pixelSizeX|, |pixelSizeX|, 0, (line_offset - 0) * |pixelSizeY|, 0, -|pixelSizeY|]

/-- gdal/xrit/dataset.cpp:30-105 `XRITDataset::init`, after the files were scanned: `hrv` is what `scan` found. -/
noncomputable def init (hrv : Bool) (pro : Prologue) (h : Header) : Outcome Dataset :=
  let sc := Facts.fromHRIT h.spacecraft
  match h.sublon with
  | none => .ub
  | some lon => do
    let band ← initBand hrv sc pro h
    pure { nx := if hrv then 11136 else 3712, ny := if hrv then 11136 else 3712, spacecraftId := sc,
           spacecraft := Facts.spacecraftName sc, datetime := dateText pro.start.unixtime, sublon := lon,
           geotransform := geotransformOf hrv pro, band := band }

end Msat.XritDataset
