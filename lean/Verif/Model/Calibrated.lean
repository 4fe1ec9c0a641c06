import Verif.Model.Basic

/-
msat/gdal/dataset.cpp: datasets that stand for another one, with the counts calibrated (option --force-calibration of tools/msat.cpp).

Numbers are rational: the rounding to `float` is not modelled.
-/
namespace Msat.Calibrated
open Msat

/-- A raster band, as far as it is used here. -/
structure Band where
  /-- `GetRasterDataType` is `GDT_UInt16` -/
  uint16 : Bool
  /-- `GetBlockSize` -/
  bx : Nat
  /-- `GetBlockSize` -/
  by' : Nat
  scale : Rat
  offset : Rat
  /-- `GetNoDataValue`, `none` if it is not known -/
  nodata : Option Rat
  /-- `GetMinimum`, `none` if it is not known -/
  min : Option Rat
  /-- `GetMaximum`, `none` if it is not known -/
  max : Option Rat
  name : List Char
  units : List Char
  /-- `IReadBlock`: `none` is `CE_Failure` -/
  block : Nat → Nat → Outcome (Option (List Rat))

/-- A dataset, as far as it is used here. -/
structure Dataset where
  nx : Nat
  ny : Nat
  bands : List Band

/-- msat/gdal/dataset.cpp:300-322 `ProxyRasterBand`: everything is that of the other band. -/
def proxyBand (rb : Band) : Band :=
  { uint16 := rb.uint16, bx := rb.bx, by' := rb.by', scale := rb.scale, offset := rb.offset, nodata := rb.nodata, min := rb.min,
    max := rb.max, name := rb.name, units := rb.units, block := rb.block }

/-- msat/gdal/dataset.cpp:384-402 `CalibratedRasterBand::IReadBlock`; `stack` is how much memory there is for `raw`. -/
def calibratedBlock (stack : Nat) (rb : Band) (x y : Nat) : Outcome (Option (List Rat)) :=
  if stack < 2 * (rb.bx * rb.by') then .ub
  else do
    match ← (proxyBand rb).block x y with
    | none => pure none
    | some raw => pure (some ((raw.take (rb.bx * rb.by')).map fun v => v * rb.scale + rb.offset))

/-- msat/gdal/dataset.cpp:347-382 `CalibratedRasterBand` -/
def calibratedBand (stack : Nat) (rb : Band) : Band :=
  { proxyBand rb with
    uint16 := false
    min := rb.min.map fun res => res * rb.scale + rb.offset
    max := rb.max.map fun res => res * rb.scale + rb.offset
    offset := 0
    scale := 1
    nodata := some 0
    block := calibratedBlock stack rb }

/-- msat/gdal/dataset.cpp:264-269 and 334-345 `CalibratedDataset` -/
def calibrated (stack : Nat) (ds : Dataset) : Dataset :=
  { nx := ds.nx
    ny := ds.ny
    bands := ds.bands.map fun rb => if rb.uint16 then calibratedBand stack rb else proxyBand rb }

end Msat.Calibrated
