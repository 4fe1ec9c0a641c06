import Verif.Model.HritData
import Verif.Model.HritFile
import Verif.Model.XritToNetcdf

/-
What is used of the bytes of the prologue, and of the records of the segments, when an xRIT image is opened.

Simplifications: the prologue is taken one member at a time: that reading it as a whole is undefined, because `DCRValues` is larger than its
place (C05), is left out here.  `f32` and `f64` give the numbers of patterns of bits.
-/
namespace Msat.XritFields
open Msat
open Msat.Layout

/-- msat/hrit/MSG_data.cpp:191-209 and the `read_from` it calls, as in `Layout.prologueData`: the value of a member of `MSG_data_prologue` after `read_from`: what was read
into it last. -/
def member (data : Bytes) (p : Path) : Outcome Val :=
  match ((prologueData 0).1.filter fun r => r.path == p).getLast? with
  | none => .ub
  | some r => readField r.kind data r.off

/-- A member that is a floating point number: its bits. -/
def bits (data : Bytes) (p : Path) : Outcome Nat := do
  match ← member data p with
  | .nat v => pure v
  | _ => .ub

/-- `PRO_data.prologue->image_acquisition.PlannedAquisitionTime.TrueRepeatCycleStart`, msat/hrit/MSG_time_cds.cpp:54-69 -/
def start (data : Bytes) : Outcome Time.CdsShort := do
  match ← member data [.f "image_acquisition", .f "PlannedAquisitionTime", .f "TrueRepeatCycleStart"] with
  | .time day msec _ _ => pure (Time.cdsShortOf day msec)
  | _ => .ub

/-- gdal/xrit/dataset.cpp:72-96: `ColumnDirGridStep` and `LineDirGridStep` of a grid. -/
noncomputable def grid (f32 : Nat → ℝ) (data : Bytes) (name : String) : Outcome (ℝ × ℝ) := do
  let c ← bits data [.f "image_description", .f name, .f "ColumnDirGridStep"]
  let l ← bits data [.f "image_description", .f name, .f "LineDirGridStep"]
  pure (f32 c, f32 l)

/-- msat/hrit/MSG_data_RadiometricProc.cpp:609-619 and 644-645: `ImageCalibration[i].Cal_Slope` and `ImageCalibration[i].Cal_Offset`, from `i` on. -/
noncomputable def calibration (f64 : Nat → ℝ) (data : Bytes) : List Nat → Outcome (List (ℝ × ℝ))
  | [] => .ok []
  | i :: is => do
    let s ← bits data [.f "radiometric_proc", .f "ImageCalibration", .i i, .f "Cal_Slope"]
    let o ← bits data [.f "radiometric_proc", .f "ImageCalibration", .i i, .f "Cal_Offset"]
    let rest ← calibration f64 data is
    pure ((f64 s, f64 o) :: rest)

/-- The members of the prologue that gdal/xrit/dataset.cpp:30-105 and gdal/xrit/rasterband.cpp:22-69 use, from the data field of its file. -/
noncomputable def prologue (f32 f64 : Nat → ℝ) (data : Bytes) : Outcome XritDataset.Prologue := do
  let t ← start data
  let g ← grid f32 data "ReferenceGridVIS_IR"
  let h ← grid f32 data "ReferenceGridHRV"
  let c ← calibration f64 data (List.range 12)
  pure { start := t, gridVisIr := g, gridHrv := h, calibration := c }

/-- The members of the header that gdal/xrit/dataset.cpp:30-105 and gdal/xrit/rasterband.cpp:22-69 use; msat/hrit/MSG_header_image_navig.cpp:59-66
`sscanf("%f")` of the text in the parentheses, `none` if it is not a number or if there is none: the member is not set then. -/
def header (sscanf : Bytes → Option ℝ) (h : Hrit.Header) : Outcome XritDataset.Header :=
  match h.segmentId, h.imageStructure, h.imageNavigation with
  | some s, some i, some n =>
    .ok { spacecraft := s.spacecraft, channel := s.channel, bpp := i.bpp, sublon := n.params.head?.bind sscanf }
  | _, _, _ => .ub

/-- msat/xrit/dataaccess.cpp:86-117 `DataAccess::scan`: the header after the loop, of the last of the segments. -/
def lastHeader (sscanf : Bytes → Option ℝ) (disk : Hrit.Disk) (names : List Bytes) : Outcome XritDataset.Header := do
  let (_, last) ← Hrit.scanHeaders disk names ([], .fresh)
  header sscanf last

/-- tools/msat.cpp:688-722 for an xRIT image and the driver of NetCDF, from the data field of the prologue and the files of the segments. -/
noncomputable def convert (env : Hrit.Env) (disk : Hrit.Disk) (cov : Option Xrit.Coverage) (names : List Bytes) (f32 f64 : Nat → ℝ)
    (sscanf : Bytes → Option ℝ) (data : Bytes) (scale offset : Rat) (table : Option (List Nat)) (value : Nat → Option Rat)
    (valid : String → Bool) (single : ℝ → ℝ) : Outcome (Option NetcdfFile.File) := do
  let pro ← prologue f32 f64 data
  let h ← lastHeader sscanf disk names
  XritToNetcdf.convert env disk cov names pro h scale offset table value valid single

end Msat.XritFields
