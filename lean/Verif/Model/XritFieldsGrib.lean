import Verif.Model.XritFields
import Verif.Model.XritToGrib

/-
From the bytes of the prologue and of the segments to a GRIB file: `msat --conv=MsatGRIB` on an xRIT image.
-/
namespace Msat.XritFieldsGrib
open Msat

/-- tools/msat.cpp:688-722 with gdal/xrit/dataset.cpp:52-59: the prologue `data` and the header of the last segment are read, and the image goes to
the driver of GRIB.  Simplified: only the members of the prologue that the driver uses are read (C123). -/
noncomputable def convert (env : Hrit.Env) (disk : Hrit.Disk) (cov : Option Xrit.Coverage) (names : List Bytes) (f32 f64 : Nat → ℝ)
    (sscanf : Bytes → Option ℝ) (data : Bytes) (scale offset : Rat) (table : Option (List Nat)) (value : Nat → Option Rat) (pack : Rat → Rat)
    (sample : GribFile.Template → List (String × Int)) (blank : Datetime.Message) (option : Option String) (old : Option GribFile.Message) :
    Outcome (Option XritToGrib.Image) := do
  let pro ← XritFields.prologue f32 f64 data
  let h ← XritFields.lastHeader sscanf disk names
  XritToGrib.convert env disk cov names pro h scale offset table value pack sample blank option old

/-- The same with the prologue read as a whole first (gdal/xrit/dataset.cpp:34-38, msat/hrit/MSG_data.cpp:187-206). -/
noncomputable def whole (env : Hrit.Env) (disk : Hrit.Disk) (cov : Option Xrit.Coverage) (names : List Bytes) (f32 f64 : Nat → ℝ)
    (sscanf : Bytes → Option ℝ) (data : Bytes) (scale offset : Rat) (table : Option (List Nat)) (value : Nat → Option Rat) (pack : Rat → Rat)
    (sample : GribFile.Template → List (String × Int)) (blank : Datetime.Message) (option : Option String) (old : Option GribFile.Message) :
    Outcome (Option XritToGrib.Image) := do
  let _ ← Layout.run Layout.prologueData data 0
  convert env disk cov names f32 f64 sscanf data scale offset table value pack sample blank option old

end Msat.XritFieldsGrib
