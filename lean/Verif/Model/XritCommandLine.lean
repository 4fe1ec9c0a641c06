import Verif.Model.MsatCommandLine
import Verif.Model.XritTools

/-
tools/hrit/XRIT2Image.cpp and tools/hrit/XRIT2NetCDF.cpp: their command lines.

Simplifications: as in Model/MsatCommandLine.lean for `getopt_long` and `strtod`; the scale is a rational number instead of a `float`;
what is printed is not modelled.
-/
namespace Msat.XritCommandLine
open Msat
open Msat.MsatCommandLine (Long Event events strtod)
open Msat.XritTools (Asked Area int32 areaFormat)

/-- The two programs. -/
inductive Program where
  | image
  | netcdf
deriving DecidableEq, Repr

/-- The variables of `main`, tools/hrit/XRIT2Image.cpp:51-63 and tools/hrit/XRIT2NetCDF.cpp:57-58, 66-71, as they are at the beginning;
`subarea` is `is_subarea`. -/
structure Options where
  asked : Asked := ⟨none, none, none, none, none⟩
  format : Option Bytes := none
  scale : Rat := 1
  normalize : Bool := false
  overlay : Option Bytes := none
  subarea : Bool := false
  area : Area := ⟨1, 0, 1, 0⟩

/-- How reading the command line ends. -/
inductive Parsed where
  | exits (status : Nat)
  | run (o : Options)
  | undefined

/-- The short options: tools/hrit/XRIT2Image.cpp:84 `"d:r:s:c:f:g:o:t:nVh?"` and tools/hrit/XRIT2NetCDF.cpp:91 `"d:r:s:c:a:t:Vh?"`. -/
def shorts : Program → List (UInt8 × Bool)
  | .image => [(100, true), (114, true), (115, true), (99, true), (102, true), (103, true), (111, true), (116, true), (110, false),
      (86, false), (104, false), (63, false)]
  | .netcdf => [(100, true), (114, true), (115, true), (99, true), (97, true), (116, true), (86, false), (104, false), (63, false)]

/-- `long_options`: tools/hrit/XRIT2Image.cpp:69-82 and tools/hrit/XRIT2NetCDF.cpp:79-89. -/
def longs : Program → List Long
  | .image => [⟨str "directory", true, 100⟩, ⟨str "resolution", true, 114⟩, ⟨str "productid1", true, 115⟩, ⟨str "productid2", true, 99⟩,
      ⟨str "outformat", true, 102⟩, ⟨str "outscale", true, 103⟩, ⟨str "overlay", true, 111⟩, ⟨str "time", true, 116⟩,
      ⟨str "normalize", false, 110⟩, ⟨str "version", false, 86⟩, ⟨str "help", false, 104⟩]
  | .netcdf => [⟨str "directory", true, 100⟩, ⟨str "resolution", true, 114⟩, ⟨str "productid1", true, 115⟩, ⟨str "productid2", true, 99⟩,
      ⟨str "area", true, 97⟩, ⟨str "time", true, 116⟩, ⟨str "version", false, 86⟩, ⟨str "help", false, 104⟩]

/-- tools/hrit/XRIT2NetCDF.cpp:113-120: `-a`.  Variables that `sscanf` does not assign keep their values, but the first line and the first
pixel are decremented in any case; numbers that are not integers of the machine, and overflows, are undefined. -/
def setArea (o : Options) (arg : Bytes) : Parsed :=
  let v := Text.scanf areaFormat arg
  if v.all Geo.isInt then
    match int32 (v[2]?.getD o.area.pixStart - 1), int32 (v[0]?.getD o.area.linStart - 1) with
    | .ok p, .ok l => .run { o with subarea := true, area := ⟨l, v[1]?.getD o.area.nLin, p, v[3]?.getD o.area.nPix⟩ }
    | _, _ => .undefined
  else .undefined

/-- tools/hrit/XRIT2Image.cpp:89-133 and tools/hrit/XRIT2NetCDF.cpp:96-135: one turn of the loop, `arg` being `optarg`. -/
def option (p : Program) (o : Options) (val : UInt8) (arg : Bytes) : Parsed :=
  if val = 100 then .run { o with asked := { o.asked with directory := some arg } }
  else if val = 114 then .run { o with asked := { o.asked with resolution := some arg } }
  else if val = 115 then .run { o with asked := { o.asked with productid1 := some arg } }
  else if val = 99 then .run { o with asked := { o.asked with productid2 := some arg } }
  else if val = 116 then .run { o with asked := { o.asked with timing := some arg } }
  else if val = 86 then .exits 0
  else if val = 63 ∨ val = 104 then .exits 0
  else match p with
    | .image =>
      if val = 102 then .run { o with format := some arg }
      else if val = 103 then .run { o with scale := strtod arg }
      else if val = 111 then .run { o with overlay := some arg }
      else if val = 110 then .run { o with normalize := true }
      else .exits 1
    | .netcdf => if val = 97 then setArea o arg else .exits 1

/-- The loop, tools/hrit/XRIT2Image.cpp:65-134 and tools/hrit/XRIT2NetCDF.cpp:75-136.  Words that are not options are not looked at; for
what it does not understand `getopt_long` returns `?`. -/
def loop (p : Program) (o : Options) : List Event → Parsed
  | [] => .run o
  | .operand _ :: es => loop p o es
  | .bad :: _ => option p o 63 []
  | .opt v a :: es =>
    match option p o v (a.getD []) with
    | .run o => loop p o es
    | r => r

/-- The same with the test that follows, tools/hrit/XRIT2Image.cpp:136-141 and tools/hrit/XRIT2NetCDF.cpp:137-142. -/
def parse (p : Program) (args : List Bytes) : Parsed :=
  match loop p {} (events (shorts p) (longs p) none args) with
  | .run o =>
    match o.asked.product with
    | none => .exits 1
    | some _ => .run o
  | r => r

/-- tools/hrit/XRIT2Image.cpp `main`: the whole program. -/
def imageMain (env : Hrit.Env) (ls : Bytes → List Bytes) (disk : Hrit.Disk) (creates : Bytes → Bool) (args : List Bytes) :
    Outcome XritTools.ImageRun :=
  match parse .image args with
  | .exits n => .ok ⟨n, none⟩
  | .run o => XritTools.xrit2Image env ls disk creates o.asked o.format o.normalize o.overlay
  | .undefined => .ub

/-- tools/hrit/XRIT2NetCDF.cpp `main`: the whole program, with the reading of the prologue as in Model/XritTools.lean. -/
noncomputable def netcdfMain (w : XritTools.World) (env : Hrit.Env) (ls : Bytes → List Bytes) (disk : Hrit.Disk)
    (readPrologue : Bytes → Outcome (Option XritDataset.Prologue)) (args : List Bytes) : Outcome XritTools.NcRun :=
  match parse .netcdf args with
  | .exits n => .ok ⟨n, none⟩
  | .run o => XritTools.netcdfOfArea w env ls disk readPrologue o.asked (if o.subarea then some o.area else none)
  | .undefined => .ub

end Msat.XritCommandLine
