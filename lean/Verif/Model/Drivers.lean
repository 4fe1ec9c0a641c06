import Verif.Model.Basic
import Verif.Model.NetcdfAny

/-
gdal/msat2gdal.cpp, gdal/msatgdalplugin.cpp and the functions `GDALRegister_…`: the drivers of meteosatlib in the list of those of GDAL, and which
driver opens a file.

GDAL is not code of /repo: that it keeps a list of drivers, looks for them by name without regard to case, adds new ones at the end, and opens a
file with the first driver that can, is said here.  The longer names, the help and the extensions of the drivers are left out.
-/
namespace Msat.Drivers
open Msat

/-- What the function that opens files says: a pointer to an image, the null pointer, or the null pointer after `CPLError(CE_Failure, …)`. -/
inductive Answer (I : Type) where
  | opened (image : I)
  | refused
  | failed

/-- `GDALDriver`, with its description and `pfnOpen`.  `F` are the files, and `I` the images. -/
structure Driver (F I : Type) where
  name : String
  openFile : F → Outcome (Answer I)

/-- Names are the same for GDAL if they differ only by the case (`EQUAL`). -/
def fold (s : String) : List Char := s.toList.map Char.toLower

/-- `GDALGetDriverByName` -/
def byName {F I : Type} (m : List (Driver F I)) (name : String) : Option (Driver F I) := m.find? fun d => fold d.name == fold name

/-- `GDALDriverManager::RegisterDriver`: at the end. -/
def register {F I : Type} (d : Driver F I) (m : List (Driver F I)) : List (Driver F I) := m ++ [d]

/-- The functions of meteosatlib that open files. -/
structure Opens (F I : Type) where
  xrit : F → Outcome (Answer I)
  netcdf : F → Outcome (Answer I)
  netcdf24 : F → Outcome (Answer I)
  grib : F → Outcome (Answer I)

/-- What is common to gdal/xrit/xrit.cpp:85-100, gdal/netcdf/netcdf.cpp:530-546, gdal/netcdf/netcdf24.cpp:565-581 and gdal/grib/grib.cpp:877-893.
`check` is `GDAL_CHECK_VERSION`: whether GDAL is of the version that meteosatlib was built for. -/
def registerOne {F I : Type} (check : Bool) (name : String) (openFile : F → Outcome (Answer I)) (m : List (Driver F I)) : List (Driver F I) :=
  if !check then m
  else if (byName m name).isNone then register ⟨name, openFile⟩ m
  else m

/-- gdal/xrit/xrit.cpp:85-100 `GDALRegister_MsatXRIT` -/
def registerXrit {F I : Type} (check : Bool) (o : Opens F I) (m : List (Driver F I)) : List (Driver F I) := registerOne check "MsatXRIT" o.xrit m

/-- gdal/netcdf/netcdf.cpp:530-546 `GDALRegister_MsatNetCDF` -/
def registerNetcdf {F I : Type} (check : Bool) (o : Opens F I) (m : List (Driver F I)) : List (Driver F I) := registerOne check "MsatNetCDF" o.netcdf m

/-- gdal/netcdf/netcdf24.cpp:565-581 `GDALRegister_MsatNetCDF24` -/
def registerNetcdf24 {F I : Type} (check : Bool) (o : Opens F I) (m : List (Driver F I)) : List (Driver F I) :=
  registerOne check "MsatNetCDF24" o.netcdf24 m

/-- gdal/grib/grib.cpp:877-893 `GDALRegister_MsatGRIB` -/
def registerGrib {F I : Type} (check : Bool) (o : Opens F I) (m : List (Driver F I)) : List (Driver F I) := registerOne check "MsatGRIB" o.grib m

/-- gdal/msatgdalplugin.cpp:32-38 `GDALRegister_Meteosatlib`, and gdal/msat2gdal.cpp:40-43. -/
def registerMsat {F I : Type} (check : Bool) (o : Opens F I) (m : List (Driver F I)) : List (Driver F I) :=
  registerGrib check o (registerNetcdf24 check o (registerNetcdf check o (registerXrit check o m)))

/-- What the function `GDALAllRegister` of GDAL does, one step at a time: it loads the plugin of meteosatlib, or it registers one of its own drivers
if there is none with that name. -/
inductive Step (F I : Type) where
  | plugin
  | own (d : Driver F I)

def step {F I : Type} (check : Bool) (o : Opens F I) (m : List (Driver F I)) : Step F I → List (Driver F I)
  | .plugin => registerMsat check o m
  | .own d => if (byName m d.name).isNone then register d m else m

/-- `GDALAllRegister` of GDAL -/
def gdalAllRegister {F I : Type} (check : Bool) (o : Opens F I) (steps : List (Step F I)) (m : List (Driver F I)) : List (Driver F I) :=
  steps.foldl (step check o) m

/-- gdal/msat2gdal.cpp:34-46 `GDALAllRegister` of the library to preload: first the drivers of meteosatlib, then those of GDAL.  `next` is what
`dlsym` finds: `none` is the null pointer, that is called all the same. -/
def allRegister {F I : Type} (check : Bool) (o : Opens F I) (next : Option (List (Step F I))) (m : List (Driver F I)) : Outcome (List (Driver F I)) :=
  let m := registerMsat check o m
  match next with
  | none => .ub
  | some steps => .ok (gdalAllRegister check o steps m)

/-- `GDALOpen`: the drivers are tried in order.  `stops` says whether a failure of a driver ends the search: it depends on the version of GDAL. -/
def openWith {F I : Type} (stops : Bool) : List (Driver F I) → F → Outcome (Option I)
  | [], _ => .ok none
  | d :: ds, f => do
    match ← d.openFile f with
    | .opened i => pure (some i)
    | .refused => openWith stops ds f
    | .failed => if stops then pure none else openWith stops ds f

/-! ### NetCDF files -/

/-- gdal/netcdf/netcdf.cpp:225-255 `NetCDFOpen`, with the failures that are told (gdal/netcdf/netcdf.cpp:117-223: every false of `init` is told).
Without the option `MSAT_COMPUTE`. -/
def netcdfOpen (f : NetcdfAny.File) : Answer NetcdfAny.Image :=
  if !f.isFile then .refused
  else if !f.valid then .refused
  else if (f.att "Satellite").isNone then .refused
  else
    match NetcdfAny.init f with
    | none => .failed
    | some i => .opened i

/-- gdal/netcdf/netcdf24.cpp:244-274 `NetCDF24Open`, with the failures that are told (gdal/netcdf/netcdf24.cpp:97-242: every false of `init`). -/
noncomputable def netcdf24Open (f : NetcdfAny.File) : Outcome (Answer (NetcdfAny.Image × NetcdfAny.Geo)) :=
  if !f.isFile then .ok .refused
  else if !f.valid then .ok .refused
  else if (f.att "GribEditionNumber").isNone then .ok .refused
  else do
    match ← NetcdfAny.init24 f with
    | none => pure .failed
    | some i => pure (.opened i)

/-- Images of the drivers of meteosatlib for NetCDF, and those of other drivers. -/
inductive Opened (I : Type) where
  | netcdf (image : NetcdfAny.Image)
  | netcdf24 (image : NetcdfAny.Image) (geo : NetcdfAny.Geo)
  | other (image : I)

def Answer.map {I J : Type} (g : I → J) : Answer I → Answer J
  | .opened i => .opened (g i)
  | .refused => .refused
  | .failed => .failed

/-- The functions that open NetCDF files, with any others for xRIT and GRIB.  `content` is what the NetCDF library finds in a file. -/
noncomputable def msatOpens {F I : Type} (content : F → NetcdfAny.File) (xrit grib : F → Outcome (Answer (Opened I))) : Opens F (Opened I) where
  xrit := xrit
  netcdf := fun f => .ok ((netcdfOpen (content f)).map .netcdf)
  netcdf24 := fun f => do
    let a ← netcdf24Open (content f)
    pure (a.map fun p => .netcdf24 p.1 p.2)
  grib := grib

end Msat.Drivers
