import Verif.Model.Sources
import Verif.Model.FileAccess
import Verif.Model.Facts

/-
gdal/xrit/xrit.cpp and gdal/utils.cpp: opening an xRIT image, or an image computed from it, and who releases the datasets that are opened.

A dataset in memory has a number.  What the files contain is given: see Model/XritDataset.lean for how it is found.
-/
namespace Msat.XritOpen
open Msat Sources

/-- Datasets in memory: the next number, and those that were made and not deleted. -/
structure Heap where
  next : Nat
  live : List Nat
deriving DecidableEq, Repr

/-- Something that is run, with what it leaves in memory. -/
abbrev Run (α : Type) := Heap → Heap × Outcome α

/-- `delete` of datasets, one after the other: deleting one that is not there is undefined. -/
def deleteAll : List Nat → Heap → Heap × Outcome Unit
  | [], h => (h, .ok ())
  | i :: is, h => if i ∈ h.live then deleteAll is { h with live := h.live.erase i } else (h, .ub)

/-- The destructors of what is owned are run, and then the run ends with `o`. -/
def release {α : Type} (ids : List Nat) (o : Outcome α) : Run α := fun h =>
  match deleteAll ids h with
  | (h, .ok ()) => (h, o)
  | (h, _) => (h, .ub)

/-- What `XRITDataset::init` does for some files. -/
inductive Init where
  /-- an exception -/
  | raises
  /-- it returns false -/
  | refuses
  /-- the image is there; the number of the dataset is not yet known -/
  | opens (d : Dataset)

/-- What the files are. -/
abbrev Files := Xrit.FileAccess → Init

/-- `new XRITDataset(fa)` in a `unique_ptr`, and `if (!ds->init()) return NULL;`, gdal/xrit/xrit.cpp:45-46 -/
def openDataset (files : Files) (fa : Xrit.FileAccess) : Run (Option Dataset) := fun h =>
  let i := h.next
  let h := { h with next := i + 1, live := i :: h.live }
  match files fa with
  | .raises => release [i] (.throws "cannot read the files") h
  | .refuses => release [i] (.ok none) h
  | .opens d => (h, .ok (some { d with id := i }))

/-! ### Reflectances -/

/-- `ReflectanceDataset`, gdal/reflectance/reflectance.h:12-52 -/
structure Rds where
  proxy : Proxy := {}
  owned : List Nat := []

/-- gdal/reflectance/reflectance.cpp:31-46: the loop of `add_source` from band `i`, with `take_ownership`. -/
def Rds.addBands (r : Rds) (ds : Dataset) (i : Nat) : List Band → Rds × Outcome Unit
  | [] => (r, .ok ())
  | b :: bs =>
    match used b with
    | none => r.addBands ds (i + 1) bs
    | some c =>
      match addInfo r.proxy ds with
      | (p, .ok ()) =>
        Rds.addBands ⟨{ p with sources := fun x => if x = c then some ⟨ds.id, i, b.usable⟩ else p.sources x },
          if ds.id ∈ r.owned then r.owned else ds.id :: r.owned⟩ ds (i + 1) bs
      | (p, o) => ({ r with proxy := p }, o)

/-- gdal/reflectance/reflectance.cpp:29-46 `ReflectanceDataset::add_source(ds, true)` -/
def Rds.addSource (r : Rds) (ds : Dataset) : Rds × Outcome Unit := r.addBands ds 1 ds.bands

/-- The new dataset. -/
inductive Product where
  /-- the image itself -/
  | image (d : Dataset)
  /-- reflectance of a channel, with the bands that it is computed from -/
  | reflectance (channel : Int) (r : Rds) (bands : List Ref)
  /-- zenith angle of the satellite -/
  | satZa (p : Proxy)
  /-- cosine of the zenith angle of the sun, with the day of the year and the hour -/
  | cosSolZa (p : Proxy) (jday : Int) (daytime : Rat)
  /-- day of the year -/
  | jday (p : Proxy) (jday : Int)

/-- gdal/xrit/xrit.cpp:51-55: the sources are added one after the other, each `release`d by its `unique_ptr` before; if one is refused the
destructors of the reflectance dataset and of the other pointers are run. -/
def addSources (r : Rds) : List Dataset → Run Rds
  | [], h => (h, .ok r)
  | d :: ds, h =>
    match r.addSource d with
    | (r, .ok ()) => addSources r ds h
    | (r, .throws m) => release (r.owned ++ ds.map Dataset.id) (.throws m) h
    | (_, _) => (h, .ub)

/-- gdal/xrit/xrit.cpp:50-56 and 61-64, gdal/utils.cpp:35-38: `ReflectanceDataset` with its sources, and `init_rasterband`. -/
def reflectance (channel : Int) (ds : List Dataset) : Run (Option Product) := fun h =>
  match addSources {} ds h with
  | (h, .ok r) =>
    match initRasterband channel r.proxy with
    | .ok bands => (h, .ok (some (.reflectance channel r bands)))
    | .throws m => release r.owned (.throws m) h
    | _ => (h, .ub)
  | (h, .throws m) => (h, .throws m)
  | (h, _) => (h, .ub)

/-! ### Angles and days -/

/-- gdal/reflectance/base.cpp:73-83 `ProxyRasterBand::add_info`, for the first band, after `ProxyDataset::add_info`. -/
def prototype (d : Dataset) : Outcome Proxy :=
  match addInfo {} d with
  | (p, .ok ()) =>
    match d.bands with
    | [] => .ub
    | b :: _ => if b.usable then .ok p else .throws "trying to use a source GDALRasterBand without metadata"
  | (_, .throws m) => .throws m
  | (_, _) => .ub

/-- gdal/reflectance/cos_sol_za.cpp:37-43, jday.cpp:32-37: day of the year and hour. -/
def timeOf (datetime : Bytes) : Outcome (Int × Rat) :=
  match Text.scanf timeFormat datetime with
  | [ye, mo, da, ho, mi, _] => .ok (Facts.jday ye mo da, ho + mi / 60)
  | _ => .throws "cannot parse file time"

/-- gdal/reflectance/sat_za.cpp:73-78 and 23-33 -/
def newSatZa (d : Dataset) : Outcome Product := do
  let p ← prototype d
  pure (.satZa p)

/-- gdal/reflectance/cos_sol_za.cpp:87-92 and 28-46 -/
def newCosSolZa (d : Dataset) : Outcome Product := do
  let p ← prototype d
  let (day, time) ← timeOf p.datetime
  pure (.cosSolZa p day time)

/-- gdal/reflectance/jday.cpp:57-62 and 23-38; the day is an `int16_t` -/
def newJday (d : Dataset) : Outcome Product := do
  let p ← prototype d
  let (day, _) ← timeOf p.datetime
  pure (.jday p day)

/-! ### Opening -/

/-- gdal/utils.cpp:39-50: a dataset is made from another one, which is then deleted.  An exception leaves it where it is. -/
def deriveFrom (new : Dataset → Outcome Product) (d : Dataset) : Run (Option Product) := fun h =>
  match new d with
  | .ok p => release [d.id] (.ok (some p)) h
  | .throws m => (h, .throws m)
  | _ => (h, .ub)

/-- gdal/utils.cpp:16-57 `add_extras`, with the value of the option MSAT_COMPUTE -/
def addExtras (compute : Option Bytes) (d : Dataset) : Run (Option Product) := fun h =>
  match compute with
  | none => (h, .ok (some (.image d)))
  | some val =>
    if val = str "reflectance" then
      match d.bands with
      | [] => (h, .ub)
      | b :: _ =>
        match b.channel with
        | none => (h, .throws "cannot compute reflectance of a channel without metadata")
        | some c =>
          if c = 4 then (h, .throws "IR 0.39 reflectance cannot yet be computed via MSAT_COMPUTE open option")
          else reflectance c [d] h
    else if val = str "sat_za" then deriveFrom newSatZa d h
    else if val = str "cos_sol_za" then deriveFrom newCosSolZa d h
    else if val = str "jday" then deriveFrom newJday d h
    else release [d.id] (.ok none) h

/-- gdal/xrit/xrit.cpp:41-57: the three channels; each is opened after the other, and those opened are released if one is not there. -/
def openThree (files : Files) (fa : Xrit.FileAccess) : Run (Option Product) := fun h =>
  match openDataset files fa h with
  | (h, .ok (some d1)) =>
    match openDataset files (Xrit.withChannel fa (str "IR_108")) h with
    | (h, .ok (some d2)) =>
      match openDataset files (Xrit.withChannel fa (str "IR_134")) h with
      | (h, .ok (some d3)) => reflectance 4 [d1, d2, d3] h
      | (h, .ok none) => release [d2.id, d1.id] (.ok none) h
      | (h, .throws m) => release [d2.id, d1.id] (.throws m) h
      | (h, _) => (h, .ub)
    | (h, .ok none) => release [d1.id] (.ok none) h
    | (h, .throws m) => release [d1.id] (.throws m) h
    | (h, _) => (h, .ub)
  | (h, .ok none) => (h, .ok none)
  | (h, .throws m) => (h, .throws m)
  | (h, _) => (h, .ub)

/-- One image is opened, and something is done with it. -/
def openOne (files : Files) (fa : Xrit.FileAccess) (k : Dataset → Run (Option Product)) : Run (Option Product) := fun h =>
  match openDataset files fa h with
  | (h, .ok (some d)) => k d h
  | (h, .ok none) => (h, .ok none)
  | (h, .throws m) => (h, .throws m)
  | (h, _) => (h, .ub)

/-- gdal/xrit/xrit.cpp:58-65: reflectance of one channel; `rb->channel_id` is the channel of the band. -/
def openReflectance (files : Files) (fa : Xrit.FileAccess) : Run (Option Product) :=
  openOne files fa fun d h =>
    match d.bands with
    | ⟨some c, _⟩ :: _ => reflectance c [d] h
    | _ => (h, .ub)

/-- gdal/xrit/xrit.cpp:66-70: here the image is in a `unique_ptr`, and always deleted. -/
def openAngle (files : Files) (fa : Xrit.FileAccess) : Run (Option Product) :=
  openOne files fa fun d h =>
    match newCosSolZa d with
    | .ok p => release [d.id] (.ok (some p)) h
    | .throws m => release [d.id] (.throws m) h
    | _ => (h, .ub)

/-- gdal/xrit/xrit.cpp:27-39: the suffix of the product. -/
def suffix (productid2 : Bytes) : Option UInt8 :=
  match productid2.getLast? with
  | some c => if c = 114 ∨ c = 97 then some c else none
  | none => none

/-- gdal/xrit/xrit.cpp:18-76 `XRITOpen` -/
def xritOpen (files : Files) (name : Bytes) (compute : Option Bytes) : Run (Option Product) := fun h =>
  if !Xrit.isValid name then (h, .ok none)
  else
    match Xrit.parse name with
    | .ok fa =>
      match suffix fa.productid2 with
      | none => openOne files fa (addExtras compute) h
      | some c =>
        let fa := { fa with productid2 := fa.productid2.dropLast }
        if c = 114 then
          if fa.productid2 = str "IR_039" then openThree files fa h else openReflectance files fa h
        else openAngle files fa h
    | .throws m => (h, .throws m)
    | _ => (h, .ub)

end Msat.XritOpen
