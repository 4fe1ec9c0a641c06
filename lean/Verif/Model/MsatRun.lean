import Verif.Model.MsatTool
import Verif.Model.Stretch

/-
tools/msat.cpp: what msat does with a list of files, and the pictures of tools/image.cpp that it makes.

Simplifications: what GDAL and Magick++ do is given by `Library`; files that are written are not among those that are read; which bands,
window and size of an image are taken, and --force-calibration, are given by `pick` (Model/MsatTool.lean, Model/MsatCommandLine.lean,
Model/Calibrated.lean); what is printed is not modelled (Model/MsatView.lean).
-/
namespace Msat.MsatRun
open Msat MsatTool

/-- A raster band as GDAL gives it: the metadata, the number of its `GDALDataType`, the missing value, and the pixels, `none` if they cannot
be read. -/
structure Band where
  description : List Char
  md : List (List Char × List Char)
  type : Nat
  nodata : Stretch.Val
  pixels : Option (List Stretch.Val)
deriving DecidableEq

/-- A dataset of GDAL. -/
structure Dataset where
  description : List Char
  md : List (List Char × List Char)
  bands : List Band
deriving DecidableEq

/-- GDAL and Magick++: `GDALOpen`; `GDALGetDriverByName` with the extension of the files; whether `GDALCreateCopy` makes the file; whether
`Magick::Image::write` does, otherwise it throws. -/
structure Library where
  opens : List Char → Option Dataset
  driver : List Char → Option (Option (List Char))
  copy : List Char → List Char → Dataset → Bool
  write : List Char → Bool

/-- tools/msat.cpp:288 -/
inductive Action where
  | view (more : Bool)
  | convert (driver : List Char)
  | jpg
  | png
  | display

/-- The members of `Msat` that say what is done: `template` is empty without --copymd. -/
structure Options where
  action : Action
  template : List Char
  range : Stretch.Range

/-- What can be seen of the program. -/
inductive Output where
  | shown (more : Bool) (ds : Dataset)
  | copied (driver file : List Char) (ds : Dataset)
  | picture (file : List Char) (pixels : List UInt8)
  | displayed (pixels : List UInt8)
deriving DecidableEq

/-- How far the program has come: `status` is none if it goes on. -/
structure Result where
  status : Option Nat
  out : List Output

/-- tools/image.cpp:76-142: the type of the pixels that are read; GDT_Byte is 1 and GDT_UInt16 is 2. -/
def kindOf : Nat → Stretch.Kind
  | 1 => .byte
  | 2 => .ushort
  | _ => .float

/-- tools/image.cpp:68-145 `imageToMagick`; `none` is the null pointer. -/
def toMagick (r : Stretch.Range) (b : Band) : Outcome (Option (List UInt8)) :=
  match b.pixels with
  | none => .ok none
  | some vals => do
    let px ← Stretch.imageToMagick (kindOf b.type) r b.nodata vals
    pure (some px)

/-- tools/image.cpp:147-163 `export_image`: `none` is false.  The pointer is used whether it is null or not. -/
def exportImage (lib : Library) (r : Stretch.Range) (b : Band) (file : List Char) : Outcome (Option Output) :=
  if '.' ∉ file then .ok none
  else do
    match ← toMagick r b with
    | none => .ub
    | some px => if lib.write file then .ok (some (.picture file px)) else .throws "Magick::Exception"

/-- tools/image.cpp:165-176 `display_image`: `none` is false. -/
def displayImage (r : Stretch.Range) (b : Band) : Outcome (Option Output) := do
  match ← toMagick r b with
  | none => pure none
  | some px => pure (some (.displayed px))

/-- tools/msat.cpp:728-737, 740-749, 752-757: one band after the other; exceptions are caught in 783-787. -/
def each (f : Band → Outcome (Option Output)) : List Band → Outcome Result
  | [] => .ok ⟨none, []⟩
  | b :: bs =>
    match f b with
    | .ok (some o) => do
      let r ← each f bs
      pure ⟨r.status, o :: r.out⟩
    | .ok none => .ok ⟨some 1, []⟩
    | .throws _ => .ok ⟨some 1, []⟩
    | .ub => .ub
    | .terminate => .terminate
    | .diverges => .diverges

/-- `GetMetadataItem` as tools/msat.cpp:224-242 uses it: msat/gdal/const.h:23-26, the domain is the default one. -/
def metaOf (d : Dataset) : Meta :=
  ⟨d.md.lookup "MSAT_SPACECRAFTID".toList, d.md.lookup "MSAT_SPACECRAFT".toList, d.md.lookup "MSAT_DATETIME".toList⟩

/-- The same for a band, tools/msat.cpp:264-270. -/
def bandMetaOf (b : Band) : BandMeta := ⟨b.md.lookup "MSAT_CHANNELID".toList, b.md.lookup "MSAT_CHANNEL".toList⟩

/-- tools/msat.cpp:731, 743: the name of the file of a picture. -/
def pictureName (ext : String) (d : Dataset) (b : Band) : List Char :=
  outputFileName (metaOf d) (d.bands.map bandMetaOf) (some (bandMetaOf b)) ++ ext.toList

/-- tools/msat.cpp:688-762: the `switch`. -/
def act (lib : Library) (o : Options) (d : Dataset) : Outcome Result :=
  match o.action with
  | .view more => .ok ⟨none, [.shown more d]⟩
  | .convert drv =>
    match lib.driver drv with
    | none => .ok ⟨some 1, []⟩
    | some ext =>
      let file := convertName (metaOf d) (d.bands.map bandMetaOf) ext
      if lib.copy drv file d then .ok ⟨none, [.copied drv file d]⟩ else .ok ⟨some 1, []⟩
  | .jpg => each (fun b => exportImage lib o.range b (pictureName ".jpg" d b)) d.bands
  | .png => each (fun b => exportImage lib o.range b (pictureName ".png" d b)) d.bands
  | .display => each (displayImage o.range) d.bands

/-- tools/msat.cpp:678-685: the bands. -/
def copyBands : List Band → List Band → List Band
  | [], _ => []
  | bs, [] => bs
  | b :: bs, m :: ms => { b with description := m.description, md := m.md } :: copyBands bs ms

/-- tools/msat.cpp:669-686: --copymd.  That the file cannot be opened is not looked at. -/
def copyMetadata (lib : Library) (template : List Char) (d : Dataset) : Outcome Dataset :=
  if template = [] then .ok d
  else match lib.opens template with
    | none => .ub
    | some m => .ok ⟨m.description, m.md, copyBands d.bands m.bands⟩

/-- tools/msat.cpp:573-666: what is made of an image that has been opened. -/
inductive Picked where
  /-- none of the bands that are asked for -/
  | skipped
  /-- the area of --Area is not on the image -/
  | failed
  /-- `translate` returns the null pointer -/
  | null
  | made (d : Dataset)

/-- tools/msat.cpp:561-777 `Msat::main`; `pick` may remember what it did with earlier images. -/
def run {T : Type} (lib : Library) (o : Options) (pick : T → Dataset → Outcome (T × Picked)) : T → List (List Char) → Outcome Result
  | _, [] => .ok ⟨none, []⟩
  | t, f :: fs =>
    match lib.opens f with
    | none => .ok ⟨some 1, []⟩
    | some d =>
      match pick t d with
      | .throws _ => .ok ⟨some 1, []⟩
      | .ub => .ub
      | .terminate => .terminate
      | .diverges => .diverges
      | .ok (t, p) =>
        match p with
        | .skipped => run lib o pick t fs
        | .failed => .ok ⟨some 1, []⟩
        | .null => .ub
        | .made v => do
          let v ← copyMetadata lib o.template v
          let r ← act lib o v
          match r.status with
          | some _ => pure r
          | none => do
            let rest ← run lib o pick t fs
            pure ⟨rest.status, r.out ++ rest.out⟩

/-- tools/msat.cpp:773-788 `main`: the status and what was done. -/
def program {T : Type} (lib : Library) (o : Options) (pick : T → Dataset → Outcome (T × Picked)) (t : T) (files : List (List Char)) :
    Outcome (Nat × List Output) := do
  let r ← run lib o pick t files
  pure (r.status.getD 0, r.out)

end Msat.MsatRun
