import Verif.Model.MsatRun
import Verif.Spec.Stretch

/-
What msat has to do with the files of its command line.
-/
namespace Msat.MsatRunSpec
open Msat MsatRun

/-- The images that are chosen of the files, in their order: every file can be opened, and those without any of the bands that are asked for
are left out. -/
inductive Chosen {T : Type} (lib : Library) (pick : T → Dataset → Outcome (T × Picked)) : T → List (List Char) → List Dataset → Prop
  | nil (t : T) : Chosen lib pick t [] []
  | skip {t t' : T} {f : List Char} {fs : List (List Char)} {d : Dataset} {vs : List Dataset} : lib.opens f = some d →
      pick t d = .ok (t', .skipped) → Chosen lib pick t' fs vs → Chosen lib pick t (f :: fs) vs
  | made {t t' : T} {f : List Char} {fs : List (List Char)} {d v : Dataset} {vs : List Dataset} : lib.opens f = some d →
      pick t d = .ok (t', .made v) → Chosen lib pick t' fs vs → Chosen lib pick t (f :: fs) (v :: vs)

/-- An image with the names and metadata of a template, band by band as far as the template has bands, and with the pixels that it had. -/
structure Amended (m v w : Dataset) : Prop where
  description : w.description = m.description
  metadata : w.md = m.md
  count : w.bands.length = v.bands.length
  pixels : ∀ (i : Nat) (b b' : Band), v.bands[i]? = some b → w.bands[i]? = some b' → b'.type = b.type ∧ b'.nodata = b.nodata ∧ b'.pixels = b.pixels
  named : ∀ (i : Nat) (b' t : Band), w.bands[i]? = some b' → m.bands[i]? = some t → b'.description = t.description ∧ b'.md = t.md
  others : ∀ i : Nat, m.bands[i]? = none → w.bands[i]? = v.bands[i]?

/-- What becomes of an image with --copymd, or without. -/
def Labelled (lib : Library) (template : List Char) (v w : Dataset) : Prop :=
  (template = [] ∧ w = v) ∨ (template ≠ [] ∧ ∃ m, lib.opens template = some m ∧ Amended m v w)

/-- The values that are black and white: those of --stretch, otherwise the least and the greatest that is not missing. -/
def Limits (r : Stretch.Range) (k : Stretch.Kind) (nodata : Stretch.Val) (vals : List Rat) (lo hi : Rat) : Prop :=
  match r with
  | none => ∃ m, nodata = some m ∧ StretchSpec.IsPixel k m ∧ StretchSpec.Extremes m vals lo hi
  | some r => r = (some lo, some hi) ∧ StretchSpec.IsPixel k lo ∧ StretchSpec.IsPixel k hi

/-- The type of pixels by the numbers of GDAL. -/
def Pixels (type : Nat) (k : Stretch.Kind) : Prop :=
  (type = 1 ∧ k = .byte) ∨ (type = 2 ∧ k = .ushort) ∨ (type ≠ 1 ∧ type ≠ 2 ∧ k = .float)

/-- The picture of a band: a linear scale of greys. -/
def Drawn (r : Stretch.Range) (b : Band) (px : List UInt8) : Prop :=
  ∃ k vals lo hi, Pixels b.type k ∧ b.pixels = some (vals.map some) ∧ Limits r k b.nodata vals lo hi ∧ lo < hi ∧
    px = vals.map fun v => UInt8.ofNat (StretchSpec.grey lo hi v).toNat

/-- The file of the picture of a band: the name of C80 for the metadata of the image. -/
def PictureOf (lib : Library) (r : Stretch.Range) (ext : String) (d : Dataset) (b : Band) (out : Output) : Prop :=
  ∃ px, Drawn r b px ∧ lib.write (pictureName ext d b) = true ∧ out = .picture (pictureName ext d b) px

/-- What is done with one image. -/
def Does (lib : Library) (o : Options) (d : Dataset) (out : List Output) : Prop :=
  match o.action with
  | .view more => out = [.shown more d]
  | .convert drv => ∃ ext, lib.driver drv = some ext ∧
      lib.copy drv (MsatTool.convertName (metaOf d) (d.bands.map bandMetaOf) ext) d = true ∧
      out = [.copied drv (MsatTool.convertName (metaOf d) (d.bands.map bandMetaOf) ext) d]
  | .jpg => List.Forall₂ (PictureOf lib o.range ".jpg" d) d.bands out
  | .png => List.Forall₂ (PictureOf lib o.range ".png" d) d.bands out
  | .display => List.Forall₂ (fun b out => ∃ px, Drawn o.range b px ∧ out = .displayed px) d.bands out

/-- What can be seen of one image that was done: as `Does`, without what the greys are. -/
def Seen (lib : Library) (o : Options) (d : Dataset) (out : List Output) : Prop :=
  match o.action with
  | .view more => out = [.shown more d]
  | .convert drv => ∃ ext, lib.driver drv = some ext ∧
      lib.copy drv (MsatTool.convertName (metaOf d) (d.bands.map bandMetaOf) ext) d = true ∧
      out = [.copied drv (MsatTool.convertName (metaOf d) (d.bands.map bandMetaOf) ext) d]
  | .jpg => List.Forall₂ (fun b out => b.pixels ≠ none ∧ lib.write (pictureName ".jpg" d b) = true ∧
      ∃ px, out = .picture (pictureName ".jpg" d b) px) d.bands out
  | .png => List.Forall₂ (fun b out => b.pixels ≠ none ∧ lib.write (pictureName ".png" d b) = true ∧
      ∃ px, out = .picture (pictureName ".png" d b) px) d.bands out
  | .display => List.Forall₂ (fun b out => b.pixels ≠ none ∧ ∃ px, out = .displayed px) d.bands out

end Msat.MsatRunSpec
