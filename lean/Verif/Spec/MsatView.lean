import Mathlib.Data.List.Forall2
import Verif.Model.MsatView

/-
What C114 means: what has to be seen in what is shown of an image.
-/
namespace Msat.MsatViewSpec
open Msat MsatView

/-- The text is on one line. -/
def OneLine (s : Bytes) : Prop := (10 : UInt8) ∉ s

/-- Texts of numbers have no newlines, blanks nor commas, and are not empty. -/
def PlainNumbers (fmt : Rat → Bytes) : Prop := ∀ x, fmt x ≠ [] ∧ ∀ c ∈ fmt x, c ≠ 10 ∧ c ≠ 32 ∧ c ≠ 44

/-- The domains of metadata that a user of GDAL knows: the default one, where the time, the satellite and the channel are, and three more. -/
def known : List String := ["", "SUBDATASETS", "IMAGE_STRUCTURE", "RPC"]

def PlainMetadata (md : Metadata) : Prop := ∀ d ∈ known, ∀ l, md d = some l → ∀ t ∈ l, OneLine t

/-- All the texts of the image are on one line each. -/
def Plain (d : Image) : Prop :=
  OneLine d.description ∧ OneLine d.projection ∧ PlainMetadata d.md ∧
  ∀ b ∈ d.bands, OneLine b.description ∧ OneLine b.unit ∧ PlainMetadata b.md

/-- The metadata of the known domains are the same. -/
def SameMetadata (a b : Metadata) : Prop := ∀ d ∈ known, a d = b d

/-- The types have the same name: they are the same, or neither is a type of GDAL. -/
def SameType (t u : Nat) : Prop := t = u ∨ (12 ≤ t ∧ 12 ≤ u)

/-- The numbers have the same text. -/
def SameNumber (fmt : Rat → Bytes) (x y : Rat) : Prop := fmt x = fmt y

/-- The texts of the statistics, if there are any, are the same. -/
def SameStats (fmt : Rat → Bytes) (a b : Option (Rat × Rat × Rat × Rat)) : Prop :=
  a.map (fun s => (fmt s.1, fmt s.2.1, fmt s.2.2.1, fmt s.2.2.2)) = b.map (fun s => (fmt s.1, fmt s.2.1, fmt s.2.2.1, fmt s.2.2.2))

/-- Bands that look the same are the same, up to digits of numbers that are not shown. -/
structure SameBand (fmt : Rat → Bytes) (withContents : Bool) (a b : Band) : Prop where
  description : a.description = b.description
  size : a.sx = b.sx ∧ a.sy = b.sy
  type : SameType a.type b.type
  offset : SameNumber fmt a.offset b.offset
  scale : SameNumber fmt a.scale b.scale
  unit : a.unit = b.unit
  md : SameMetadata a.md b.md
  stats : SameStats fmt (a.stats withContents) (b.stats withContents)

/-- Images that look the same are the same, up to digits of numbers that are not shown. -/
structure SameImage (fmt : Rat → Bytes) (withContents : Bool) (a b : Image) : Prop where
  description : a.description = b.description
  size : a.sx = b.sx ∧ a.sy = b.sy
  projection : a.projection = b.projection
  gt : (a.gt.map fun g => (fmt g.1, fmt g.2.1, fmt g.2.2.1, fmt g.2.2.2.1, fmt g.2.2.2.2.1, fmt g.2.2.2.2.2)) =
    b.gt.map fun g => (fmt g.1, fmt g.2.1, fmt g.2.2.1, fmt g.2.2.2.1, fmt g.2.2.2.2.1, fmt g.2.2.2.2.2)
  md : SameMetadata a.md b.md
  bands : List.Forall₂ (SameBand fmt withContents) a.bands b.bands

end Msat.MsatViewSpec
