import Verif.Model.Sources

/-
What the sources of a computation must have in common.
-/
namespace Msat.SourcesSpec
open Msat Sources

/-- Georeference, time and size that all the sources share. -/
structure Common where
  srs : Nat
  gt : Nat
  datetime : Bytes
  sx : Nat
  sy : Nat
deriving DecidableEq, Repr

/-- A dataset with these. -/
def Has (d : Dataset) (c : Common) : Prop :=
  d.srs = some c.srs ∧ d.gt = some c.gt ∧ d.datetime = some c.datetime ∧ d.sx = c.sx ∧ d.sy = c.sy ∧ d.metadata.isSome = true

/-- The dataset provides the channel, in one of its bands. -/
def Provides (d : Dataset) (c : Int) : Prop := 1 ≤ c ∧ c ≤ 12 ∧ ∃ b ∈ d.bands, b.channel = some c

/-- Position, from 1, of the last band with the channel. -/
def lastBand (d : Dataset) (c : Int) : Option Ref :=
  ((d.bands.zipIdx 1).filter fun p => p.1.channel = some c).getLast?.map fun p => ⟨d.id, p.2, p.1.usable⟩

/-- No channel is provided by two datasets. -/
def NoOverlap (ds : List Dataset) : Prop := ds.Pairwise fun a b => ∀ c, Provides a c → ¬ Provides b c

end Msat.SourcesSpec
