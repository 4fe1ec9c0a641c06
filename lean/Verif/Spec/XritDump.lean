import Verif.Spec.DataAccess
import Verif.Model.XritDump

/-
What a user of xritdump relies on: the numbers and the pictures printed are those of the samples in
the files of the product.
-/
namespace Msat.XritDumpSpec
open Xrit XritSpec

/-- The shades, from the darkest to the brightest. -/
def palette : List Char := [' ', '.', ',', '-', ':', '=', '$', '#']

/-- The character `c` stands for the sample `s`, when samples go from `lo` to `hi`: the interval is
divided in eight equal parts, one for each shade.  The greatest sample is beyond the last part: it is
shown as the character NUL. -/
def Shows (s lo hi : Nat) (c : Char) : Prop :=
  (s < hi → palette[(s - lo) * 8 / (hi - lo)]? = some c) ∧ (s = hi → c = Char.ofNat 0)

def Least (samples : List Nat) (v : Nat) : Prop := v ∈ samples ∧ ∀ w ∈ samples, v ≤ w

def Greatest (samples : List Nat) (v : Nat) : Prop := v ∈ samples ∧ ∀ w ∈ samples, w ≤ v

/-- The samples differ. -/
def Varied (samples : List Nat) : Prop := ∃ v ∈ samples, ∃ w ∈ samples, v < w

/-- A product of `total` lines: `imgs i` are the samples of the file of segment `i`, if it has one. -/
structure Product (da : DataAccess) (disk : Bytes → Outcome SegData) (imgs : Nat → Option (List Nat))
    (total : Nat) : Prop where
  missing : ∀ i, imgs i = none ↔ nameOf da i = []
  read : ∀ i img, imgs i = some img → disk (nameOf da i) = .ok ⟨some img⟩
  size : ∀ i img, imgs i = some img → img.length = da.seglines * da.columns
  samples : ∀ i img, imgs i = some img → ∀ v ∈ img, v < 2 ^ 16
  some_ : ∃ i, imgs i ≠ none
  height : total = if da.hrv then da.maxLine else 3712
  south : da.southLine = 1
  rows : 0 < da.seglines
  columns : 0 < da.columns
  small : total < 2 ^ 32
  few : da.segnames.length * da.seglines < 2 ^ 63

/-- The sample of the product at a line, counted from the north, and at a column of the segments;
nothing where no segment covers it. -/
def sampleAt (da : DataAccess) (imgs : Nat → Option (List Nat)) (total line col : Nat) : Option Nat :=
  if line < total ∧ col < da.columns then
    (imgs ((total - 1 - line) / da.seglines)).bind fun img =>
      img[(total - 1 - line) % da.seglines * da.columns + (if da.swapX then da.columns - 1 - col else col)]?
  else none

end Msat.XritDumpSpec
