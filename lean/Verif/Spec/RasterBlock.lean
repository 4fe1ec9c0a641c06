import Verif.Model.DataAccess

/-
Where the samples of a line of a product are in the row of a raster block.
-/
namespace Msat.XritSpec
open Xrit

/-- Line `line` (from 1, from the south) is between the limits of a window. -/
abbrev Within (south north line : Nat) : Prop := south ≤ line ∧ line ≤ north

/-- Which sample of a line, counting from the west of its window, is at pixel `x` of a row of a block: in
the low resolution channels sample `x`; in HRV the one whose column of the grid of 11136 columns, counting
from 1 from the east, is that of the pixel, if the window of the line has it. -/
def sampleAt (hrv : Option Coverage) (cols line x : Nat) : Option Nat :=
  match hrv with
  | none => if x < cols then some x else none
  | some c =>
    let column := 11136 - x
    let (east, west) :=
      if Within c.lowerSouth c.lowerNorth line then (c.lowerEast, c.lowerWest) else (c.upperEast, c.upperWest)
    if east ≤ column ∧ column ≤ west then some (west - column) else none

/-- A line of a product that has a place on the grid. -/
def OnGrid (hrv : Option Coverage) (line : Nat) : Prop :=
  match hrv with
  | none => True
  | some c => Within c.lowerSouth c.lowerNorth line ∨ Within c.upperSouth c.upperNorth line

/-! Numbers of 32 bits after IEEE 754: one bit for the sign, eight for the exponent and 23 for the fraction. -/

abbrev sign32 (b : Nat) : Nat := b / 2 ^ 31
abbrev exponent32 (b : Nat) : Nat := b / 2 ^ 23 % 256
abbrev fraction32 (b : Nat) : Nat := b % 2 ^ 23

/-- The bits of something that is not a number. -/
def NotANumber32 (b : Nat) : Prop := exponent32 b = 255 ∧ fraction32 b ≠ 0

/-- The bits of a number less than zero: zero with a minus is not less than zero. -/
def Negative32 (b : Nat) : Prop := sign32 b = 1 ∧ ¬ NotANumber32 b ∧ ¬ (exponent32 b = 0 ∧ fraction32 b = 0)

end Msat.XritSpec
