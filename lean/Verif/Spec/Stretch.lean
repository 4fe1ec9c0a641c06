import Verif.Model.Stretch

/-
A linear grey scale between two values.
-/
namespace Msat.StretchSpec
open Msat Stretch

/-- Black up to `a`, white from `b`, and linear in between, rounded down. -/
def grey (a b v : Rat) : Int :=
  if v ≤ a then 0 else if b ≤ v then 255 else ⌊(v - a) * 255 / (b - a)⌋

/-- A value of the type of the pixels. -/
def IsPixel (k : Kind) (v : Rat) : Prop :=
  match k with
  | .byte => ∃ n : Int, v = n ∧ 0 ≤ n ∧ n < 256
  | .ushort => ∃ n : Int, v = n ∧ 0 ≤ n ∧ n < 65536
  | .float => True

/-- `a` and `b` are the smallest and the largest of the values other than `missing`. -/
def Extremes (missing : Rat) (vals : List Rat) (a b : Rat) : Prop :=
  (a ∈ vals ∧ a ≠ missing) ∧ (b ∈ vals ∧ b ≠ missing) ∧ ∀ v ∈ vals, v ≠ missing → a ≤ v ∧ v ≤ b

end Msat.StretchSpec
