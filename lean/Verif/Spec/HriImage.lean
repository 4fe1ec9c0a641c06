import Verif.Model.HriImage

/-
What C32 and C33 mean.  Only the enumerations and the type of bytes come from the model.
-/
namespace Msat.HriSpec
open Hri

/-- Pixels per line and lines of the images of the dissemination formats (EUM TD 02); `none` where a format
does not have the band. -/
def dims : Format → Band → Option (Nat × Nat)
  | .A, .VIS => some (5000, 5000)
  | .A, _ => some (2500, 2500)
  | .B, .VIS => some (2500, 1250)
  | .B, .VH => none
  | .B, _ => some (1250, 625)
  | .X, .VIS => none
  | .X, _ => some (1250, 1250)

/-- The last line written at number `n` in a history of writes, oldest first. -/
def lastWrite (ws : List (Nat × Bytes)) (n : Nat) : Option Bytes :=
  match ws with
  | [] => none
  | w :: ws => match lastWrite ws n with
    | some d => some d
    | none => if w.1 = n then some w.2 else none

/-- What line `n` must hold: the line last written, or nothing that can be relied on. -/
def content (ws : List (Nat × Bytes)) (n width : Nat) : List (Option UInt8) :=
  match lastWrite ws n with
  | some d => d.map some
  | none => List.replicate width none

end Msat.HriSpec
