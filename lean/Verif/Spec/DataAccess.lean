import Verif.Model.DataAccess

/-
What a user of the lines of an xRIT product relies on: no cache, no order of access.
-/
namespace Msat.XritSpec
open Xrit

/-- The name of the file of segment `idx` (counted from 0), empty when the file is absent. -/
def nameOf (da : DataAccess) (idx : Nat) : Bytes := (da.segnames[idx]?).getD []

/-- Reading a segment directly from its file; an absent segment has no data. -/
def direct (da : DataAccess) (disk : Bytes → Outcome SegData) (idx : Nat) : Outcome (Option SegData) :=
  if nameOf da idx = [] then .ok none
  else (disk (nameOf da idx)).bind (fun d => .ok (some d))

end Msat.XritSpec
