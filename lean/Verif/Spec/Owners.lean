import Verif.Model.Owners

/-
What C52 means: histories of operations, and who owns what after them.
-/
namespace Msat.OwnersSpec
open Owners

/-- No objects, nothing mapped. -/
def noMaps : Maps := ⟨fun _ => none, [], []⟩

/-- No objects, no open files. -/
def noFiles : Files := ⟨fun _ => none, fun _ => none, [], [], []⟩

def afterM (ops : List MOp) : Maps := ops.foldl (fun s op => (mstep s op).1) noMaps

def afterF (ops : List FOp) : Files := ops.foldl (fun s op => (fstep s op).1) noFiles

/-- The object has the mapping (or the descriptor). -/
def Holds (objs : Nat → Option (Option Nat)) (o r : Nat) : Prop := objs o = some (some r)

/-- All objects have been destroyed. -/
def AllGone (objs : Nat → Option (Option Nat)) : Prop := ∀ o, objs o = none

/-- The kernel does not refuse to release what a destructor releases. -/
def MOp.Released : MOp → Prop
  | .destroy _ ok => ok = true
  | _ => True

/-- Closing never reports an error. -/
def FOp.NoError : FOp → Prop
  | .assign _ _ ok => ok = true
  | .close _ ok => ok = true
  | _ => True

end Msat.OwnersSpec
