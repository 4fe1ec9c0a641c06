import Verif.Model.Subprocess

/-
What is expected of child processes (C42, C43): histories, exit codes, environments.
-/
namespace Msat.SubprocessSpec
open Subprocess

/-- What can happen to a child that has been started. -/
inductive Event where
  | exits (status : Nat)
  | poll
  | wait (m : Meanwhile)
  | waitFor (msecs : Int) (env : List Wake)

/-- The effect of an event on the object and on the kernel. -/
def step : Child × Kernel → Event → Child × Kernel
  | (c, k), .exits s => (c, k.exit s)
  | (c, k), .poll => (poll c k).2
  | (c, k), .wait m => (wait c k m).2
  | (c, k), .waitFor ms env => (waitFor c k ms env).2.1

/-- After a history, from the start of the child on. -/
def after (pid : Nat) (h : List Event) : Child × Kernel := h.foldl step (⟨pid, 0, false⟩, .running)

/-- The status with which the child has terminated. -/
def statusOf : Kernel → Option Nat
  | .running => none
  | .zombie s => some s
  | .reaped s => some s

/-- The code of a child that has called `exit(code)`: bits 8 to 15 of the status. -/
def exitCode (status : Nat) : Nat := status / 256 % 256

/-! ### Environments -/

/-- The value of a variable: the text after `key=` in the first entry that begins so. -/
def getenv (env : List Bytes) (key : Bytes) : Option Bytes :=
  match env with
  | [] => none
  | e :: es => if (key ++ [61]).isPrefixOf e then some (e.drop (key.length + 1)) else getenv es key

/-- How many entries there are for a variable. -/
def entriesOf (env : List Bytes) (key : Bytes) : Nat := (env.filter fun e => (key ++ [61]).isPrefixOf e).length

/-- A name for a variable. -/
def IsName (key : Bytes) : Prop := key ≠ [] ∧ 61 ∉ key ∧ 0 ∉ key

/-- The last value given to a key in a list of settings. -/
def lastValue (settings : List (Bytes × Bytes)) (key : Bytes) : Option Bytes :=
  settings.foldl (fun r kv => if kv.1 = key then some kv.2 else r) none

end Msat.SubprocessSpec
