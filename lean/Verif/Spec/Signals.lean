import Verif.Model.Signals
import Verif.Spec.TextNumber
import Mathlib.Data.Nat.Log

/-
What users of child processes rely on: who gets their signals, what the text of a status says, and how long a wait takes.
-/
namespace Msat.SignalsSpec
open Msat Signals

/-- The processes of a system, the program being one of them: no number is used twice, and 0 is not used. -/
structure System (procs : List Proc) (next me group : Nat) : Prop where
  pids : (procs.map Proc.pid).Nodup
  serials : (procs.map Proc.serial).Nodup
  numbered : ∀ p ∈ procs, p.pid ≠ 0 ∧ p.serial < next
  program : ∃ p ∈ procs, p.serial = me ∧ p.group = group

/-- Signals are sent only to a child that has been started and that is not known to have terminated. -/
def Careful (may : Nat → Bool) (w : World) : List Event → Prop
  | [] => True
  | e :: es =>
    (match e with
      | .signal _ => w.object.pid ≠ 0 ∧ w.object.terminated = false
      | _ => True) ∧ Careful may (step may w e) es

/-- How a process ends: by itself with an exit code, or killed by a signal, with or without a core dump. -/
inductive Ending where
  | exited (code : Nat)
  | killed (signal : Nat) (core : Bool)
deriving DecidableEq, Repr

/-- Exit codes have eight bits; signals are 1 to 126. -/
def Ending.Valid : Ending → Prop
  | .exited c => c < 256
  | .killed s _ => 1 ≤ s ∧ s ≤ 126

/-- The status that `wait(2)` reports. -/
def Ending.status : Ending → Nat
  | .exited c => 256 * c
  | .killed s core => s + if core then 128 else 0

/-- The decimal digits of a number. -/
def numeral (n : Nat) : Bytes := TextSpec.digits (Nat.log 10 n + 1) n

/-- What is said about it. -/
def Ending.text : Ending → Bytes
  | .exited 0 => str "terminated successfully"
  | .exited c => str "exited with code " ++ numeral c
  | .killed s false => str "was interrupted, killed by signal " ++ numeral s
  | .killed s true => str "was interrupted, killed by signal " ++ numeral s ++ str " (core dumped)"

/-- The same arguments, none of which has a zero byte. -/
def Plain (s : Bytes) : Prop := 0 ∉ s

end Msat.SignalsSpec
