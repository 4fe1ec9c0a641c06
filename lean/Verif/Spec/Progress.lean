import Verif.Model.Basic
import Verif.Spec.TextNumber
import Verif.Model.Progress

/-
What the messages of tasks should look like: one line for every message, indented by the number of tasks it is inside of.
-/
namespace Msat.ProgressSpec
open Msat

/-- One message: how many tasks it is inside of, and its text. -/
structure Message where
  depth : Nat
  text : Bytes
deriving DecidableEq, Repr

/-- How far an activity is: nothing, a percentage, or a count of a total. -/
inductive Amount where
  | unknown
  | percent (n : Nat)
  | of (n total : Nat)
deriving DecidableEq, Repr

/-- The arguments `perc` and `tot` for an amount: -1 stands for what is not known. -/
def Amount.args : Amount → Int × Int
  | .unknown => (-1, -1)
  | .percent n => (n, -1)
  | .of n total => (n, total)

/-- The text of an amount. -/
def Amount.text (decimal : Nat → Bytes) : Amount → Bytes
  | .unknown => []
  | .percent n => str " " ++ decimal n ++ str "%"
  | .of n total => str " (" ++ decimal n ++ str "/" ++ decimal total ++ str ")"

/-- The line of a message. -/
def line (m : Message) : Bytes := List.replicate m.depth 32 ++ m.text ++ [10]

end Msat.ProgressSpec
