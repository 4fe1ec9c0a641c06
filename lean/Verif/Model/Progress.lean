import Verif.Model.Basic
import Verif.Model.Text

/-
msat/Progress.cpp, Progress.h: messages on the progress of tasks.

A program is a sequence of activities and tasks; tasks nest.  The handlers are those of the code: one that does nothing and one that writes to a
stream.  Simplifications: a handler that was deleted is not used again by the caller; `indent` does not overflow.
-/
namespace Msat.Progress
open Msat Text

/-- What a program does with `Progress`; a task is the scope of a `ProgressTask`. -/
inductive Program where
  | done
  /-- throws an exception -/
  | fail
  /-- `activity(str, perc, tot)`; the defaults are -1 -/
  | activity (s : Bytes) (perc tot : Int) (rest : Program)
  /-- a scope with an object `ProgressTask(desc)` -/
  | task (desc : Bytes) (inside rest : Program)
  /-- `Progress::get().setHandler(new StreamProgressHandler(out))` -/
  | setHandler (rest : Program)
deriving DecidableEq, Repr

/-- The handler: the one that does nothing, or one that writes to the stream with `indent` blanks. -/
inductive Handler where
  | silent
  | stream (indent : Int)
deriving DecidableEq, Repr

/-- Decimal text of an `int`. -/
def number (i : Int) : Bytes := if i < 0 then str "-" ++ decimal i.natAbs else decimal i.natAbs

/-- msat/Progress.cpp:59-63 `StreamProgressHandler::outputIndent` -/
def outputIndent (indent : Int) : Bytes := List.replicate indent.toNat 32

/-- msat/Progress.cpp:65-74 `StreamProgressHandler::activity`, msat/Progress.h:12 for the handler that does nothing -/
def activity (s : Bytes) (perc tot : Int) : Handler → Bytes
  | .silent => []
  | .stream indent =>
    outputIndent indent ++ s ++
    (if perc ≠ -1 ∧ tot ≠ -1 then str " (" ++ number perc ++ str "/" ++ number tot ++ str ")"
     else if perc ≠ -1 then str " " ++ number perc ++ str "%"
     else []) ++ [10]

/-- msat/Progress.cpp:76-82 `StreamProgressHandler::pushTask`, msat/Progress.h:13 -/
def pushTask (desc : Bytes) : Handler → Bytes × Handler
  | .silent => ([], .silent)
  | .stream indent => (outputIndent indent ++ desc ++ str "..." ++ [10], .stream (indent + 1))

/-- msat/Progress.cpp:84-87 `StreamProgressHandler::popTask`, msat/Progress.h:14 -/
def popTask : Handler → Handler
  | .silent => .silent
  | .stream indent => .stream (indent - 1)

/-- What a program writes, the handler it leaves and whether it is left by an exception: msat/Progress.cpp:9-14 `Progress::get`, 21-25
`setHandler`, 27-40 `activity`, `pushTask`, `popTask`, 43-56 `ProgressTask`. -/
def run : Program → Handler → Bytes × Handler × Bool
  | .done, h => ([], h, false)
  | .fail, h => ([], h, true)
  | .activity s p t rest, h =>
    let r := run rest h
    (activity s p t h ++ r.1, r.2.1, r.2.2)
  | .task desc inside rest, h =>
    let (a, h1) := pushTask desc h
    let (b, h2, x) := run inside h1
    let h3 := popTask h2
    if x then (a ++ b, h3, true)
    else
      let r := run rest h3
      (a ++ b ++ r.1, r.2.1, r.2.2)
  | .setHandler rest, _ => run rest (.stream 0)

end Msat.Progress
