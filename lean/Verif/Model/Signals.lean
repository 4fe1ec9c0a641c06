import Verif.Model.Basic
import Verif.Model.RecordTexts
import Verif.Model.Subprocess

/-
msat/utils/subprocess.cc: signals to the child, the text of its status, the handler of SIGCHLD while waiting for it, and the program
that it executes.

The kernel is not code of /repo: what `fork`, `waitpid`, `kill`, `signal`, `nanosleep` and `execvpe` do is said here.  What happens
meanwhile (processes begin and end, in any order) is given as input.  Nobody else waits for the children of the program.
-/
namespace Msat.Signals
open Msat
open Msat.Subprocess (Kernel Result wexitstatus)

/-! ### Processes -/

/-- A process in the kernel.  `serial` tells one process from another: `pid` may be used again once the process is gone. -/
structure Proc where
  serial : Nat
  pid : Nat
  group : Nat
  /-- the status of a process that has terminated, while its parent has not been told -/
  ended : Option Nat
deriving DecidableEq, Repr

/-- The members of `Child` (msat/utils/subprocess.h:34-36) used here. -/
structure Object where
  pid : Nat
  returncode : Nat
  terminated : Bool
deriving DecidableEq, Repr

/-- The kernel and one object of the class `Child` of the program that is the process `self`.  `mine` are the children of the program that
the object has started, the last one is the last; `received` the signals that processes have been sent. -/
structure World where
  procs : List Proc
  next : Nat
  self : Nat
  group : Nat
  mine : List Nat
  object : Object
  received : List (Nat × Int)
deriving DecidableEq, Repr

/-- No process has this number. -/
def World.unused (w : World) (pid : Nat) : Prop := ∀ p ∈ w.procs, p.pid ≠ pid

instance (w : World) (pid : Nat) : Decidable (w.unused pid) := inferInstanceAs (Decidable (∀ p ∈ w.procs, p.pid ≠ pid))

/-- `kill(2)`: `none` is -1.  Number 0 stands for all the processes of the group of the caller.  `may` are the processes that the program is
allowed to send signals to. -/
def kill (may : Nat → Bool) (w : World) (pid : Nat) (sig : Int) : Option World :=
  if sig < 0 ∨ 64 < sig then none
  else
    let meant := w.procs.filter fun p => if pid = 0 then p.group == w.group else p.pid == pid
    let sent := meant.filter fun p => may p.serial
    if sent = [] then none else some { w with received := w.received ++ sent.map fun p => (p.serial, sig) }

/-- msat/utils/subprocess.cc:458-464 `send_signal`; `none` in the result is a `std::system_error`. -/
def sendSignal (may : Nat → Bool) (w : World) (sig : Int) : Result Unit × World :=
  match kill may w w.object.pid sig with
  | none => (.throws, w)
  | some w => (.returns (), w)

/-- msat/utils/subprocess.cc:466 `terminate`: SIGTERM is 15. -/
def terminate (may : Nat → Bool) (w : World) : Result Unit × World := sendSignal may w 15

/-- msat/utils/subprocess.cc:468 `kill`: SIGKILL is 9. -/
def killChild (may : Nat → Bool) (w : World) : Result Unit × World := sendSignal may w 9

/-- The child with a number, if it is one of those of the program. -/
def World.childOf (w : World) (pid : Nat) : Option Proc := w.procs.find? fun p => p.pid == pid && w.mine.contains p.serial

/-- `waitpid(m_pid, &m_returncode, WNOHANG)`: `none` is -1; a child that has terminated is forgotten by the kernel. -/
def waitpid (w : World) : Option (Nat × World) :=
  match w.childOf w.object.pid with
  | none => none
  | some p =>
    match p.ended with
    | none => some (0, w)
    | some s => some (w.object.pid, { w with
        procs := w.procs.filter fun q => q.serial != p.serial
        object := { w.object with returncode := s } })

/-- msat/utils/subprocess.cc:339-360 `poll` -/
def poll (w : World) : Result Bool × World :=
  if w.object.pid = 0 then (.throws, w)
  else if w.object.terminated then (.returns true, w)
  else match waitpid w with
    | none => (.throws, w)
    | some (res, w) =>
      if res = w.object.pid then (.returns true, { w with object := { w.object with terminated := true } }) else (.returns false, w)

/-- msat/utils/subprocess.cc:310-336 `fork`, in the parent: the kernel makes a process with a number that is not used, in the group of the
program, or the call fails (`pid` 0).  Whether the object has started a child already is not looked at. -/
def fork (w : World) (pid : Nat) : Result Unit × World :=
  if pid ≠ 0 ∧ w.unused pid then
    (.returns (), { w with
      procs := w.procs ++ [⟨w.next, pid, w.group, none⟩]
      next := w.next + 1
      mine := w.mine ++ [w.next]
      object := { w.object with pid := pid } })
  else (.throws, w)

/-- What happens. -/
inductive Event where
  /-- another program starts a process -/
  | born (pid group : Nat)
  /-- a process that is not a child of the program ends, and its parent is told -/
  | ends (serial : Nat)
  /-- a child of the program ends: the program has not been told yet -/
  | exits (serial status : Nat)
  | fork (pid : Nat)
  | poll
  | signal (sig : Int)
deriving DecidableEq, Repr

def step (may : Nat → Bool) (w : World) : Event → World
  | .born pid group =>
    if pid ≠ 0 ∧ w.unused pid then { w with procs := w.procs ++ [⟨w.next, pid, group, none⟩], next := w.next + 1 } else w
  | .ends s => if s = w.self ∨ s ∈ w.mine then w else { w with procs := w.procs.filter fun p => p.serial != s }
  | .exits s status =>
    if s ∈ w.mine then { w with procs := w.procs.map fun p => if p.serial = s ∧ p.ended = none then { p with ended := some status } else p }
    else w
  | .fork pid => (fork w pid).2
  | .poll => (poll w).2
  | .signal sig => (sendSignal may w sig).2

def run (may : Nat → Bool) (w : World) (h : List Event) : World := h.foldl (step may) w

/-- A program that has just made the object, msat/utils/subprocess.h:34-36: the processes that there are, and the program among them. -/
def initial (procs : List Proc) (next self group : Nat) : World := ⟨procs, next, self, group, [], ⟨0, 0, false⟩, []⟩

/-! ### The text of a status -/

/-- `WIFEXITED` -/
def wifexited (s : Nat) : Bool := s % 128 == 0

/-- `WIFSIGNALED`: `((signed char)((s & 0x7f) + 1) >> 1) > 0` -/
def wifsignaled (s : Nat) : Bool := 1 ≤ s % 128 && s % 128 ≤ 126

/-- msat/utils/subprocess.cc:470-492 `format_raw_returncode`, of a status that is not negative. -/
def formatRaw (s : Nat) : Bytes :=
  let exited := wifexited s
  let exitCode : Int := if exited then wexitstatus s else -1
  let dumped := s / 128 % 2 == 1
  let signal := if wifsignaled s then s % 128 else 0
  if exited then
    if exitCode = 0 then str "terminated successfully" else str "exited with code " ++ RecordTexts.signed exitCode
  else str "was interrupted, killed by signal " ++ Text.decimal signal ++ if dumped then str " (core dumped)" else []

/-! ### The handler of SIGCHLD -/

/-- What the program does when SIGCHLD arrives. -/
inductive Handler where
  | default
  | ignore
  | function (n : Nat)
  /-- `enable_sigchld::empty_handler` -/
  | empty
deriving DecidableEq, Repr

/-- What happens in a turn of the loop of `wait(int)` after `waitpid` has found that the child is running. -/
inductive Turn where
  /-- the child ends before the handler is installed -/
  | before (status : Nat)
  /-- the child ends after that, but before `nanosleep` begins -/
  | installed (status : Nat)
  /-- the child ends after that many nanoseconds of sleep -/
  | asleep (status after : Nat)
  /-- another signal arrives after that many nanoseconds of sleep -/
  | other (after : Nat)
  | expires
deriving DecidableEq, Repr

/-- The child ends while the handler is `h`: if SIGCHLD is ignored, the kernel does not keep its status. -/
def endsUnder (h : Handler) (status : Nat) : Kernel := if h = .ignore then .reaped status else .zombie status

/-- msat/utils/subprocess.cc:381-403 `enable_sigchld`: the constructor; the pair is `prev_handler` and the handler after it. -/
def enable (h : Handler) : Handler × Handler := (h, .empty)

/-- The destructor. -/
def disable (prev : Handler) : Handler := prev

/-- msat/utils/subprocess.cc:420-455: the loop of `wait(int)`, as in Model/Subprocess.lean but with the handler of SIGCHLD; `left` is `timeout`
in nanoseconds.  A signal that has a handler interrupts `nanosleep`, any other does not.  The result, the handler and the time slept. -/
def waitLoop (h : Handler) (k : Kernel) (left slept : Nat) (ts : List Turn) : Result Bool × Handler × Nat :=
  match k with
  | .reaped _ => (.throws, h, slept)
  | .zombie _ => (.returns true, h, slept)
  | .running =>
    if left = 0 then (.returns false, h, slept)
    else match ts with
      | [] => (.blocked, (enable h).2, slept)
      | .before s :: ts => waitLoop (disable (enable h).1) (endsUnder h s) 0 (slept + left) ts
      | .installed s :: ts => waitLoop (disable (enable h).1) (endsUnder (enable h).2 s) 0 (slept + left) ts
      | .asleep s d :: ts =>
        if (enable h).2 = .default ∨ (enable h).2 = .ignore then waitLoop (disable (enable h).1) (endsUnder (enable h).2 s) 0 (slept + left) ts
        else waitLoop (disable (enable h).1) (endsUnder (enable h).2 s) (left - d) (slept + min d left) ts
      | .other d :: ts => waitLoop (disable (enable h).1) .running (left - d) (slept + min d left) ts
      | .expires :: ts => waitLoop (disable (enable h).1) .running 0 (slept + left) ts
termination_by structural ts

/-! ### The program -/

/-- What `execvpe` and `execvp` are given. -/
structure Exec where
  path : Bytes
  argv : List Bytes
  env : List Bytes
deriving DecidableEq, Repr

/-- msat/utils/subprocess.cc:525-592 `Popen::main`: the exit code of the child, where `exec` is what the program that is executed exits with,
`none` if it cannot be executed.  `args[0]` of no arguments is undefined.  What is printed is not modelled. -/
def popenMain (exec : Exec → Option Nat) (args : List Bytes) (executable : Bytes) (env parent : List Bytes) : Outcome Nat :=
  let cstr (s : Bytes) : Bytes := s.takeWhile (· ≠ 0)
  match (if executable = [] then args.head? else some executable) with
  | none => .ub
  | some path =>
    match exec ⟨cstr path, args.map cstr, Subprocess.childEnv env parent⟩ with
    | some code => .ok code
    | none => .ok 71

end Msat.Signals
