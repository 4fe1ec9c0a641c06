import Verif.Model.Basic

/-
msat/utils/subprocess.cc: waiting for a child, its environment.

The kernel is not code of /repo: what `waitpid` and `nanosleep` do is said here.  What happens meanwhile (the
child exits, a signal arrives, a timeout expires) is given as input.  Nobody else waits for the child.
-/
namespace Msat.Subprocess

/-- The child process in the kernel: the status is the one that `wait(2)` describes. -/
inductive Kernel where
  | running
  /-- it has terminated, its parent has not been told yet -/
  | zombie (status : Nat)
  /-- the parent has been told: there is no such child any more -/
  | reaped (status : Nat)
deriving DecidableEq, Repr

/-- The child terminates. -/
def Kernel.exit (k : Kernel) (status : Nat) : Kernel :=
  match k with
  | .running => .zombie status
  | k => k

/-- The members of `Child` (msat/utils/subprocess.h:34-36) used to wait for it. -/
structure Child where
  pid : Nat
  returncode : Nat
  terminated : Bool
deriving DecidableEq, Repr

/-- What a call comes to. -/
inductive Result (α : Type) where
  | returns (a : α)
  | throws
  /-- it has not returned yet -/
  | blocked
deriving DecidableEq, Repr

/-- `WEXITSTATUS` -/
def wexitstatus (status : Nat) : Nat := (status >>> 8) &&& 0xff

/-- msat/utils/subprocess.cc:48-51 `returncode()` -/
def Child.code (c : Child) : Nat := wexitstatus c.returncode

/-- `waitpid(m_pid, &m_returncode, WNOHANG)`: `none` is -1. -/
def waitpidNohang (c : Child) (k : Kernel) : Option (Nat × Child × Kernel) :=
  match k with
  | .running => some (0, c, k)
  | .zombie s => some (c.pid, { c with returncode := s }, .reaped s)
  | .reaped _ => none

/-- msat/utils/subprocess.cc:339-360 `poll` -/
def poll (c : Child) (k : Kernel) : Result Bool × Child × Kernel :=
  if c.pid = 0 then (.throws, c, k)
  else if c.terminated then (.returns true, c, k)
  else match waitpidNohang c k with
    | none => (.throws, c, k)
    | some (res, c, k) =>
      if res = c.pid then (.returns true, { c with terminated := true }, k) else (.returns false, c, k)

/-- What happens while `wait` waits for a child that is running. -/
inductive Meanwhile where
  | nothing
  | signal
  | exits (status : Nat)
deriving DecidableEq, Repr

/-- msat/utils/subprocess.cc:362-378 `wait()` -/
def wait (c : Child) (k : Kernel) (m : Meanwhile) : Result Nat × Child × Kernel :=
  if c.pid = 0 then (.throws, c, k)
  else if c.terminated then (.returns c.code, c, k)
  else match k, m with
    | .running, .nothing => (.blocked, c, k)
    | .running, .signal => (.throws, c, k)     -- EINTR
    | .running, .exits s =>
      (.returns (wexitstatus s), { c with returncode := s, terminated := true }, .reaped s)
    | .zombie s, _ => (.returns (wexitstatus s), { c with returncode := s, terminated := true }, .reaped s)
    | .reaped _, _ => (.throws, c, k)

/-- How a `nanosleep` ends; the child may terminate during it. -/
inductive Wake where
  | expired (exits : Option Nat)
  /-- that many nanoseconds were left, of those asked for -/
  | signal (exits : Option Nat) (left : Nat)
deriving DecidableEq, Repr

def Wake.apply (k : Kernel) : Option Nat → Kernel
  | none => k
  | some s => k.exit s

/-- msat/utils/subprocess.cc:420-455: the loop of `wait(int)`.  `sec` and `nsec` are the members of `timeout`;
`nanosleep` refuses those that are negative.  The last component is the time slept, in nanoseconds. -/
def waitLoop (c : Child) (k : Kernel) (sec nsec : Int) (slept : Int) (env : List Wake) :
    Result Bool × (Child × Kernel) × Int :=
  match waitpidNohang c k with
  | none => (.throws, (c, k), slept)
  | some (res, c, k) =>
    if 0 < res then (.returns true, ({ c with terminated := true }, k), slept)
    else if sec = 0 ∧ nsec = 0 then (.returns false, (c, k), slept)
    else if sec < 0 ∨ nsec < 0 ∨ 1000000000 ≤ nsec then (.throws, (c, k), slept)
    else match env with
      | [] => (.blocked, (c, k), slept)
      | .expired x :: env => waitLoop c (Wake.apply k x) 0 0 (slept + sec * 1000000000 + nsec) env
      | .signal x left :: env =>
        let asked := sec * 1000000000 + nsec
        let left := min (left : Int) asked
        waitLoop c (Wake.apply k x) (left / 1000000000) (left % 1000000000) (slept + (asked - left)) env
termination_by structural env

/-- msat/utils/subprocess.cc:407-456 `wait(int)`.  The code of the child, not `true`, is returned for a child
already known to have terminated. -/
def waitFor (c : Child) (k : Kernel) (msecs : Int) (env : List Wake) : Result Bool × (Child × Kernel) × Int :=
  if c.pid = 0 then (.throws, (c, k), 0)
  else if c.terminated then (.returns (c.code != 0), (c, k), 0)
  else waitLoop c k (msecs.tdiv 1000) (msecs.tmod 1000 * 1000000) 0 env

/-! ### The environment of the child -/

/-- `strncmp(a, b, n) == 0` -/
def strncmpEq : Nat → Bytes → Bytes → Bool
  | 0, _, _ => true
  | n + 1, a, b =>
    let x := a.headD 0
    let y := b.headD 0
    if x ≠ y then false else if x = 0 then true else strncmpEq n a.tail b.tail

/-- msat/utils/subprocess.cc:511-516: is it an entry for the key? -/
def isEntry (key e : Bytes) : Bool :=
  decide (key.length + 1 ≤ e.length) && e[key.length]? == some 61 && strncmpEq key.length e key

/-- msat/utils/subprocess.cc:506-523 `Popen::setenv` -/
def setenv (env : List Bytes) (key val : Bytes) : List Bytes :=
  match env with
  | [] => [key ++ 61 :: val]
  | e :: es => if isEntry key e then (key ++ 61 :: val) :: es else e :: setenv es key val

/-- msat/utils/subprocess.cc:500-504 `Popen::copy_env_from_parent` -/
def copyEnv (env parent : List Bytes) : List Bytes := env ++ parent

/-- msat/utils/subprocess.cc:539-570: the environment that `execvpe` or `execvp` gives to the program (each entry
is passed as a C string). -/
def childEnv (env parent : List Bytes) : List Bytes :=
  if env = [] then parent else env.map fun e => e.takeWhile (· ≠ 0)

end Msat.Subprocess
