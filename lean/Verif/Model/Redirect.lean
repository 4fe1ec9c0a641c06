import Verif.Model.Basic

/-
msat/utils/subprocess.cc: file descriptors of a child process.

The kernel is not code of /repo: what `pipe`, `open`, `dup2` and `close` do to a table of file descriptors is said here.  They fail
only for a descriptor that is not open; `/dev/null` can be opened.
-/
namespace Msat.Redirect
open Msat

/-- An open file. -/
inductive Obj where
  | file (n : Nat)
  | pipeR (n : Nat)
  | pipeW (n : Nat)
  | devnull
deriving DecidableEq, Repr

/-- File descriptors of a process, from 0. -/
abbrev Table := List (Option Obj)

def Table.get (t : Table) (fd : Int) : Option Obj := if fd < 0 then none else t.getD fd.toNat none

/-- Only called with a descriptor that is not negative. -/
def Table.put (t : Table) (fd : Int) (x : Option Obj) : Table :=
  (t ++ List.replicate (fd.toNat + 1 - t.length) none).set fd.toNat x

/-- The lowest descriptor that is not used. -/
def Table.lowest : Table → Nat
  | [] => 0
  | none :: _ => 0
  | some _ :: t => 1 + lowest t

/-- `close`: `none` is -1. -/
def close (t : Table) (fd : Int) : Option Table :=
  match t.get fd with
  | none => none
  | some _ => some (t.put fd none)

/-- `dup2(newfd, oldfd)`: `none` is -1. -/
def dup2 (t : Table) (newfd oldfd : Int) : Option Table :=
  match t.get newfd with
  | none => none
  | some x => some (t.put oldfd (some x))

/-- `open` -/
def openObj (t : Table) (x : Obj) : Table × Int := (t.put t.lowest (some x), t.lowest)

/-- `pipe` -/
def pipe (t : Table) (n : Nat) : Table × Int × Int :=
  let (t, r) := openObj t (.pipeR n)
  let (t, w) := openObj t (.pipeW n)
  (t, r, w)

/-- `enum class Redirect`, msat/utils/subprocess.h:11-29 -/
inductive Action where
  | pipe
  | devnull
  | stdout
  | fd
  | unchanged
deriving DecidableEq, Repr

/-- One of the arrays `m_stdin`, `m_stdout`, `m_stderr` with its action, msat/utils/subprocess.h:38-43. -/
structure Stream where
  ends : Int × Int := (-1, -1)
  action : Action := .unchanged
deriving DecidableEq, Repr

/-- `Child` before it is started. -/
structure Child where
  stdin : Stream := {}
  stdout : Stream := {}
  stderr : Stream := {}
  closeFds : Bool := true
  passFds : List Int := []
deriving DecidableEq, Repr

/-- msat/utils/subprocess.cc:68-75 `set_stdin(int)` -/
def Child.setStdin (c : Child) (fd : Int) : Child := { c with stdin := ⟨(fd, -1), .fd⟩ }
/-- msat/utils/subprocess.cc:77-84 `set_stdout(int)` -/
def Child.setStdout (c : Child) (fd : Int) : Child := { c with stdout := ⟨(-1, fd), .fd⟩ }
/-- msat/utils/subprocess.cc:86-93 `set_stderr(int)` -/
def Child.setStderr (c : Child) (fd : Int) : Child := { c with stderr := ⟨(-1, fd), .fd⟩ }
/-- msat/utils/subprocess.cc:95-114 `set_stdin(Redirect)` and the others -/
def Child.setStdinTo (c : Child) (a : Action) : Child := { c with stdin := { c.stdin with action := a } }
def Child.setStdoutTo (c : Child) (a : Action) : Child := { c with stdout := { c.stdout with action := a } }
def Child.setStderrTo (c : Child) (a : Action) : Child := { c with stderr := { c.stderr with action := a } }

/-- What a user may ask for before the child is started. -/
inductive Setter where
  | stdin (fd : Int)
  | stdout (fd : Int)
  | stderr (fd : Int)
  | stdinTo (a : Action)
  | stdoutTo (a : Action)
  | stderrTo (a : Action)
  | closeFds (b : Bool)
  | passFds (l : List Int)
deriving DecidableEq, Repr

def Child.set (c : Child) : Setter → Child
  | .stdin fd => c.setStdin fd
  | .stdout fd => c.setStdout fd
  | .stderr fd => c.setStderr fd
  | .stdinTo a => c.setStdinTo a
  | .stdoutTo a => c.setStdoutTo a
  | .stderrTo a => c.setStderrTo a
  | .closeFds b => { c with closeFds := b }
  | .passFds l => { c with passFds := l }

/-- msat/utils/subprocess.cc:53-66 `get_stdin`, `get_stdout` and `get_stderr` -/
def Child.getStdin (c : Child) : Int := c.stdin.ends.2
def Child.getStdout (c : Child) : Int := c.stdout.ends.1
def Child.getStderr (c : Child) : Int := c.stderr.ends.1

/-- msat/utils/subprocess.cc:134-165: one of the three parts of `pre_fork`; `n` is the name of the pipe. -/
def preForkStream (t : Table) (n : Nat) (s : Stream) : Table × Stream :=
  match s.action with
  | .pipe =>
    let (t, r, w) := pipe t n
    (t, { s with ends := (r, w) })
  | _ => (t, s)

/-- msat/utils/subprocess.cc:134-165 `pre_fork` -/
def preFork (t : Table) (c : Child) : Table × Child :=
  let (t, i) := preForkStream t 0 c.stdin
  let (t, o) := preForkStream t 1 c.stdout
  let (t, e) := preForkStream t 2 c.stderr
  (t, { c with stdin := i, stdout := o, stderr := e })

/-- msat/utils/subprocess.cc:203-209 `redirect`: `none` is an exception. -/
def redirect (t : Table) (newfd oldfd : Int) : Option Table := do
  let t ← dup2 t newfd oldfd
  close t newfd

/-- The table of the child and `fd_devnull`, -1 until it is open. -/
structure Setup where
  table : Table
  devnull : Int := -1

/-- `if (fd_devnull == -1) fd_devnull.open(O_RDWR); dup2(fd_devnull, target)` -/
def toDevnull (s : Setup) (target : Int) : Option Setup :=
  let s := if s.devnull = -1 then
      let (t, fd) := openObj s.table .devnull
      (⟨t, fd⟩ : Setup)
    else s
  do
    let t ← dup2 s.table s.devnull target
    pure { s with table := t }

/-- msat/utils/subprocess.cc:217-233: standard input. -/
def childStdin (s : Setup) (i : Stream) : Option Setup :=
  match i.action with
  | .fd => do
    let t ← redirect s.table i.ends.1 0
    pure { s with table := t }
  | .pipe => do
    let t ← close s.table i.ends.2
    let t ← redirect t i.ends.1 0
    pure { s with table := t }
  | .devnull => toDevnull s 0
  | _ => some s

/-- msat/utils/subprocess.cc:235-252 and 254-269: standard output (`target` 1) and standard error (2). -/
def childOut (s : Setup) (o : Stream) (target : Int) : Option Setup :=
  match o.action with
  | .fd => do
    let t ← redirect s.table o.ends.2 target
    pure { s with table := t }
  | .pipe => do
    let t ← close s.table o.ends.1
    let t ← redirect t o.ends.2 target
    pure { s with table := t }
  | .devnull => toDevnull s target
  | _ => some s

/-- msat/utils/subprocess.cc:254-275: standard error. -/
def childStderr (s : Setup) (e : Stream) : Option Setup :=
  match e.action with
  | .stdout => do
    let t ← dup2 s.table 1 2
    pure { s with table := t }
  | _ => childOut s e 2

/-- msat/utils/subprocess.cc:279-293: all the descriptors from 3 on. -/
def closeFds (t : Table) (pass : List Int) : Table :=
  t.mapIdx fun i x => if 3 ≤ i ∧ (i : Int) ∉ pass then none else x

/-- msat/utils/subprocess.cc:211-294 `post_fork_child` (directory and session are not modelled): what `main` finds; `none` if it is not
called. -/
def postForkChild (t : Table) (c : Child) : Option Table := do
  let s ← childStdin ⟨t, -1⟩ c.stdin
  let s ← childOut s c.stdout 1
  let s ← childStderr s c.stderr
  -- end of the scope of fd_devnull
  let t := if s.devnull = -1 then s.table else s.table.put s.devnull none
  pure (if c.closeFds || !c.passFds.isEmpty then closeFds t c.passFds else t)

/-- msat/utils/subprocess.cc:167-201: one of the parts of `post_fork_parent`; `first` tells which end is closed. -/
def postForkStream (t : Table) (s : Stream) (first : Bool) : Option (Table × Stream) :=
  match s.action with
  | .pipe => do
    let t ← close t (if first then s.ends.1 else s.ends.2)
    pure (t, { s with ends := if first then (-1, s.ends.2) else (s.ends.1, -1) })
  | _ => some (t, s)

/-- msat/utils/subprocess.cc:167-201 `post_fork_parent` -/
def postForkParent (t : Table) (c : Child) : Option (Table × Child) := do
  let (t, i) ← postForkStream t c.stdin true
  let (t, o) ← postForkStream t c.stdout false
  let (t, e) ← postForkStream t c.stderr false
  pure (t, { c with stdin := i, stdout := o, stderr := e })

/-- msat/utils/subprocess.cc:310-336 `fork`: the descriptors of the parent, the object, and those of the child when `main` is called. -/
def fork (t : Table) (c : Child) : Option (Table × Child) × Option Table :=
  let (t, c) := preFork t c
  (postForkParent t c, postForkChild t c)

/-- msat/utils/subprocess.cc:310-336 `fork` when the system has no room for another process: what the parent is left with. -/
def forkFails (t : Table) (c : Child) : Table × Child := preFork t c

/-- `close` with its result ignored -/
def closeIgnored (t : Table) (fd : Int) : Table := (close t fd).getD t

/-- msat/utils/subprocess.cc:116-132 `close_stdin`, `close_stdout` and `close_stderr` -/
def closeStdin (t : Table) (c : Child) : Table × Child :=
  (closeIgnored t c.stdin.ends.2, { c with stdin := { c.stdin with ends := (c.stdin.ends.1, -1) } })
def closeStdout (t : Table) (c : Child) : Table × Child :=
  (closeIgnored t c.stdout.ends.1, { c with stdout := { c.stdout with ends := (-1, c.stdout.ends.2) } })
def closeStderr (t : Table) (c : Child) : Table × Child :=
  (closeIgnored t c.stderr.ends.1, { c with stderr := { c.stderr with ends := (-1, c.stderr.ends.2) } })

/-- One part of the destructor. -/
def dtorStream (t : Table) (a : Action) (fd : Int) : Table :=
  match a with
  | .pipe => if fd ≠ -1 then closeIgnored t fd else t
  | _ => t

/-- msat/utils/subprocess.cc:18-46 `~Child` -/
def dtor (t : Table) (c : Child) : Table :=
  let t := dtorStream t c.stdin.action c.stdin.ends.2
  let t := dtorStream t c.stdout.action c.stdout.ends.1
  dtorStream t c.stderr.action c.stderr.ends.1

/-- What a user may close once the child is started. -/
inductive Call where
  | closeStdin
  | closeStdout
  | closeStderr
deriving DecidableEq, Repr

def call (s : Table × Child) : Call → Table × Child
  | .closeStdin => closeStdin s.1 s.2
  | .closeStdout => closeStdout s.1 s.2
  | .closeStderr => closeStderr s.1 s.2

end Msat.Redirect
