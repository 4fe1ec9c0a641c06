import Verif.Model.Basic

/-
Locks of ranges of files: msat/utils/sys.cc `FileDescriptor::ofd_setlk`, `ofd_setlkw` and `ofd_getlk`, for any number of threads and
processes at once.  The locks that the system keeps are modelled after fcntl(2): they belong to open file descriptions, or to processes
on systems without F_OFD_SETLK (`ofd = false`).  Simplified: l_whence is SEEK_SET, all descriptors are of one file, and the system never
runs out of locks nor detects deadlocks.
-/
namespace Msat.Locks
open Msat

/-- F_RDLCK, F_WRLCK, F_UNLCK -/
inductive Kind where
  | read
  | write
  | unlock
deriving DecidableEq, Repr

/-- `struct flock` -/
structure Flock where
  kind : Kind
  start : Int
  len : Int
  pid : Int := 0
deriving DecidableEq, Repr

/-- An open file descriptor: its process, its open file description and how it has been opened. -/
structure Descriptor where
  process : Nat
  description : Nat
  reads : Bool := true
  writes : Bool := true
deriving DecidableEq, Repr

/-- A lock that the system keeps, of bytes from `first` to before `stop`, if there is an end. -/
structure Entry where
  owner : Nat
  write : Bool
  first : Nat
  stop : Option Nat
deriving DecidableEq, Repr

abbrev Table := List Entry

/-- Bytes from `first` to before `stop`. -/
def within (first : Nat) (stop : Option Nat) (b : Nat) : Bool :=
  decide (first ≤ b) && (match stop with | none => true | some s => decide (b < s))

inductive Errno where
  | again
  | acces
  | intr
  | inval
  | overflow
  | badf
deriving DecidableEq, Repr

/-- fcntl(2): the bytes of a `struct flock`. -/
def range (lk : Flock) : Except Errno (Nat × Option Nat) :=
  if lk.start < 0 then .error .inval
  else if 0 < lk.len then if 2 ^ 63 - 1 - lk.start < lk.len - 1 then .error .overflow else .ok (lk.start.toNat, some (lk.start + lk.len).toNat)
  else if lk.len < 0 then if lk.start + lk.len < 0 then .error .inval else .ok ((lk.start + lk.len).toNat, some lk.start.toNat)
  else .ok (lk.start.toNat, none)

/-- fcntl(2): to whom a lock belongs. -/
def owner (ofd : Bool) (d : Descriptor) : Nat := if ofd then d.description else d.process

/-- fcntl(2): the locks of others that are in the way. -/
def conflicts (t : Table) (o : Nat) (write : Bool) (r : Nat × Option Nat) : Table :=
  t.filter fun e => e.owner != o && (e.write || write) && within e.first e.stop (max e.first r.1) && within r.1 r.2 (max e.first r.1)

/-- fcntl(2): what a lock is besides a range. -/
def cut (e : Entry) (r : Nat × Option Nat) : List Entry :=
  { e with stop := some (match e.stop with | none => r.1 | some s => min s r.1) } ::
    match r.2 with
    | none => []
    | some s => [{ e with first := max e.first s }]

/-- fcntl(2): a range has another kind of lock. -/
def place (t : Table) (o : Nat) (k : Kind) (r : Nat × Option Nat) : Table :=
  (t.flatMap fun e => if e.owner = o then cut e r else [e]) ++ (if k = .unlock then [] else [⟨o, k = .write, r.1, r.2⟩])

/-- fcntl(2): F_OFD_SETLK (or F_SETLK). -/
def fcntlSet (ofd : Bool) (t : Table) (d : Descriptor) (lk : Flock) : Except Errno Table :=
  if ofd = true ∧ lk.pid ≠ 0 then .error .inval
  else match range lk with
    | .error e => .error e
    | .ok r =>
      if lk.kind = .read ∧ d.reads = false ∨ lk.kind = .write ∧ d.writes = false then .error .badf
      else if lk.kind ≠ .unlock ∧ conflicts t (owner ofd d) (lk.kind = .write) r ≠ [] then .error .again
      else .ok (place t (owner ofd d) lk.kind r)

/-- fcntl(2): F_OFD_GETLK (or F_GETLK): the request, overwritten with a lock that is in the way or with F_UNLCK. -/
def fcntlGet (ofd : Bool) (t : Table) (d : Descriptor) (lk : Flock) : Except Errno Flock :=
  if ofd = true ∧ lk.pid ≠ 0 then .error .inval
  else match range lk with
    | .error e => .error e
    | .ok r =>
      if lk.kind = .unlock then .error .inval
      else match conflicts t (owner ofd d) (lk.kind = .write) r with
        | [] => .ok { lk with kind := .unlock }
        | e :: _ => .ok ⟨if e.write then .write else .read, e.first, (match e.stop with | none => 0 | some s => (s : Int) - e.first),
            if ofd then -1 else e.owner⟩

/-- msat/utils/sys.cc:416-427 `ofd_setlk` -/
def setlk (ofd : Bool) (t : Table) (d : Descriptor) (lk : Flock) : Outcome Bool × Table :=
  match fcntlSet ofd t d lk with
  | .ok t' => (.ok true, t')
  | .error e => if e ≠ .again ∧ e ≠ .acces then (.throws "cannot acquire lock", t) else (.ok false, t)

/-- msat/utils/sys.cc:429-444 `ofd_setlkw`: what follows after one call of fcntl that has ended: an end, or `none` for another
call. -/
def afterWait (answer : Except Errno Table) (retry : Bool) (t : Table) : Option (Outcome Bool × Table) :=
  match answer with
  | .ok t' => some (.ok true, t')
  | .error e => if e ≠ .intr then some (.throws "cannot acquire lock", t) else if !retry then some (.ok false, t) else none

/-- msat/utils/sys.cc:446-455 `ofd_getlk`, and the request as it is afterwards. -/
def getlk (ofd : Bool) (t : Table) (d : Descriptor) (lk : Flock) : Outcome (Bool × Flock) :=
  match fcntlGet ofd t d lk with
  | .error _ => .throws "cannot test lock"
  | .ok lk' => .ok (lk'.kind = .unlock, lk')

/-- A call of `ofd_setlkw` that has not returned. -/
structure Waiting where
  thread : Nat
  descriptor : Descriptor
  lk : Flock
  retry : Bool
deriving DecidableEq, Repr

/-- All threads of all processes. -/
structure State where
  table : Table := []
  waiting : List Waiting := []
  /-- what calls have returned, last first -/
  returned : List (Nat × Outcome Bool) := []
deriving DecidableEq, Repr

/-- What may happen next. -/
inductive Event where
  /-- a thread calls `ofd_setlk` -/
  | setlk (thread : Nat) (d : Descriptor) (lk : Flock)
  /-- a thread calls `ofd_setlkw` -/
  | setlkw (thread : Nat) (d : Descriptor) (lk : Flock) (retry : Bool)
  /-- the system looks whether a waiting thread can go on -/
  | look (thread : Nat)
  /-- a waiting thread gets a signal -/
  | signal (thread : Nat)
  /-- the last descriptor of a description is closed, or one of a process -/
  | close (owner : Nat)
deriving DecidableEq, Repr

/-- The waiting call of a thread ends, or goes on. -/
def ends (s : State) (w : Waiting) (answer : Except Errno Table) : State :=
  match afterWait answer w.retry s.table with
  | none => s
  | some (r, t) => ⟨t, s.waiting.filter (·.thread != w.thread), (w.thread, r) :: s.returned⟩

/-- One step.  A thread that waits does nothing else. -/
def step (ofd : Bool) (s : State) : Event → State
  | .setlk n d lk =>
    if s.waiting.any (·.thread == n) then s
    else ⟨(setlk ofd s.table d lk).2, s.waiting, (n, (setlk ofd s.table d lk).1) :: s.returned⟩
  | .setlkw n d lk retry => if s.waiting.any (·.thread == n) then s else { s with waiting := ⟨n, d, lk, retry⟩ :: s.waiting }
  | .look n =>
    match s.waiting.find? (·.thread == n) with
    | none => s
    | some w =>
      match fcntlSet ofd s.table w.descriptor w.lk with
      | .error .again => s
      | answer => ends s w answer
  | .signal n =>
    match s.waiting.find? (·.thread == n) with
    | none => s
    | some w => ends s w (.error .intr)
  | .close o => { s with table := s.table.filter (·.owner != o) }

/-- Any number of steps. -/
def run (ofd : Bool) (s : State) (es : List Event) : State := es.foldl (step ofd) s

end Msat.Locks
