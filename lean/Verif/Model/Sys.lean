import Verif.Model.Basic

/-
msat/utils/sys.cc: reading and writing files.

The operating system is a state; it answers every system call as it likes: the answers are a list, one for
each call.  When the list is exhausted the process is still in the middle of its work: every such state is a
point where the process may be stopped.  The C library and the kernel are not code of /repo: what they do is
said here.  One directory, other processes do nothing meanwhile; a power failure (which could lose what has
been written but not flushed) is not modelled.
-/
namespace Msat.Sys

/-- A file: its bytes and its permissions. -/
structure Inode where
  content : Bytes
  mode : Nat
deriving DecidableEq, Repr

/-- The operating system as the process sees it. -/
structure OS where
  /-- names of files: the inode number -/
  dir : Bytes → Option Nat
  inode : Nat → Option Inode
  /-- open file descriptors: inode number and position -/
  fds : Nat → Option (Nat × Nat)
  umask : Nat

/-- The answer of the operating system to a call. -/
inductive Answer where
  /-- the call fails (any `errno`, also EINTR) -/
  | err
  /-- the call succeeds; at most that many bytes are transferred -/
  | ok (n : Nat)
  /-- a file is opened with that descriptor; a new file gets that inode number and the suffix of its name -/
  | opened (fd ino : Nat) (suffix : Bytes)
deriving DecidableEq, Repr

/-- Where a process is after a number of answers. -/
inductive Run (α : Type) where
  /-- the function has returned -/
  | done (a : α) (os : OS) (rest : List Answer)
  /-- the function has thrown an exception -/
  | threw (os : OS) (rest : List Answer)
  /-- all answers are used up: the function is waiting for the next one -/
  | running (os : OS)

/-- The state of the system at that point. -/
def Run.os : Run α → OS
  | .done _ os _ => os
  | .threw os _ => os
  | .running os => os

/-- A part of a process. -/
abbrev Proc (α : Type) := OS → List Answer → Run α

instance : Monad Proc where
  pure a := fun os rs => .done a os rs
  bind p f := fun os rs => match p os rs with
    | .done a os rs => f a os rs
    | .threw os rs => .threw os rs
    | .running os => .running os

/-- A system call: it waits for its answer; `none` is a failure, and every wrapper in sys.cc throws then. -/
def call (f : OS → Answer → Option (α × OS)) : Proc α := fun os rs =>
  match rs with
  | [] => .running os
  | r :: rs => match f os r with
    | some (a, os) => .done a os rs
    | none => .threw os rs

/-- A destructor that runs when the scope is left, normally or by an exception; it waits for nothing. -/
def inScope (p : Proc α) (dtor : OS → OS) : Proc α := fun os rs =>
  match p os rs with
  | .done a os rs => .done a (dtor os) rs
  | .threw os rs => .threw (dtor os) rs
  | .running os => .running os

/-! ### System calls -/

/-- A function changed at one argument. -/
def upd [DecidableEq α] (f : α → β) (a : α) (b : β) : α → β := fun x => if x = a then b else f x

/-- Bytes written at a position of a file; a hole is filled with zeros. -/
def writeAt (content : Bytes) (pos : Nat) (data : Bytes) : Bytes :=
  content.take pos ++ List.replicate (pos - content.length) 0 ++ data ++ content.drop (pos + data.length)

/-- `write(2)`: some of the bytes are written (perhaps none). -/
def sysWrite (fd : Nat) (buf : Bytes) (os : OS) : Answer → Option (Nat × OS)
  | .ok n => do
    let (ino, pos) ← os.fds fd
    let i ← os.inode ino
    let k := min n buf.length
    if k = 0 then some (0, os)
    else some (k, { os with
      inode := upd os.inode ino (some { i with content := writeAt i.content pos (buf.take k) })
      fds := upd os.fds fd (some (ino, pos + k)) })
  | _ => none

/-- `read(2)` of a regular file: at least one byte unless at the end of the file. -/
def sysRead (fd : Nat) (count : Nat) (os : OS) : Answer → Option (Bytes × OS)
  | .ok n => do
    let (ino, pos) ← os.fds fd
    let i ← os.inode ino
    let k := min count (max 1 n)
    let bytes := (i.content.drop pos).take k
    some (bytes, { os with fds := upd os.fds fd (some (ino, pos + bytes.length)) })
  | _ => none

/-- `mkstemp(3)`: a new file, with permissions 0600, whose name ends with six characters. -/
def sysMkstemp (pref : Bytes) (os : OS) : Answer → Option ((Nat × Bytes) × OS)
  | .opened fd ino suffix =>
    if os.fds fd = none ∧ os.inode ino = none ∧ suffix.length = 6 ∧ os.dir (pref ++ suffix) = none then
      some ((fd, pref ++ suffix), { os with
        dir := upd os.dir (pref ++ suffix) (some ino)
        inode := upd os.inode ino (some ⟨[], 0o600⟩)
        fds := upd os.fds fd (some (ino, 0)) })
    else none
  | _ => none

/-- `open(2)` with `O_WRONLY | O_CREAT | O_TRUNC`: an existing file is truncated, a new one is made with the
permissions that the umask leaves. -/
def sysCreate (name : Bytes) (mode : Nat) (os : OS) : Answer → Option (Nat × OS)
  | .opened fd ino _ =>
    if os.fds fd = none then
      match os.dir name with
      | some old => do
        let i ← os.inode old
        some (fd, { os with
          inode := upd os.inode old (some { i with content := [] })
          fds := upd os.fds fd (some (old, 0)) })
      | none =>
        if os.inode ino = none then
          some (fd, { os with
            dir := upd os.dir name (some ino)
            inode := upd os.inode ino (some ⟨[], mode &&& (0o777 ^^^ os.umask)⟩)
            fds := upd os.fds fd (some (ino, 0)) })
        else none
    else none
  | _ => none

/-- `open(2)` with `O_RDONLY` -/
def sysOpen (name : Bytes) (os : OS) : Answer → Option (Nat × OS)
  | .opened fd _ _ =>
    if os.fds fd = none then do
      let ino ← os.dir name
      some (fd, { os with fds := upd os.fds fd (some (ino, 0)) })
    else none
  | _ => none

/-- `fchmod(2)` -/
def sysFchmod (fd : Nat) (mode : Nat) (os : OS) : Answer → Option (Unit × OS)
  | .ok _ => do
    let (ino, _) ← os.fds fd
    let i ← os.inode ino
    some ((), { os with inode := upd os.inode ino (some { i with mode := mode }) })
  | _ => none

/-- `fstat(2)`: the size. -/
def sysSize (fd : Nat) (os : OS) : Answer → Option (Nat × OS)
  | .ok _ => do
    let (ino, _) ← os.fds fd
    let i ← os.inode ino
    some (i.content.length, os)
  | _ => none

/-- `mmap(2)` of the first bytes of a file, to read them. -/
def sysMmap (fd : Nat) (length : Nat) (os : OS) : Answer → Option (Bytes × OS)
  | .ok _ => do
    let (ino, _) ← os.fds fd
    let i ← os.inode ino
    some (i.content.take length, os)
  | _ => none

/-- `close(2)` -/
def sysClose (fd : Nat) (os : OS) : Answer → Option (Unit × OS)
  | .ok _ => some ((), { os with fds := upd os.fds fd none })
  | _ => none

/-- `rename(2)`: the new name stands for the file of the old name, at once. -/
def sysRename (old new : Bytes) (os : OS) : Answer → Option (Unit × OS)
  | .ok _ => do
    let ino ← os.dir old
    if os.dir new = some ino then some ((), os)
    else some ((), { os with dir := upd (upd os.dir new (some ino)) old none })
  | _ => none

/-! ### sys.cc -/

/-- msat/utils/sys.cc:388-393 `write_all_or_retry`: the bytes from `buf + written` on. -/
def writeAllOrRetry (fd : Nat) (buf : Bytes) : Proc Unit := fun os rs =>
  if buf = [] then .done () os rs
  else match rs with
    | [] => .running os
    | r :: rs => match sysWrite fd buf os r with
      | some (k, os) => writeAllOrRetry fd (buf.drop k) os rs
      | none => .threw os rs
termination_by structural _ rs => rs

/-- msat/utils/sys.cc:395-400 `write_all_or_throw` -/
def writeAllOrThrow (fd : Nat) (buf : Bytes) : Proc Unit := do
  let k ← call (sysWrite fd buf)
  if k < buf.length then fun os rs => .threw os rs else pure ()

/-- msat/utils/sys.cc:331-345: the loop of `read_all_or_retry`; `got` are the bytes already in the buffer. -/
def readLoop (fd : Nat) (count : Nat) (got : Bytes) : Proc (Bool × Bytes) := fun os rs =>
  if count ≤ got.length then .done (true, got) os rs
  else match rs with
    | [] => .running os
    | r :: rs => match sysRead fd (count - got.length) os r with
      | some (bytes, os) =>
        if bytes = [] then
          if got = [] then .done (false, got) os rs else .threw os rs
        else readLoop fd count (got ++ bytes) os rs
      | none => .threw os rs
termination_by structural _ rs => rs

/-- msat/utils/sys.cc:329-347 `read_all_or_retry`: the result and the bytes put into the buffer. -/
def readAllOrRetry (fd : Nat) (count : Nat) : Proc (Bool × Bytes) := readLoop fd count []

/-- msat/utils/sys.cc:349-354 `read_all_or_throw` -/
def readAllOrThrow (fd : Nat) (count : Nat) : Proc Bytes := do
  let b ← call (sysRead fd count)
  if b.length ≠ count then fun os rs => .threw os rs else pure b

/-- msat/utils/sys.cc:547-550: the destructor of a file. -/
def closeDtor (fd : Nat) (os : OS) : OS := { os with fds := upd os.fds fd none }

/-- msat/utils/sys.cc:1087-1092 `write_file` -/
def writeFile (file : Bytes) (data : Bytes) (mode : Nat) : Proc Unit := do
  let fd ← call (sysCreate file mode)
  inScope (do
    writeAllOrRetry fd data
    call (sysClose fd)) (closeDtor fd)

/-- msat/utils/sys.cc:1114-1130 `write_file_atomically` -/
def writeFileAtomically (file : Bytes) (data : Bytes) (mode : Nat) : Proc Unit := do
  let (fd, tmp) ← call (sysMkstemp file)
  inScope (do
    -- the umask is read by setting it and setting it back
    let mask ← fun os rs => .done os.umask os rs
    call (sysFchmod fd (mode &&& (0o7777 ^^^ mask)))
    writeAllOrRetry fd data
    call (sysClose fd)
    call (sysRename tmp file)) (closeDtor fd)

/-- msat/utils/sys.cc:1045-1060 `read_file` -/
def readFile (file : Bytes) : Proc Bytes := do
  let fd ← call (sysOpen file)
  inScope (do
    let size ← call (sysSize fd)
    if size = 0 then pure []
    else call (sysMmap fd size)) (closeDtor fd)

end Msat.Sys
