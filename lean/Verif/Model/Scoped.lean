import Verif.Model.Files

/-
msat/utils/sys.cc: objects that undo a change at the end of their scope (`OverrideRlimit`, `PreserveFileTimes`, `Tempfile`), and locks of
files.

A program is a tree of scopes with the things it does in between; an exception leaves the scopes one by one and runs the destructors, and an
exception thrown by a destructor ends the process, since destructors are noexcept.
-/
namespace Msat.Scoped
open FilesSpec

/-- How a piece of the program ends. -/
inductive End where
  | normal
  | exception
  | terminated
deriving DecidableEq, Repr

/-! ### Limits of resources -/

/-- `struct rlimit`: the soft and the hard limit. -/
structure Limit where
  cur : Nat
  max : Nat
deriving DecidableEq, Repr

/-- The limits of a process; `none` for a number that is not a resource. -/
structure Process where
  limits : Nat → Option Limit
  /-- may the process raise hard limits? -/
  privileged : Bool

/-- setrlimit(2); the limit of the system on RLIMIT_NOFILE is not modelled. -/
def sysSetrlimit (p : Process) (r : Nat) (l : Limit) : Option Process :=
  match p.limits r with
  | none => none
  | some old =>
    if l.max < l.cur then none
    else if old.max < l.max ∧ p.privileged = false then none
    else some { p with limits := fun q => if q = r then some l else p.limits q }

/-- A program that uses `OverrideRlimit` objects. -/
inductive Program where
  /-- the end of the scope -/
  | done
  /-- throws an exception -/
  | fail
  /-- look at the soft limit of a resource -/
  | look (r : Nat) (rest : Program)
  /-- change a limit without an object; an error is ignored -/
  | change (r : Nat) (l : Limit) (rest : Program)
  /-- `set` of an object in scope, counted from the innermost -/
  | set (k : Nat) (v : Nat) (rest : Program)
  /-- a scope with an object `OverrideRlimit(r, v)` -/
  | scope (r : Nat) (v : Nat) (inside rest : Program)
deriving DecidableEq, Repr

/-- msat/utils/sys.cc:1349-1354 `OverrideRlimit::set`; `none` if it throws. -/
def setLimit (p : Process) (r : Nat) (orig : Limit) (v : Nat) : Option Process :=
  sysSetrlimit p r { orig with cur := v }

/-- msat/utils/sys.cc:1337-1354: what the program does.  The list has the objects in scope: the resource and `orig`.  The answer has the soft
limits that were looked at. -/
def run : Program → List (Nat × Limit) → Process → Process × End × List (Option Nat)
  | .done, _, p => (p, .normal, [])
  | .fail, _, p => (p, .exception, [])
  | .look r rest, objs, p =>
    let (p', e, l) := run rest objs p
    (p', e, (p.limits r).map (·.cur) :: l)
  | .change r l rest, objs, p => run rest objs ((sysSetrlimit p r l).getD p)
  | .set k v rest, objs, p =>
    match objs[k]? with
    | none => run rest objs p
    | some (r, orig) =>
      match setLimit p r orig v with
      | none => (p, .exception, [])
      | some p1 => run rest objs p1
  | .scope r v inside rest, objs, p =>
    match p.limits r with
    | none => (p, .exception, [])
    | some orig =>
      match setLimit p r orig v with
      | none => (p, .exception, [])
      | some p1 =>
        match run inside ((r, orig) :: objs) p1 with
        | (p2, .terminated, l) => (p2, .terminated, l)
        | (p2, .exception, l) =>
          match sysSetrlimit p2 r orig with
          | none => (p2, .terminated, l)
          | some p3 => (p3, .exception, l)
        | (p2, .normal, l) =>
          match sysSetrlimit p2 r orig with
          | none => (p2, .terminated, l)
          | some p3 =>
            let (p4, e, l') := run rest objs p3
            (p4, e, l ++ l')

/-! ### Times of files -/

/-- The times of access and of modification. -/
abbrev Times := Int × Int

/-- The open files of a process, and the times of the files. -/
structure Table where
  open_ : Nat → Option Nat
  times : Nat → Times

/-- A program that uses `PreserveFileTimes` objects. -/
inductive Work where
  | done
  | fail
  /-- the times of a file change: it is read or written, by anybody -/
  | touch (file : Nat) (t : Times) (rest : Work)
  | close (fd : Nat) (rest : Work)
  /-- a file is opened and gets a number -/
  | open_ (fd : Nat) (file : Nat) (rest : Work)
  /-- a scope with an object `PreserveFileTimes(fd)` -/
  | scope (fd : Nat) (inside rest : Work)
deriving DecidableEq, Repr

/-- msat/utils/sys.cc:491-505 `PreserveFileTimes`: what the program does; `futimens` fails only for a number that is not open. -/
def work : Work → Table → Table × End
  | .done, t => (t, .normal)
  | .fail, t => (t, .exception)
  | .touch i ts rest, t => work rest { t with times := fun j => if j = i then ts else t.times j }
  | .close fd rest, t => work rest { t with open_ := fun n => if n = fd then none else t.open_ n }
  | .open_ fd i rest, t => work rest { t with open_ := fun n => if n = fd then some i else t.open_ n }
  | .scope fd inside rest, t =>
    match t.open_ fd with
    | none => (t, .exception)
    | some i =>
      match work inside t with
      | (t1, .terminated) => (t1, .terminated)
      | (t1, .exception) =>
        match t1.open_ fd with
        | none => (t1, .terminated)
        | some j => ({ t1 with times := fun n => if n = j then t.times i else t1.times n }, .exception)
      | (t1, .normal) =>
        match t1.open_ fd with
        | none => (t1, .terminated)
        | some j => work rest { t1 with times := fun n => if n = j then t.times i else t1.times n }

/-! ### Temporary files -/

/-- remove(3), which `std::filesystem::remove` calls; `rmdir` is what rmdir(2) does with a directory. -/
def sysRemove (rmdir : FS → Bytes → Except Files.Errno FS) (fs : FS) (path : Bytes) : Except Files.Errno FS :=
  match Files.sysUnlink fs path with
  | .error .eisdir => rmdir fs path
  | r => r

/-- msat/utils/sys.cc:951-983 `File::mkstemp`: the path is the prefix and six characters that mkstemp(3) chooses so that there is nothing; the
new file is the inode `i`.  The other reasons for failure are not modelled. -/
def mkstemp (fs : FS) (pre six : Bytes) (i : Ino) : Outcome (Bytes × FS) :=
  match Files.parent fs (pre ++ six) with
  | .error _ => .throws Files.systemError
  | .ok (d, w) =>
    match Files.entry fs d w with
    | .error .enoent => .ok (pre ++ six, Files.update fs d fun es => (w, i) :: es)
    | _ => .throws Files.systemError

/-- msat/utils/sys.cc:994-998 `~Tempfile`: `std::filesystem::remove` gives no error for ENOENT and throws for the others. -/
def endTempfile (rmdir : FS → Bytes → Except Files.Errno FS) (unlinkOnExit : Bool) (path : Bytes) (fs : FS) : Outcome FS :=
  if unlinkOnExit then
    match sysRemove rmdir fs path with
    | .ok fs' => .ok fs'
    | .error .enoent => .ok fs
    | .error _ => .terminate
  else .ok fs

/-! ### Locks -/

/-- What fcntl(2) answers. -/
inductive Answer where
  | done
  | eintr
  | eagain
  | eacces
  | other
deriving DecidableEq, Repr

/-- msat/utils/sys.cc:416-427 `ofd_setlk` -/
def ofdSetlk : Answer → Outcome Bool
  | .done => .ok true
  | .eagain => .ok false
  | .eacces => .ok false
  | _ => .throws Files.systemError

/-- msat/utils/sys.cc:429-444 `ofd_setlkw` while the answers last; `none` if it is still waiting after them. -/
def ofdSetlkw (retry : Bool) : List Answer → Option (Outcome Bool)
  | [] => none
  | .done :: _ => some (.ok true)
  | .eintr :: rest => if retry then ofdSetlkw retry rest else some (.ok false)
  | _ :: _ => some (.throws Files.systemError)

end Msat.Scoped
