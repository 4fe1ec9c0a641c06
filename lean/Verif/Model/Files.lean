import Verif.Spec.Files
import Verif.Model.Str

/-
msat/utils/sys.cc: questions about files, operations that allow files to be missing, links, directories, the search of programs.

The system calls are those of Linux on the file system of Spec/Files.lean.  Simplifications: nobody else changes the file system;
the only permission is that to search directories and to execute files; names have any length; disks are never full.
-/
namespace Msat.Files
open Msat FilesSpec

/-! ### System calls -/

inductive Errno where
  | enoent
  | enotdir
  | eloop
  | eacces
  | eisdir
  | ebusy
  | einval
deriving DecidableEq, Repr

/-- What is between the slashes. -/
def pieces : Bytes → List Bytes
  | [] => [[]]
  | c :: cs =>
    if c = 47 then [] :: pieces cs
    else match pieces cs with
      | [] => [[c]]
      | w :: ws => (c :: w) :: ws

/-- The names in a path; a path that ends in a slash means the directory itself. -/
def names (p : Bytes) : List Bytes := (pieces p).filter (· ≠ []) ++ if p.getLast? = some 47 then [[46]] else []

/-- The directory entry of a name. -/
def entry (fs : FS) (d : Ino) (w : Bytes) : Except Errno Ino :=
  match (fs.node d).kind with
  | .dir es =>
    if (fs.node d).exec then
      match es.lookup w with
      | some i => .ok i
      | none => .error .enoent
    else .error .eacces
  | _ => .error .enotdir

/-- path_resolution(7) until the next link; `jump` goes on from there. -/
def steps (fs : FS) (follow : Bool) (jump : Ino → List Bytes → Except Errno Ino) (d : Ino) : List Bytes → Except Errno Ino
  | [] => .ok d
  | w :: ws =>
    match entry fs d w with
    | .error e => .error e
    | .ok i =>
      match (fs.node i).kind with
      | .link c cs => if ws = [] ∧ follow = false then .ok i else jump (fs.start d (c :: cs)) (names (c :: cs) ++ ws)
      | _ => steps fs follow jump i ws

/-- path_resolution(7): the number is that of the links that may still be followed. -/
def walk (fs : FS) (follow : Bool) : Nat → Ino → List Bytes → Except Errno Ino
  | 0 => steps fs follow fun _ _ => .error .eloop
  | links + 1 => steps fs follow (walk fs follow links)

/-- The file of a path. -/
def resolve (fs : FS) (d : Ino) (follow : Bool) (path : Bytes) : Except Errno Ino :=
  if path = [] then .error .enoent else walk fs follow maxLinks (fs.start d path) (names path)

/-- The directory of a path and the last name. -/
def parent (fs : FS) (path : Bytes) : Except Errno (Ino × Bytes) :=
  match (names path).getLast? with
  | none => .error .enoent
  | some w => (walk fs true maxLinks (fs.start fs.cwd path) (names path).dropLast).map fun d => (d, w)

/-- The entries of a directory are changed. -/
def update (fs : FS) (d : Ino) (f : List (Bytes × Ino) → List (Bytes × Ino)) : FS :=
  match (fs.node d).kind with
  | .dir es => { fs with node := fun i => if i = d then { fs.node d with kind := .dir (f es) } else fs.node i }
  | _ => fs

def isDir (fs : FS) (i : Ino) : Bool :=
  match (fs.node i).kind with
  | .dir _ => true
  | _ => false

/-- unlink(2) -/
def sysUnlink (fs : FS) (path : Bytes) : Except Errno FS :=
  match parent fs path with
  | .error e => .error e
  | .ok (d, w) =>
    match entry fs d w with
    | .error e => .error e
    | .ok i => if isDir fs i then .error .eisdir else .ok (update fs d fun es => es.filter (·.1 ≠ w))

/-- rename(2); `moveDir` is what it does with directories. -/
def sysRename (moveDir : FS → Ino × Bytes → Ino × Bytes → Except Errno FS) (fs : FS) (src dst : Bytes) : Except Errno FS :=
  match parent fs src with
  | .error e => .error e
  | .ok (d, w) =>
    match parent fs dst with
    | .error e => .error e
    | .ok (d', w') =>
      if w = str "." ∨ w = str ".." ∨ w' = str "." ∨ w' = str ".." then .error .ebusy
      else
        match entry fs d w with
        | .error e => .error e
        | .ok i =>
          if isDir fs i then moveDir fs (d, w) (d', w')
          else
            let moved := update (update fs d fun es => es.filter (·.1 ≠ w)) d' fun es => (w', i) :: es.filter (·.1 ≠ w')
            match entry fs d' w' with
            | .error .enoent => .ok moved
            | .error e => .error e
            | .ok j => if j = i then .ok fs else if isDir fs j then .error .eisdir else .ok moved

/-! ### Questions -/

def systemError : String := "std::system_error"

/-- msat/utils/sys.cc:46-83: only the error ENOENT is not thrown; also in 620-630, 643-652, 660-669, 942-949 (`*_ifexists`). -/
def ifExists {α : Type} : Except Errno α → Outcome (Option α)
  | .ok a => .ok (some a)
  | .error .enoent => .ok none
  | .error _ => .throws systemError

/-- msat/utils/sys.cc:85-101: every error is thrown. -/
def orThrow {α : Type} : Except Errno α → Outcome α
  | .ok a => .ok a
  | .error _ => .throws systemError

/-- msat/utils/sys.cc:46-83 `stat`, `nullptr` is `none` -/
def stat (fs : FS) (path : Bytes) : Outcome (Option Ino) := ifExists (resolve fs fs.cwd true path)

/-- msat/utils/sys.cc:103-111 `common_stat_body` -/
def test (p : Kind → Bool) (fs : FS) (path : Bytes) : Outcome Bool :=
  match resolve fs fs.cwd true path with
  | .ok i => .ok (p (fs.node i).kind)
  | .error .enoent => .ok false
  | .error _ => .throws systemError

/-- S_ISDIR and the others. -/
def S_ISDIR : Kind → Bool | .dir _ => true | _ => false
def S_ISBLK : Kind → Bool | .blk => true | _ => false
def S_ISCHR : Kind → Bool | .chr => true | _ => false
def S_ISFIFO : Kind → Bool | .fifo => true | _ => false
def S_ISLNK : Kind → Bool | .link .. => true | _ => false
def S_ISREG : Kind → Bool | .reg => true | _ => false
def S_ISSOCK : Kind → Bool | .sock => true | _ => false

/-- msat/utils/sys.cc:113-116 -/
def isdir := test S_ISDIR
/-- msat/utils/sys.cc:118-121 -/
def isblk := test S_ISBLK
/-- msat/utils/sys.cc:123-126 -/
def ischr := test S_ISCHR
/-- msat/utils/sys.cc:128-131 -/
def isfifo := test S_ISFIFO
/-- msat/utils/sys.cc:133-136 -/
def islnk := test S_ISLNK
/-- msat/utils/sys.cc:138-141 -/
def isreg := test S_ISREG
/-- msat/utils/sys.cc:143-146 -/
def issock := test S_ISSOCK

/-- msat/utils/sys.cc:150-155 `timestamp`, without a default -/
def timestamp (fs : FS) (path : Bytes) : Outcome Int := do
  let i ← orThrow (resolve fs fs.cwd true path)
  pure (fs.node i).mtime

/-- msat/utils/sys.cc:157-161 `timestamp` -/
def timestampOr (fs : FS) (path : Bytes) (dflt : Int) : Outcome Int := do
  match ← stat fs path with
  | some i => pure (fs.node i).mtime
  | none => pure dflt

/-- msat/utils/sys.cc:163-168 `size` -/
def size (fs : FS) (path : Bytes) : Outcome Nat := do
  let i ← orThrow (resolve fs fs.cwd true path)
  pure (fs.node i).size

/-- msat/utils/sys.cc:170-174 `size` -/
def sizeOr (fs : FS) (path : Bytes) (dflt : Nat) : Outcome Nat := do
  match ← stat fs path with
  | some i => pure (fs.node i).size
  | none => pure dflt

/-- msat/utils/sys.cc:176-181 `inode` -/
def inode (fs : FS) (path : Bytes) : Outcome Ino := orThrow (resolve fs fs.cwd true path)

/-- msat/utils/sys.cc:183-187 `inode` -/
def inodeOr (fs : FS) (path : Bytes) (dflt : Ino) : Outcome Ino := do
  match ← stat fs path with
  | some i => pure i
  | none => pure dflt

/-- msat/utils/sys.cc:195-198 `exists`: `std::filesystem::exists` takes ENOENT and ENOTDIR for an answer. -/
def exists_ (fs : FS) (path : Bytes) : Outcome Bool :=
  match resolve fs fs.cwd true path with
  | .ok _ => .ok true
  | .error .enoent => .ok false
  | .error .enotdir => .ok false
  | .error _ => .throws "std::filesystem::filesystem_error"

/-- msat/utils/sys.cc:190-193 `access` with X_OK -/
def accessX (fs : FS) (path : Bytes) : Bool :=
  match resolve fs fs.cwd true path with
  | .ok i => (fs.node i).exec
  | .error _ => false

/-! ### Relative to a directory: `Path` -/

/-- msat/utils/sys.cc:637-641 `Path::fstatat` -/
def fstatat (fs : FS) (d : Ino) (path : Bytes) : Outcome Ino := orThrow (resolve fs d true path)

/-- msat/utils/sys.cc:643-652 `Path::fstatat_ifexists` -/
def fstatatIfExists (fs : FS) (d : Ino) (path : Bytes) : Outcome (Option Ino) := ifExists (resolve fs d true path)

/-- msat/utils/sys.cc:654-658 `Path::lstatat` -/
def lstatat (fs : FS) (d : Ino) (path : Bytes) : Outcome Ino := orThrow (resolve fs d false path)

/-- msat/utils/sys.cc:660-669 `Path::lstatat_ifexists` -/
def lstatatIfExists (fs : FS) (d : Ino) (path : Bytes) : Outcome (Option Ino) := ifExists (resolve fs d false path)

/-- msat/utils/sys.cc:620-630 `Path::openat_ifexists` for reading; the file that is opened. -/
def openatIfExists (fs : FS) (d : Ino) (path : Bytes) : Outcome (Option Ino) := ifExists (resolve fs d true path)

/-- msat/utils/sys.cc:695-710: the loop of `readlinkat` with a buffer of `size` bytes; readlinkat(2) fills at most the buffer. -/
def readlinkLoop (target : Bytes) (size : Nat) (h : 0 < size) : Bytes :=
  if (target.take size).length < size then target.take size else readlinkLoop target (2 * size) (by omega)
termination_by target.length + 1 - size
decreasing_by
  rename_i hh
  rw [List.length_take] at hh
  omega

/-- msat/utils/sys.cc:695-710 `Path::readlinkat` -/
def readlinkat (fs : FS) (d : Ino) (path : Bytes) : Outcome Bytes := do
  let i ← orThrow (resolve fs d false path)
  match (fs.node i).kind with
  | .link c cs => pure (readlinkLoop (c :: cs) 256 (by omega))
  | _ => .throws systemError

/-! ### Removing and renaming -/

/-- The answer of a call that changes the file system. -/
def changed (fs : FS) : Except Errno FS → Outcome Bool × FS
  | .ok fs' => (.ok true, fs')
  | .error .enoent => (.ok false, fs)
  | .error _ => (.throws systemError, fs)

/-- msat/utils/sys.cc:1141-1178 `unlink_ifexists` -/
def unlinkIfExists (fs : FS) (path : Bytes) : Outcome Bool × FS := changed fs (sysUnlink fs path)

/-- msat/utils/sys.cc:1185-1196 `rename_ifexists` -/
def renameIfExists (moveDir : FS → Ino × Bytes → Ino × Bytes → Except Errno FS) (fs : FS) (src dst : Bytes) : Outcome Bool × FS :=
  changed fs (sysRename moveDir fs src dst)

/-! ### Reading directories -/

/-- What `readdir` gives: name, inode, and the type if the file system tells it. -/
structure Dirent where
  name : Bytes
  ino : Ino
  dtype : Option Kind
deriving DecidableEq, Repr

/-- What a stream of a directory still gives, and whether it then ends with an error. -/
structure Stream where
  rest : List Dirent
  fails : Bool
deriving DecidableEq, Repr

/-- The system while a directory is read: the file descriptors open for it. -/
abbrev Fds := Nat

/-- An iterator: the entry, and what follows; the end has none. -/
abbrev Iter := Option (Dirent × Stream)

/-- msat/utils/sys.cc:742-757 `operator++` for an iterator that is not at the end; the stream is closed at the end, but not after an
error. -/
def advance (s : Stream) (fds : Fds) : Outcome Iter × Fds :=
  match s.rest with
  | e :: es => (.ok (some (e, { s with rest := es })), fds)
  | [] => if s.fails then (.throws systemError, fds) else (.ok none, fds - 1)

/-- msat/utils/sys.cc:586-605 `fdopendir` and 717-722: the constructor.  When it throws its destructor does not run. -/
def begin (opens : Bool) (streams : Bool) (s : Stream) (fds : Fds) : Outcome Iter × Fds :=
  if opens then
    if streams then advance s (fds + 1) else (.throws systemError, fds + 1)
  else (.throws systemError, fds)

/-- msat/utils/sys.cc:729-740 `operator==` -/
def same (a b : Iter) : Bool :=
  match a, b with
  | none, none => true
  | some (x, _), some (y, _) => x.ino == y.ino
  | _, _ => false

theorem advance_shorter {s s' : Stream} {fds fds' : Fds} {e : Dirent} (h : advance s fds = (.ok (some (e, s')), fds')) :
    s'.rest.length < s.rest.length := by
  unfold advance at h
  cases hr : s.rest with
  | nil => rw [hr] at h; dsimp only at h; split at h <;> cases h
  | cons x xs => rw [hr] at h; injection h with h1 h2; injection h1 with h1; injection h1 with h1; injection h1 with h1 h3; subst h3; simp

/-- `for (auto i = dir.begin(); i != dir.end(); ++i)` (msat/utils/sys.cc:724-757): the entries, and at last the destructor, which closes
the stream if it is open. -/
def visit (fds : Fds) (e : Dirent) (s : Stream) : Outcome (List Dirent) × Fds :=
  match _h : advance s fds with
  | (.ok (some (e', s')), fds') =>
    match visit fds' e' s' with
    | (.ok l, fds'') => (.ok (e :: l), fds'')
    | r => r
  | (.ok none, fds') => (.ok [e], fds')
  | (.throws m, fds') => (.throws m, fds' - 1)
  | (_, fds') => (.ub, fds')
termination_by s.rest.length
decreasing_by exact advance_shorter _h

/-- The whole loop. -/
def forEach (opens streams : Bool) (s : Stream) (fds : Fds) : Outcome (List Dirent) × Fds :=
  match begin opens streams s fds with
  | (.ok none, fds) => (.ok [], fds)
  | (.ok (some (e, s)), fds) => visit fds e s
  | (.throws m, fds) => (.throws m, fds)
  | (_, fds) => (.ub, fds)

/-- msat/utils/sys.cc:759-852 `isdir`, `isblk`... of an entry of the directory `d` -/
def entryIs (p : Kind → Bool) (fs : FS) (d : Ino) (e : Dirent) : Outcome Bool :=
  match e.dtype with
  | some k => .ok (p k)
  | none => do
    let i ← fstatat fs d e.name
    pure (p (fs.node i).kind)

/-! ### Paths of programs -/

/-- `std::filesystem::path::operator/` with a relative path. -/
def slash (a b : Bytes) : Bytes := if a = [] then b else if a.getLast? = some 47 then a ++ b else a ++ [47] ++ b

/-- `std::filesystem::absolute` of a path that is not empty; `cwd` is the text of the current directory. -/
def absolute (cwd p : Bytes) : Bytes := if p.head? = some 47 then p else slash cwd p

/-- msat/utils/sys.cc:1225-1233 -/
def search (fs : FS) (cwd name : Bytes) : List Bytes → Bytes
  | [] => name
  | d :: ds => if accessX fs (slash d name) then absolute cwd (slash d name) else search fs cwd name ds

/-- msat/utils/sys.cc:1215-1234 `which`; `path` is the environment variable PATH. -/
def which (fs : FS) (cwd : Bytes) (path : Option Bytes) (name : Bytes) : Outcome Bytes :=
  if 47 ∈ name then .ok (absolute cwd name)
  else
    match path with
    | none => .ok name
    | some p => do
      let ds ← Str.split p [58] true
      pure (search fs cwd name ds)

/-- msat/utils/sys.cc:37-44 `with_suffix`: a path has a file name if it does not end in a slash. -/
def withSuffix (path suffix : Bytes) : Outcome Bytes :=
  if path = [] ∨ path.getLast? = some 47 then .throws "std::invalid_argument" else .ok (path ++ suffix)

end Msat.Files
