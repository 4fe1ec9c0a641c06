import Verif.Model.Sys

/-
msat/utils/sys.cc: `Path::rmtree`, `rmtree`, `rmtree_ifexists`.

The file system is a table of inodes; names are resolved from the root directory.  Nobody else changes it
meanwhile; every call that can succeed does (permissions, full disks and the like are not modelled).  The entries
`.` and `..`, which `rmtree` skips, are left out of directories.  A symbolic link is given by the inode that its
target resolves to.
-/
namespace Msat.Rmtree
open Sys (upd)

abbrev Ino := Nat

inductive Node where
  /-- there is no such inode (any more) -/
  | absent
  /-- anything but a directory or a link -/
  | file
  | link (target : Ino)
  | dir (entries : List (Bytes × Ino))
deriving DecidableEq, Repr

abbrev FS := Ino → Node

/-- Where a name leads when links are followed. -/
def FS.follow (fs : FS) (i : Ino) : Ino :=
  match fs i with
  | .link t => t
  | _ => i

/-- The inode of a name in a directory. -/
def FS.entry (fs : FS) (d : Ino) (name : Bytes) : Option Ino :=
  match fs d with
  | .dir es => (es.find? fun e => e.1 = name).map (·.2)
  | _ => none

/-- The directory that a path leads to; links are followed. -/
def FS.walk (fs : FS) (d : Ino) : List Bytes → Option Ino
  | [] => some d
  | name :: path => do
    let i ← fs.entry d name
    fs.walk (fs.follow i) path

/-- A name is taken out of a directory. -/
def FS.without (fs : FS) (d : Ino) (name : Bytes) : FS :=
  match fs d with
  | .dir es => upd fs d (.dir (es.filter fun e => e.1 ≠ name))
  | _ => fs

def FS.isDir (fs : FS) (i : Ino) : Bool :=
  match fs i with
  | .dir _ => true
  | _ => false

/-- `unlinkat(fd, name, 0)`; `none` is an error (a directory, or no such name). -/
def sysUnlinkat (fs : FS) (d : Ino) (name : Bytes) : Option FS := do
  let i ← fs.entry d name
  if fs.isDir i then none else some (fs.without d name)

/-- `std::filesystem::remove`: a directory must be empty; a link is removed, not what it leads to; a name that does
not exist is no error.  `root` is where the path begins. -/
def sysRemove (fs : FS) (root : Ino) (path : List Bytes) : Option FS :=
  match path.getLast? with
  | none => none
  | some name => do
    let p ← fs.walk root path.dropLast
    match fs.entry p name with
    | none => some fs
    | some i => match fs i with
      | .dir [] => some (upd (fs.without p name) i .absent)
      | .dir (_ :: _) => none
      | _ => some (fs.without p name)

/-- msat/utils/sys.cc:759-771 `Path::iterator::isdir`; `dtype`: does `readdir` tell the type of entries?  If
not, `fstatat` tells the type of what the entry leads to. -/
def isdir (dtype : Bool) (fs : FS) (i : Ino) : Bool :=
  if dtype then fs.isDir i else fs.isDir (fs.follow i)

/-- msat/utils/sys.cc:860-875 `Path::rmtree` for the directory `d` with the name `path`; the number bounds the depth
(`none` when it is exceeded, and for exceptions).  `openat` follows links. -/
def rmtree (dtype : Bool) (root : Ino) : Nat → FS → Ino → List Bytes → Option FS
  | 0, _, _, _ => none
  | n + 1, fs, d, path =>
    match fs d with
    | .dir es => do
      let fs ← es.foldlM (fun fs e =>
        if isdir dtype fs e.2 then rmtree dtype root n fs (fs.follow e.2) (path ++ [e.1])
        else sysUnlinkat fs d e.1) fs
      sysRemove fs root path
    | _ => none

/-- msat/utils/sys.cc:1247-1251 `rmtree` with 569-574: the path is opened, following links. -/
def rmtreePath (dtype : Bool) (root : Ino) (n : Nat) (fs : FS) (path : List Bytes) : Option FS := do
  let i ← fs.walk root path
  rmtree dtype root n fs i path

end Msat.Rmtree
