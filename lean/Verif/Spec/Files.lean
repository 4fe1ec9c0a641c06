import Verif.Model.Basic

/-
A file system with directories, links and other files, and what a path leads to in it.  Independent of the model.
-/
namespace Msat.FilesSpec
open Msat

abbrev Ino := Nat

/-- What a file is.  The entries of a directory include `.` and `..`; the target of a link is not empty. -/
inductive Kind where
  | dir (entries : List (Bytes × Ino))
  | reg
  | link (first : UInt8) (rest : Bytes)
  | blk
  | chr
  | fifo
  | sock
deriving DecidableEq, Repr

structure Node where
  kind : Kind
  mtime : Int := 0
  size : Nat := 0
  /-- may it be executed, or, for directories, searched -/
  exec : Bool := true
deriving DecidableEq, Repr

structure FS where
  node : Ino → Node
  root : Ino
  cwd : Ino

/-- The entries of a directory that may be searched. -/
def FS.entries (fs : FS) (d : Ino) : Option (List (Bytes × Ino)) :=
  match (fs.node d).kind with
  | .dir es => if (fs.node d).exec then some es else none
  | _ => none

def FS.isDir (fs : FS) (i : Ino) : Prop := ∃ es, (fs.node i).kind = .dir es

/-- What a name means in a directory that may be searched. -/
def FS.Entry (fs : FS) (d : Ino) (name : Bytes) (i : Ino) : Prop := ∃ es, fs.entries d = some es ∧ es.lookup name = some i

/-- A directory that may be searched does not have this name. -/
def FS.NoEntry (fs : FS) (d : Ino) (name : Bytes) : Prop := ∃ es, fs.entries d = some es ∧ es.lookup name = none

/-- The target of a link. -/
def FS.Target (fs : FS) (i : Ino) (t : Bytes) : Prop := ∃ c cs, t = c :: cs ∧ (fs.node i).kind = .link c cs

/-- The names in a path: what is between slashes.  A path that ends in slashes means the directory itself. -/
inductive Reads : List Bytes → Bytes → Prop
  | nothing : Reads [] []
  | slashes (p : Bytes) : p ≠ [] → (∀ c ∈ p, c = 47) → Reads [[46]] p
  | slash (ws : List Bytes) (p : Bytes) : (∃ c ∈ p, c ≠ 47) → Reads ws p → Reads ws (47 :: p)
  | name (w : Bytes) (ws : List Bytes) (p : Bytes) : w ≠ [] → 47 ∉ w → (p = [] ∨ p.head? = some 47) → Reads ws p → Reads (w :: ws) (w ++ p)

/-- Where a path begins: at the root, or at the directory given. -/
def FS.start (fs : FS) (d : Ino) (path : Bytes) : Ino := if path.head? = some 47 then fs.root else d

/-- The way from a directory along some names: `Walk n d ws j vs` arrives at `j` with `vs` still to go, having followed `n` links.
The last name is not followed if `follow` is false. -/
inductive Walk (fs : FS) (follow : Bool) : Nat → Ino → List Bytes → Ino → List Bytes → Prop
  | stay (d : Ino) (ws : List Bytes) : Walk fs follow 0 d ws d ws
  | name (n : Nat) (d i j : Ino) (w : Bytes) (ws vs : List Bytes) :
      fs.Entry d w i → ((∀ t, ¬ fs.Target i t) ∨ (ws = [] ∧ follow = false)) → Walk fs follow n i ws j vs → Walk fs follow n d (w :: ws) j vs
  | link (n : Nat) (d i j : Ino) (w t : Bytes) (ws us vs : List Bytes) :
      fs.Entry d w i → fs.Target i t → ¬ (ws = [] ∧ follow = false) → Reads us t → Walk fs follow n (fs.start d t) (us ++ ws) j vs →
      Walk fs follow (n + 1) d (w :: ws) j vs

/-- The system gives up after 40 links. -/
def maxLinks : Nat := 40

/-- A path leads to a file. -/
def At (fs : FS) (d : Ino) (follow : Bool) (path : Bytes) (j : Ino) : Prop :=
  path ≠ [] ∧ ∃ ws n, Reads ws path ∧ n ≤ maxLinks ∧ Walk fs follow n (fs.start d path) ws j []

/-- There is nothing at a path: the way leads to a directory that does not have the next name. -/
def Absent (fs : FS) (d : Ino) (follow : Bool) (path : Bytes) : Prop :=
  path = [] ∨ ∃ ws n j w vs, Reads ws path ∧ n ≤ maxLinks ∧ Walk fs follow n (fs.start d path) ws j (w :: vs) ∧ fs.NoEntry j w

/-- There is nothing at a path: the way leads through something that is not a directory. -/
def Wall (fs : FS) (d : Ino) (follow : Bool) (path : Bytes) : Prop :=
  path ≠ [] ∧ ∃ ws n j w vs, Reads ws path ∧ n ≤ maxLinks ∧ Walk fs follow n (fs.start d path) ws j (w :: vs) ∧ ¬ fs.isDir j

/-- The place of a path: a directory and the name in it. -/
def Place (fs : FS) (path : Bytes) (d : Ino) (name : Bytes) : Prop :=
  ∃ ws n, Reads (ws ++ [name]) path ∧ n ≤ maxLinks ∧ Walk fs true n (fs.start fs.cwd path) ws d []

/-- The same file system but for the entries of one directory. -/
def FS.SameBut (fs fs' : FS) (d : Ino) : Prop :=
  fs'.root = fs.root ∧ fs'.cwd = fs.cwd ∧ (∀ i, i ≠ d → fs'.node i = fs.node i) ∧
    fs'.isDir d ∧ fs.isDir d ∧ (fs'.node d).mtime = (fs.node d).mtime ∧ (fs'.node d).size = (fs.node d).size ∧ (fs'.node d).exec = (fs.node d).exec

/-- A question about the file a path leads to is answered: yes exactly if there is one for which it is true, no if it is not true or if
there is nothing. -/
def Answers (fs : FS) (path : Bytes) (answer : Outcome Bool) (true_of : Ino → Prop) : Prop :=
  (answer = .ok true ↔ ∃ j, At fs fs.cwd true path j ∧ true_of j) ∧
    (∀ j, At fs fs.cwd true path j → ¬ true_of j → answer = .ok false) ∧ (Absent fs fs.cwd true path → answer = .ok false)

/-- A name in a directory given by its path. -/
def under (dir name : Bytes) : Bytes := if dir.getLast? = some 47 then dir ++ name else dir ++ [47] ++ name

/-- A path leads to something that may be executed. -/
def Runs (fs : FS) (path : Bytes) : Prop := ∃ j, At fs fs.cwd true path j ∧ (fs.node j).exec = true

end Msat.FilesSpec
