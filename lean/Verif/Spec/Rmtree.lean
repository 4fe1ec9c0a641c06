import Verif.Model.Rmtree

/-
What C40 means: well formed file systems, and what is below a directory.
-/
namespace Msat.RmtreeSpec
open Rmtree

/-- `d` is a directory with an entry `name` for `i`. -/
def HasEntry (fs : FS) (d : Ino) (name : Bytes) (i : Ino) : Prop := ∃ es, fs d = .dir es ∧ (name, i) ∈ es

/-- The directories below a directory, itself included. -/
inductive Below (fs : FS) (d : Ino) : Ino → Prop
  | self : Below fs d d
  | sub {y c : Ino} {name : Bytes} : Below fs d y → HasEntry fs y name c → fs.isDir c = true → Below fs d c

/-- What every file system guarantees: entries of a directory have different names, a directory has one
entry only, in one directory only, and is not below itself. -/
structure Hierarchy (fs : FS) : Prop where
  names : ∀ d es, fs d = .dir es → (es.map (·.1)).Nodup
  parent : ∀ d d' name name' c, fs.isDir c = true → HasEntry fs d name c → HasEntry fs d' name' c → d = d' ∧ name = name'
  acyclic : ∃ rank : Ino → Nat, ∀ d name c, HasEntry fs d name c → fs.isDir c = true → rank c < rank d

/-- A path leads to a directory without links on the way. -/
inductive Leads (fs : FS) : Ino → List Bytes → Ino → Prop
  | here (d : Ino) : Leads fs d [] d
  | next {d i e : Ino} {name : Bytes} {path : List Bytes} : HasEntry fs d name i → fs.isDir i = true →
      Leads fs i path e → Leads fs d (name :: path) e

/-- There are no links below a directory. -/
def NoLinks (fs : FS) (d : Ino) : Prop := ∀ y name i t, Below fs d y → HasEntry fs y name i → fs i ≠ .link t

end Msat.RmtreeSpec
