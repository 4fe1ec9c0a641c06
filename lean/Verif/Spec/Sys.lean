import Verif.Model.Sys

/-
What a user sees of files (C38, C39, C63).
-/
namespace Msat.SysSpec
open Sys

/-- The content of a file, `none` if there is no file of that name. -/
def contentOf (os : OS) (name : Bytes) : Option Bytes :=
  match os.dir name with
  | none => none
  | some ino => (os.inode ino).map (·.content)

/-- The permissions of a file. -/
def modeOf (os : OS) (name : Bytes) : Option Nat :=
  match os.dir name with
  | none => none
  | some ino => (os.inode ino).map (·.mode)

/-- A system as it can be: every name stands for a file. -/
def Sound (os : OS) : Prop := ∀ name ino, os.dir name = some ino → ∃ i, os.inode ino = some i

/-- What has been written after overwriting a file from some position on. -/
def Overwritten (old : Bytes) (pos : Nat) (data new : Bytes) : Prop :=
  new.length = max old.length (pos + data.length) ∧
  ∀ k, (k < new.length) → new[k]? =
    if pos ≤ k ∧ k < pos + data.length then data[k - pos]?
    else if k < old.length then old[k]? else some 0

end Msat.SysSpec
