import Verif.Model.Basic

/-
What C36 and C37 mean: a dictionary is known by the operations that were made on it.
-/
namespace Msat.IniSpec

inductive Op where
  | set (key : Bytes) (val : Option Bytes)
  | unset (key : Bytes)

def Op.key : Op → Bytes
  | .set k _ => k
  | .unset k => k

/-- The value of a key after a history, oldest operation first: the one of the last operation on it;
`none` when there is no entry, `some none` for an entry without a value (a section). -/
def value (hist : List Op) (key : Bytes) : Option (Option Bytes) :=
  hist.foldl (fun cur op => if op.key = key then match op with
      | .set _ v => some v
      | .unset _ => none
    else cur) none

/-- The names of sections: the keys of entries without colon. -/
def IsSection (hist : List Op) (name : Bytes) : Prop := (value hist name).isSome ∧ (58 : UInt8) ∉ name

/-- Letters without their case. -/
def fold (c : UInt8) : UInt8 := if 65 ≤ c ∧ c ≤ 90 then c + 32 else c

/-- Two texts that differ at most by the case of their letters. -/
def SameUpToCase (a b : Bytes) : Prop := a.map fold = b.map fold

end Msat.IniSpec
