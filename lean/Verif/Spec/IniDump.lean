import Verif.Spec.IniFile

/-
Dictionaries that can be saved (C105).
-/
namespace Msat.IniSpec

/-- An entry that belongs to a section, or is one. -/
def Kept (hist : List Op) (key : Bytes) : Prop := ∃ n, IsSection hist n ∧ (key = n ∨ ∃ k, key = n ++ 58 :: k)

/-- A key and a value that can be written on a line as they are. -/
def Writable (k t : Bytes) : Prop :=
  Neat k ∧ 61 ∉ k ∧ k.head? ∉ [some 91, some 59, some 35] ∧ k.map fold = k ∧ 10 ∉ k ∧ 0 ∉ k ∧
    Neat t ∧ 59 ∉ t ∧ 35 ∉ t ∧ t.head? ∉ [some 34, some 39] ∧ 10 ∉ t ∧ 0 ∉ t ∧ max 30 k.length + 3 + t.length ≤ 1022

/-- A name of a section that can be written on a line. -/
def WritableName (n : Bytes) : Prop := n ≠ [] ∧ 93 ∉ n ∧ 10 ∉ n ∧ 0 ∉ n ∧ n.map fold = n ∧ n.length ≤ 1020

/-- There is a section, sections have no values, and names, keys and values in sections can be written. -/
structure Savable (hist : List Op) : Prop where
  some : ∃ n, IsSection hist n
  sections : ∀ n, IsSection hist n → value hist n = Option.some none ∧ WritableName n
  keys : ∀ n k v, IsSection hist n → value hist (n ++ 58 :: k) = Option.some v → ∃ t, v = Option.some t ∧ Writable k t

end Msat.IniSpec
