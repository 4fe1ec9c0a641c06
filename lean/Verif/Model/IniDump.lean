import Verif.Model.IniFile

/-
msat/iniparser.c: writing a dictionary.  The text written to the file is the result; writing does not fail.
-/
namespace Msat.Ini
open Msat

/-- `%-30s` -/
def padded (k : Bytes) : Bytes := k ++ List.replicate (30 - k.length) 32

/-- msat/iniparser.c:671-678: the line of an entry whose key begins with the section and a colon. -/
def keyLine (sec : Bytes) (s : Slot) : Bytes :=
  match s.key with
  | none => []
  | some k =>
    if (sec ++ [58]).isPrefixOf k then padded (k.drop (sec.length + 1)) ++ [32, 61, 32] ++ s.val.getD [] ++ [10] else []

/-- msat/iniparser.c:667-679: a section.  `keym` has room for 1025 characters. -/
def dumpSection (slots : List Slot) (sec : Bytes) : Outcome Bytes :=
  if sec.length + 2 ≤ lineSize + 1 then .ok ([10, 91] ++ sec ++ [93, 10] ++ slots.flatMap (keyLine sec)) else .ub

/-- msat/iniparser.c:665-680: the sections from number `i` on, `n` of them. -/
def dumpSections (d : Dict) (i : Nat) : Nat → Outcome Bytes
  | 0 => .ok []
  | n + 1 =>
    match getsecname d i with
    | none => .ub
    | some sec => do
      let a ← dumpSection d.slots sec
      let b ← dumpSections d (i + 1) n
      pure (a ++ b)

/-- msat/iniparser.c:658-662: all entries as they are; a null pointer must not be printed. -/
def dumpPlain : List Slot → Outcome Bytes
  | [] => .ok []
  | s :: ss =>
    match s.key with
    | none => dumpPlain ss
    | some k =>
      match s.val with
      | none => .ub
      | some v => do
        let r ← dumpPlain ss
        pure (k ++ [32, 61, 32] ++ v ++ [10] ++ r)

/-- msat/iniparser.c:645-683 `iniparser_dump_ini` -/
def dumpIni (d : Dict) : Outcome Bytes :=
  if getnsec d < 1 then dumpPlain d.slots
  else do
    let t ← dumpSections d 0 (getnsec d)
    pure (t ++ [10])

/-- msat/iniparser.c:493-510 `dictionary_dump`, 627-630 `iniparser_dump` -/
def dump (d : Dict) : Bytes :=
  d.slots.flatMap fun s =>
    match s.key with
    | none => []
    | some k =>
      match s.val with
      | some v => [91] ++ k ++ [93, 61, 91] ++ v ++ [93, 10]
      | none => [91] ++ k ++ [93, 61] ++ str "UNDEF" ++ [10]

end Msat.Ini
