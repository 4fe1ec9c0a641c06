import Verif.Model.Ini

/-
msat/iniparser.c: reading a file, `iniparser_new`.  The functions of the C library are those of the C locale;
the file is given by its bytes.
-/
namespace Msat.Ini
open Msat.Str

/-! ### The C library: not code of /repo -/

/-- What one `fgets(lin, size, f)` reads when `m = size - 1`: the characters up to a newline, at most `m`. -/
def fgetsOne : Nat → Bytes → Bytes × Bytes
  | 0, s => ([], s)
  | _, [] => ([], [])
  | m + 1, c :: cs =>
    if c = 10 then ([c], cs)
    else ((c :: (fgetsOne m cs).1), (fgetsOne m cs).2)

theorem fgetsOne_length (m : Nat) (s : Bytes) : (fgetsOne m s).2.length ≤ s.length := by
  induction m generalizing s with
  | zero => simp [fgetsOne]
  | succ m ih =>
    cases s with
    | nil => simp [fgetsOne]
    | cons c cs =>
      rw [fgetsOne]
      split
      · simp
      · have := ih cs
        simp only [List.length_cons]
        omega

/-- All the lines that `while (fgets(lin, m + 1, f) != NULL)` reads; a line is a C string, it ends at its first
NUL.  (`m > 0` in the code.) -/
def fgetsAll (m : Nat) (s : Bytes) : List Bytes :=
  match s with
  | [] => []
  | c :: cs =>
    if c = 10 then [c] :: fgetsAll m cs
    else
      let r := fgetsOne (m - 1) cs
      ((c :: r.1).takeWhile (· ≠ 0)) :: fgetsAll m r.2
termination_by s.length
decreasing_by
  · simp
  · have := fgetsOne_length (m - 1) cs
    simp only [List.length_cons]
    omega

/-- `sscanf(s, "[%[^]]", sec) == 1` -/
def scanSection (s : Bytes) : Option Bytes :=
  match s with
  | 91 :: r => let t := r.takeWhile (· ≠ 93); if t = [] then none else some t
  | _ => none

/-- `sscanf(s, "%[^=] = ...", key, ...)` up to the value: the key, and what follows the equal sign and the
blanks after it. -/
def scanKey (s : Bytes) : Option (Bytes × Bytes) :=
  let key := s.takeWhile (· ≠ 61)
  if key = [] then none
  else match s.dropWhile (· ≠ 61) with
    | 61 :: r => some (key, r.dropWhile isspace)
    | _ => none

/-- `sscanf(s, "%[^=] = \"%[^\"]\"", key, val) == 2`, with the quote as parameter. -/
def scanQuoted (quote : UInt8) (s : Bytes) : Option (Bytes × Bytes) := do
  let (key, r) ← scanKey s
  match r with
  | q :: r =>
    if q = quote then
      let v := r.takeWhile (· ≠ quote)
      if v = [] then none else some (key, v)
    else none
  | [] => none

/-- `sscanf(s, "%[^=] = %[^;#]", key, val) == 2` -/
def scanPlain (s : Bytes) : Option (Bytes × Bytes) := do
  let (key, r) ← scanKey s
  let v := r.takeWhile (fun c => c ≠ 59 ∧ c ≠ 35)
  if v = [] then none else some (key, v)

/-! ### iniparser.c -/

/-- msat/iniparser.c:118-124 `strskp` -/
def strskp (s : Bytes) : Bytes := s.dropWhile isspace

/-- msat/iniparser.c:143-159 `strcrop` -/
def strcrop (s : Bytes) : Bytes := (s.reverse.dropWhile isspace).reverse

/-- What the loop of `iniparser_new` does with a line. -/
inductive Line where
  | skip
  | sec (name : Bytes)
  | entry (key val : Bytes)
deriving DecidableEq, Repr

/-- msat/iniparser.c:947-958: key and value, after `sscanf`. -/
def cleanEntry (kv : Bytes × Bytes) : Line :=
  .entry (strlwc (strcrop kv.1)) (if kv.2 = [34, 34] ∨ kv.2 = [39, 39] then [] else strcrop kv.2)

/-- msat/iniparser.c:937-961: one line. -/
def parseLine (lin : Bytes) : Line :=
  let s := strskp lin
  match s with
  | [] => .skip
  | c :: _ =>
    if c = 59 ∨ c = 35 then .skip
    else match scanSection s with
      | some n => .sec (strlwc n)
      | none =>
        match scanQuoted 34 s with
        | some kv => cleanEntry kv
        | none => match scanQuoted 39 s with
          | some kv => cleanEntry kv
          | none => match scanPlain s with
            | some kv => cleanEntry kv
            | none => .skip

/-- msat/iniparser.c:934-962: the loop of `iniparser_new`, with `iniparser_add_entry` (msat/iniparser.c:518-537). -/
def readLines (sec : Bytes) (d : Dict) : List Bytes → Outcome Dict
  | [] => .ok d
  | l :: ls =>
    match parseLine l with
    | .skip => readLines sec d ls
    | .sec n => do
      let d ← set d n none
      readLines n d ls
    | .entry k v => do
      let d ← set d (sec ++ [58] ++ k) (some v)
      readLines sec d ls

/-- msat/iniparser.c:915-966 `iniparser_new`; `none` when the file cannot be opened. -/
def iniNew (file : Option Bytes) : Outcome (Option Dict) :=
  match file with
  | none => .ok none
  | some s => do
    let d ← readLines [] (newDict 0) (fgetsAll (lineSize - 1) s)
    .ok (some d)

end Msat.Ini
