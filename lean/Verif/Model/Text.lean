import Verif.Model.Basic

/-
Parts of the C library: numbers in `printf` and `sscanf`.
-/
namespace Msat.Text

/-- Decimal digits of a number, at least one. -/
def decimal (n : Nat) : Bytes :=
  if n < 10 then [UInt8.ofNat (48 + n)] else decimal (n / 10) ++ [UInt8.ofNat (48 + n % 10)]
termination_by n

/-- `%0wd` of `printf`: at least `w` characters, filled with zeros after the sign. -/
def fmt0 (w : Nat) (v : Int) : Bytes :=
  if v < 0 then 45 :: (List.replicate (w - 1 - (decimal v.natAbs).length) 48 ++ decimal v.natAbs)
  else List.replicate (w - (decimal v.natAbs).length) 48 ++ decimal v.natAbs

/-- `isspace` -/
def isSpace (c : UInt8) : Bool := c == 32 || (9 ≤ c && c ≤ 13)

/-- `isdigit` -/
def isDigit (c : UInt8) : Bool := 48 ≤ c && c ≤ 57

/-- Decimal value of digits. -/
def ofDigits (ds : Bytes) : Nat := ds.foldl (fun a c => 10 * a + (c.toNat - 48)) 0

/-- Directives of `sscanf`: `%d` with or without a width, a blank, another character. -/
inductive Directive where
  | int (width : Option Nat)
  | blank
  | lit (c : UInt8)
deriving DecidableEq, Repr

/-- At most `w` characters, if there is a width. -/
def within (w : Option Nat) (s : Bytes) : Bytes :=
  match w with
  | none => s
  | some k => s.take k

/-- Digits after an optional sign: value and number of characters used, of at most the width. -/
def scanSigned (w : Option Nat) (s : Bytes) : Option (Int × Nat) :=
  match within w s with
  | [] => none
  | c :: cs =>
    if c = 45 then
      let ds := cs.takeWhile isDigit
      if ds = [] then none else some (-(ofDigits ds : Int), ds.length + 1)
    else if c = 43 then
      let ds := cs.takeWhile isDigit
      if ds = [] then none else some ((ofDigits ds : Int), ds.length + 1)
    else
      let ds := (c :: cs).takeWhile isDigit
      if ds = [] then none else some ((ofDigits ds : Int), ds.length)

/-- `sscanf`: the numbers assigned until the end of the format or the first mismatch.  Numbers that do not fit in
an `int` (undefined in C) are not modelled: they are read exactly. -/
def scanf : List Directive → Bytes → List Int
  | [], _ => []
  | .int w :: fs, s =>
    match scanSigned w (s.dropWhile isSpace) with
    | some (v, n) => v :: scanf fs ((s.dropWhile isSpace).drop n)
    | none => []
  | .blank :: fs, s => scanf fs (s.dropWhile isSpace)
  | .lit c :: fs, s =>
    match s with
    | [] => []
    | x :: xs => if x = c then scanf fs xs else []

end Msat.Text
