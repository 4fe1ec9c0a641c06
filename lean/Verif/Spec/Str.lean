import Verif.Model.Basic

/-
What the string functions are for, said without reference to how they work.
-/
namespace Msat.StrSpec

/-! ### Blanks -/

/-- The white space of the C locale: tab, line feed, vertical tab, form feed, carriage return, space. -/
def blank : List UInt8 := [9, 10, 11, 12, 13, 32]

/-- `t` is `s` without the blanks at its start: what is taken away is blank, and what is left does not
start with a blank. -/
def TrimmedLeft (s t : Bytes) : Prop :=
  ∃ a, s = a ++ t ∧ (∀ c ∈ a, c ∈ blank) ∧ ∀ c, t.head? = some c → c ∉ blank

/-- `t` is `s` without the blanks at its end. -/
def TrimmedRight (s t : Bytes) : Prop :=
  ∃ b, s = t ++ b ∧ (∀ c ∈ b, c ∈ blank) ∧ ∀ c, t.getLast? = some c → c ∉ blank

/-- `t` is `s` without the blanks at both ends. -/
def Trimmed (s t : Bytes) : Prop :=
  ∃ a b, s = a ++ t ++ b ∧ (∀ c ∈ a, c ∈ blank) ∧ (∀ c ∈ b, c ∈ blank) ∧
    (∀ c, t.head? = some c → c ∉ blank) ∧ ∀ c, t.getLast? = some c → c ∉ blank

/-! ### Separators -/

/-- The parts with the separator between each two of them. -/
def joined (sep : Bytes) : List Bytes → Bytes
  | [] => []
  | [x] => x
  | x :: xs => x ++ sep ++ joined sep xs

/-- `sep` occurs in `s` at position `i`. -/
def OccursAt (sep s : Bytes) (i : Nat) : Prop := sep <+: s.drop i ∧ i + sep.length ≤ s.length

/-- Splitting at the leftmost occurrences: in `x ++ sep` the separator does not occur before `x` ends,
and it does not occur at all in the last part. -/
def Leftmost (sep : Bytes) : List Bytes → Prop
  | [] => False
  | [x] => ∀ i, ¬ OccursAt sep x i
  | x :: xs => (∀ i < x.length, ¬ OccursAt sep (x ++ sep) i) ∧ Leftmost sep xs

/-- `parts` are the parts of `s` between the (leftmost) occurrences of `sep`. -/
def IsSplit (sep s : Bytes) (parts : List Bytes) : Prop := joined sep parts = s ∧ Leftmost sep parts

/-! ### Paths -/

/-- A component of a path. -/
def IsName (n : Bytes) : Prop := n ≠ [] ∧ (47 : UInt8) ∉ n

/-- Walking in a directory tree (without symbolic links) from directory `cwd`, given by the names of the
directories that lead to it, last first: the place reached by following the components. -/
def walk (cwd : List Bytes) : List Bytes → List Bytes
  | [] => cwd
  | c :: cs =>
    if c = [] ∨ c = [46] then walk cwd cs
    else if c = [46, 46] then walk cwd.tail cs
    else walk (c :: cwd) cs

/-- The components of a path: what is between the slashes. -/
def components : Bytes → List Bytes
  | [] => [[]]
  | c :: cs =>
    if c = 47 then [] :: components cs
    else match components cs with
      | [] => [[c]]
      | x :: xs => (c :: x) :: xs

/-- The place a path leads to: from the root if it starts with a slash, from `cwd` otherwise. -/
def place (cwd : List Bytes) (p : Bytes) : List Bytes :=
  walk (if p.head? = some 47 then [] else cwd) (components p)

/-- A name that is neither `.` nor `..`. -/
def Proper (n : Bytes) : Prop := IsName n ∧ n ≠ [46] ∧ n ≠ [46, 46]

/-- Following the components from `d` directories below some place never leads above that place. -/
def staysBelow (d : Nat) : List Bytes → Bool
  | [] => true
  | c :: cs =>
    if c = [] ∨ c = [46] then staysBelow d cs
    else if c = [46, 46] then (match d with
      | 0 => false
      | d + 1 => staysBelow d cs)
    else staysBelow (d + 1) cs

/-- The normal forms of paths: `.`, or names separated by single slashes, or a slash before such names. -/
def Normal (p : Bytes) : Prop :=
  p = [46] ∨ ∃ names : List Bytes, (∀ n ∈ names, Proper n) ∧
    (p = 47 :: joined [47] names ∨ (names ≠ [] ∧ p = joined [47] names))

/-! ### Alphabets -/

/-- Letters and digits. -/
def alnum (c : UInt8) : Prop := (48 ≤ c ∧ c ≤ 57) ∨ (65 ≤ c ∧ c ≤ 90) ∨ (97 ≤ c ∧ c ≤ 122)

instance (c : UInt8) : Decidable (alnum c) := by unfold alnum; infer_instance

/-- The characters that may appear in an encoded URL: letters, digits, `-_!*'()` and `%`. -/
def UrlChar (c : UInt8) : Prop := alnum c ∨ c ∈ [45, 95, 33, 42, 39, 40, 41, 37]

instance (c : UInt8) : Decidable (UrlChar c) := by unfold UrlChar; infer_instance

/-- The characters of base64: letters, digits, `+/` and the padding `=`. -/
def Base64Char (c : UInt8) : Prop := alnum c ∨ c ∈ [43, 47, 61]

instance (c : UInt8) : Decidable (Base64Char c) := by unfold Base64Char; infer_instance

/-- The value of a hexadecimal digit of either case. -/
def HexValue (c : UInt8) (v : Nat) : Prop :=
  (∃ i < 10, c = UInt8.ofNat (48 + i) ∧ v = i) ∨ (∃ i < 6, c = UInt8.ofNat (65 + i) ∧ v = 10 + i) ∨ (∃ i < 6, c = UInt8.ofNat (97 + i) ∧ v = 10 + i)

/-- What a URL stands for: a `%` and two hexadecimal digits stand for a byte, an escape that is cut short by the end for nothing, and all the
other characters for themselves. -/
inductive UrlMeans : Bytes → Bytes → Prop where
  | done : UrlMeans [] []
  | plain {c : UInt8} {s t : Bytes} (hc : c ≠ 37) (h : UrlMeans s t) : UrlMeans (c :: s) (c :: t)
  | escape {a b : UInt8} {v w : Nat} {s t : Bytes} (ha : HexValue a v) (hb : HexValue b w) (h : UrlMeans s t) :
      UrlMeans (37 :: a :: b :: s) (UInt8.ofNat (16 * v + w) :: t)
  | short {e : Bytes} (he : e.length < 2) : UrlMeans (37 :: e) []

end Msat.StrSpec
