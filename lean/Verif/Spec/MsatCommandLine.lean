import Verif.Model.Basic
import Mathlib.Data.Rat.Defs

/-
What the options of msat mean, and how they are written on a command line.  Independent of the model.
-/
namespace Msat.MsatCommandLineSpec
open Msat

/-- A decimal digit. -/
abbrev Digit := Fin 10

/-- The character of a digit. -/
def digitChar (d : Digit) : UInt8 := UInt8.ofNat (48 + d.val)

/-- The number of some digits. -/
def number (ds : List Digit) : Nat := ds.foldl (fun a d => 10 * a + d.val) 0

/-- A whole number as it is written: with a minus or not, and some digits. -/
structure WholeNumber where
  minus : Bool
  digits : List Digit
deriving DecidableEq, Repr

/-- Its text. -/
def WholeNumber.text (n : WholeNumber) : Bytes := (if n.minus then [45] else []) ++ n.digits.map digitChar

/-- Its value. -/
def WholeNumber.value (n : WholeNumber) : Int := if n.minus then -(number n.digits : Int) else number n.digits

/-- A decimal number: with a minus or not, some digits, perhaps a point and other digits. -/
structure Decimal where
  minus : Bool
  whole : List Digit
  frac : Option (List Digit)
deriving DecidableEq, Repr

/-- Its text. -/
def Decimal.text (n : Decimal) : Bytes :=
  (if n.minus then [45] else []) ++ n.whole.map digitChar ++
    match n.frac with
    | none => []
    | some ds => [46] ++ ds.map digitChar

/-- Its value. -/
def Decimal.value (n : Decimal) : Rat :=
  let v : Rat := match n.frac with
    | none => (number n.whole : Rat)
    | some ds => (number n.whole : Rat) + (number ds : Rat) / 10 ^ ds.length
  if n.minus then -v else v

/-- What can be asked for, with the argument as it is written. -/
inductive Setting where
  | quiet
  | view
  | viewmore
  | conv (format : Bytes)
  | copymd (file : Bytes)
  | area (x dx y dy : WholeNumber)
  | latlon (latmin latmax lonmin lonmax : Decimal)
  | around (lat lon lath lonw : Decimal)
  | resize (columns lines : Bytes)
  | band (which : Bytes)
  | calibrate
  | stretchTo (max : Decimal)
  | stretch (min max : Decimal)
  | jpg
  | png
  | display
deriving DecidableEq, Repr

/-- What makes sense: numbers have digits and are integers of the machine, a number of columns has no comma in it. -/
def Setting.Sensible : Setting → Prop
  | .area x dx y dy => ∀ n ∈ [x, dx, y, dy], n.digits ≠ [] ∧ -2 ^ 31 ≤ n.value ∧ n.value < 2 ^ 31
  | .latlon a b c d => ∀ n ∈ [a, b, c, d], n.whole ≠ []
  | .around a b c d => ∀ n ∈ [a, b, c, d], n.whole ≠ []
  | .resize columns _ => 44 ∉ columns
  | .stretchTo n => n.whole ≠ []
  | .stretch a b => a.whole ≠ [] ∧ b.whole ≠ []
  | _ => True

/-- The long name of the option. -/
def Setting.name : Setting → Bytes
  | .quiet => str "quiet"
  | .view => str "view"
  | .viewmore => str "viewmore"
  | .conv _ => str "conv"
  | .copymd _ => str "copymd"
  | .area .. => str "area"
  | .latlon .. => str "Area"
  | .around .. => str "around"
  | .resize .. => str "resize"
  | .band _ => str "band"
  | .calibrate => str "force-calibration"
  | .stretchTo _ => str "stretch"
  | .stretch .. => str "stretch"
  | .jpg => str "jpg"
  | .png => str "png"
  | .display => str "display"

/-- The letter of the option. -/
def Setting.letter : Setting → Option UInt8
  | .quiet => some 113
  | .conv _ => some 99
  | .band _ => some 98
  | _ => none

/-- Texts with commas between them. -/
def commas (a b c d : Bytes) : Bytes := a ++ [44] ++ b ++ [44] ++ c ++ [44] ++ d

/-- The argument of the option. -/
def Setting.argument : Setting → Option Bytes
  | .conv f => some f
  | .copymd f => some f
  | .area x dx y dy => some (commas x.text dx.text y.text dy.text)
  | .latlon a b c d => some (commas a.text b.text c.text d.text)
  | .around a b c d => some (commas a.text b.text c.text d.text)
  | .resize x y => some (x ++ [44] ++ y)
  | .band b => some b
  | .stretchTo n => some n.text
  | .stretch a b => some (a.text ++ [58] ++ b.text)
  | _ => none

/-- All the long names. -/
def names : List Bytes :=
  [str "help", str "version", str "quiet", str "view", str "viewmore", str "conv", str "copymd", str "area", str "Area", str "around",
   str "resize", str "band", str "force-calibration", str "stretch", str "jpg", str "png", str "display"]

/-- A long name may be cut as long as no other name begins like it. -/
def Names (p name : Bytes) : Prop := p = name ∨ (p <+: name ∧ ∀ n ∈ names, p <+: n → n = name)

/-- The ways to write a setting on the command line. -/
inductive Written : Setting → List Bytes → Prop
  | long (s : Setting) (p : Bytes) : s.argument = none → Names p s.name → Written s [str "--" ++ p]
  | equals (s : Setting) (p v : Bytes) : s.argument = some v → Names p s.name → Written s [str "--" ++ p ++ [61] ++ v]
  | next (s : Setting) (p v : Bytes) : s.argument = some v → Names p s.name → Written s [str "--" ++ p, v]
  | letter (s : Setting) (c : UInt8) : s.argument = none → s.letter = some c → Written s [[45, c]]
  | joined (s : Setting) (c : UInt8) (v : Bytes) : s.argument = some v → s.letter = some c → v ≠ [] → Written s [[45, c] ++ v]
  | apart (s : Setting) (c : UInt8) (v : Bytes) : s.argument = some v → s.letter = some c → Written s [[45, c], v]

/-- The name of a file that is not taken for an option. -/
def PlainName (f : Bytes) : Prop := f.head? ≠ some 45 ∨ f = [45]

/-- Settings and files, in any order. -/
inductive Line : List Setting → List Bytes → List Bytes → Prop
  | none : Line [] [] []
  | setting (s : Setting) (words : List Bytes) (ss : List Setting) (fs args : List Bytes) :
      s.Sensible → Written s words → Line ss fs args → Line (s :: ss) fs (words ++ args)
  | file (f : Bytes) (ss : List Setting) (fs args : List Bytes) : PlainName f → Line ss fs args → Line ss (f :: fs) (f :: args)

/-- A command line: settings and files, then perhaps `--` and any files. -/
inductive CommandLine : List Setting → List Bytes → List Bytes → Prop
  | plain (ss : List Setting) (fs args : List Bytes) : Line ss fs args → CommandLine ss fs args
  | dashes (ss : List Setting) (fs args more : List Bytes) : Line ss fs args → CommandLine ss (fs ++ more) (args ++ [str "--"] ++ more)

/-- A long name that is none, and not the beginning of one name only. -/
def Unknown (p : Bytes) : Prop := 61 ∉ p ∧ ∀ n ∈ names, ¬ Names p n

/-- Words that mean nothing. -/
inductive Wrong : List Bytes → Prop
  | unknown (p : Bytes) : Unknown p → p ≠ [] → Wrong [str "--" ++ p]
  | unknownEquals (p v : Bytes) : Unknown p → Wrong [str "--" ++ p ++ [61] ++ v]
  /-- a value for an option that has none -/
  | excess (s : Setting) (p v : Bytes) : s.argument = none → Names p s.name → Wrong [str "--" ++ p ++ [61] ++ v]
  /-- a letter that is no option -/
  | letter (c : UInt8) (w : Bytes) : c ∉ [45, 113, 99, 98] → Wrong [[45, c] ++ w]
  /-- fewer than four values -/
  | few (n p v : Bytes) : n ∈ [str "area", str "Area", str "around"] → Names p n → v.count 44 < 3 → Wrong [str "--" ++ p ++ [61] ++ v]
  /-- only one size -/
  | one (p v : Bytes) : Names p (str "resize") → 44 ∉ v → Wrong [str "--" ++ p ++ [61] ++ v]

/-- An option without the argument it needs. -/
inductive Bare : Bytes → Prop
  | long (s : Setting) (p v : Bytes) : s.argument = some v → Names p s.name → Bare (str "--" ++ p)
  | letter (s : Setting) (c : UInt8) (v : Bytes) : s.argument = some v → s.letter = some c → Bare [45, c]

/-! ### Meaning -/

/-- What is done with every file. -/
inductive Deed where
  | describe
  | describeMore
  | convert (format : Bytes)
  | jpg
  | png
  | display
deriving DecidableEq, Repr

/-- What a setting says about it. -/
def Setting.deed : Setting → Option Deed
  | .view => some .describe
  | .viewmore => some .describeMore
  | .conv f => some (.convert f)
  | .jpg => some .jpg
  | .png => some .png
  | .display => some .display
  | _ => none

/-- The last one that is said. -/
def last {α : Type} (f : Setting → Option α) (ss : List Setting) : Option α := (ss.filterMap f).getLast?

/-- A window in pixels: first column and line, columns and lines. -/
def Setting.pixels : Setting → Option (Int × Int × Int × Int)
  | .area x dx y dy => some (x.value, y.value, dx.value, dy.value)
  | _ => none

/-- Latitudes and longitudes. -/
def Setting.degrees : Setting → Option (Rat × Rat × Rat × Rat)
  | .latlon a b c d => some (a.value, b.value, c.value, d.value)
  | _ => none

/-- The north, the south, the west and the east of the place asked for. -/
def Setting.place : Setting → Option (Rat × Rat × Rat × Rat)
  | .around lat lon h w =>
    some (lat.value + h.value / 2, lat.value - h.value / 2, lon.value - w.value / 2, lon.value + w.value / 2)
  | _ => none

/-- Sizes of images. -/
def Setting.size : Setting → Option (Bytes × Bytes)
  | .resize x y => some (x, y)
  | _ => none

/-- The values that are shown black and white. -/
def Setting.range : Setting → Option (Rat × Rat)
  | .stretchTo m => some (0, m.value)
  | .stretch a b => some (a.value, b.value)
  | _ => none

/-- The file of the metadata. -/
def Setting.metadata : Setting → Option Bytes
  | .copymd f => some f
  | _ => none

/-- The bands asked for. -/
def Setting.which : Setting → Option Bytes
  | .band b => some b
  | _ => none

/-- Is it about the size of images? -/
def Setting.sizes : Setting → Bool
  | .area .. => true
  | .latlon .. => true
  | .around .. => true
  | .resize .. => true
  | _ => false

/-- Does it ask for pictures? -/
def Setting.pictures : Setting → Bool
  | .jpg => true
  | .png => true
  | .display => true
  | _ => false

end Msat.MsatCommandLineSpec
