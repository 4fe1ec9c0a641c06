import Verif.Spec.MsatCommandLine

/-
What the options of XRIT2Image and XRIT2NetCDF mean, and how they are written.  Independent of the model.
-/
namespace Msat.XritCommandLineSpec
open Msat
open Msat.MsatCommandLineSpec (WholeNumber Decimal PlainName commas)

/-- What can be asked for. -/
inductive Setting where
  | directory (name : Bytes)
  | resolution (r : Bytes)
  | product1 (satellite : Bytes)
  | product2 (channel : Bytes)
  | time (t : Bytes)
  | format (f : Bytes)
  | scale (n : Decimal)
  | overlay (file : Bytes)
  | normalize
  /-- a window: the first line and how many, the first pixel and how many, counted from one -/
  | area (line lines pixel pixels : WholeNumber)
deriving DecidableEq, Repr

/-- Numbers have digits; those of a window are integers of the machine, and so are the ones before the first line and the first pixel. -/
def Setting.Sensible : Setting → Prop
  | .scale n => n.whole ≠ []
  | .area a b c d => (∀ n ∈ [a, b, c, d], n.digits ≠ [] ∧ -2 ^ 31 ≤ n.value ∧ n.value < 2 ^ 31) ∧ -2 ^ 31 < a.value ∧ -2 ^ 31 < c.value
  | _ => True

/-- The settings that both programs have, those of XRIT2Image and that of XRIT2NetCDF. -/
def Setting.common : Setting → Bool
  | .directory _ => true
  | .resolution _ => true
  | .product1 _ => true
  | .product2 _ => true
  | .time _ => true
  | _ => false

/-- The window is only in XRIT2NetCDF (`netcdf`), what is about pictures only in XRIT2Image. -/
def Setting.known (netcdf : Bool) : Setting → Bool
  | .area .. => netcdf
  | s => s.common || !netcdf

/-- The long name. -/
def Setting.name : Setting → Bytes
  | .directory _ => str "directory"
  | .resolution _ => str "resolution"
  | .product1 _ => str "productid1"
  | .product2 _ => str "productid2"
  | .time _ => str "time"
  | .format _ => str "outformat"
  | .scale _ => str "outscale"
  | .overlay _ => str "overlay"
  | .normalize => str "normalize"
  | .area .. => str "area"

/-- The letter. -/
def Setting.letter : Setting → UInt8
  | .directory _ => 100
  | .resolution _ => 114
  | .product1 _ => 115
  | .product2 _ => 99
  | .time _ => 116
  | .format _ => 102
  | .scale _ => 103
  | .overlay _ => 111
  | .normalize => 110
  | .area .. => 97

/-- The argument. -/
def Setting.argument : Setting → Option Bytes
  | .directory d => some d
  | .resolution r => some r
  | .product1 p => some p
  | .product2 p => some p
  | .time t => some t
  | .format f => some f
  | .scale n => some n.text
  | .overlay f => some f
  | .normalize => none
  | .area a b c d => some (commas a.text b.text c.text d.text)

/-- The long names of a program. -/
def names (netcdf : Bool) : List Bytes :=
  [str "directory", str "resolution", str "productid1", str "productid2"] ++
  (if netcdf then [str "area", str "time"] else [str "outformat", str "outscale", str "overlay", str "time", str "normalize"]) ++
  [str "version", str "help"]

/-- A long name may be cut as long as no other name begins like it. -/
def Names (netcdf : Bool) (p name : Bytes) : Prop := p = name ∨ (p <+: name ∧ ∀ n ∈ names netcdf, p <+: n → n = name)

/-- The ways to write a setting. -/
inductive Written (netcdf : Bool) : Setting → List Bytes → Prop
  | long (s : Setting) (p : Bytes) : s.argument = none → Names netcdf p s.name → Written netcdf s [str "--" ++ p]
  | equals (s : Setting) (p v : Bytes) : s.argument = some v → Names netcdf p s.name → Written netcdf s [str "--" ++ p ++ [61] ++ v]
  | next (s : Setting) (p v : Bytes) : s.argument = some v → Names netcdf p s.name → Written netcdf s [str "--" ++ p, v]
  | letter (s : Setting) : s.argument = none → Written netcdf s [[45, s.letter]]
  | joined (s : Setting) (v : Bytes) : s.argument = some v → v ≠ [] → Written netcdf s [[45, s.letter] ++ v]
  | apart (s : Setting) (v : Bytes) : s.argument = some v → Written netcdf s [[45, s.letter], v]

/-- Settings and words that are no options, in any order. -/
inductive Line (netcdf : Bool) : List Setting → List Bytes → Prop
  | none : Line netcdf [] []
  | setting (s : Setting) (words : List Bytes) (ss : List Setting) (args : List Bytes) :
      s.known netcdf = true → s.Sensible → Written netcdf s words → Line netcdf ss args → Line netcdf (s :: ss) (words ++ args)
  | word (w : Bytes) (ss : List Setting) (args : List Bytes) : PlainName w → Line netcdf ss args → Line netcdf ss (w :: args)

/-- A command line: settings and other words, then perhaps `--` and any words. -/
inductive CommandLine (netcdf : Bool) : List Setting → List Bytes → Prop
  | plain (ss : List Setting) (args : List Bytes) : Line netcdf ss args → CommandLine netcdf ss args
  | dashes (ss : List Setting) (args more : List Bytes) : Line netcdf ss args → CommandLine netcdf ss (args ++ [str "--"] ++ more)

/-- Words that are no options of a program. -/
inductive Wrong (netcdf : Bool) : List Bytes → Prop
  | unknown (p : Bytes) : p ≠ [] → 61 ∉ p → (∀ n ∈ names netcdf, ¬ Names netcdf p n) → Wrong netcdf [str "--" ++ p]
  | unknownEquals (p v : Bytes) : 61 ∉ p → (∀ n ∈ names netcdf, ¬ Names netcdf p n) → Wrong netcdf [str "--" ++ p ++ [61] ++ v]
  | letter (c : UInt8) (w : Bytes) : c ∉ [45, 86, 104, 63] → (∀ s : Setting, s.known netcdf = true → s.letter ≠ c) →
      Wrong netcdf [[45, c] ++ w]

/-- The last thing that is said. -/
def last {α : Type} (f : Setting → Option α) (ss : List Setting) : Option α := (ss.filterMap f).getLast?

/-- What a setting says about the directory. -/
def Setting.saysDirectory : Setting → Option Bytes
  | .directory d => some d
  | _ => none

/-- What a setting says about the resolution. -/
def Setting.saysResolution : Setting → Option Bytes
  | .resolution d => some d
  | _ => none

/-- What a setting says about the first identifier, that of the satellite. -/
def Setting.saysProduct1 : Setting → Option Bytes
  | .product1 d => some d
  | _ => none

/-- What a setting says about the second identifier, that of the channel. -/
def Setting.saysProduct2 : Setting → Option Bytes
  | .product2 d => some d
  | _ => none

/-- What a setting says about the time. -/
def Setting.saysTime : Setting → Option Bytes
  | .time d => some d
  | _ => none

/-- What a setting says about the format. -/
def Setting.saysFormat : Setting → Option Bytes
  | .format d => some d
  | _ => none

/-- What a setting says about the overlay. -/
def Setting.saysOverlay : Setting → Option Bytes
  | .overlay d => some d
  | _ => none

/-- What a setting says about the scale. -/
def Setting.saysScale : Setting → Option Rat
  | .scale n => some n.value
  | _ => none

/-- What a setting says about the window: the lines and pixels before it, and its sizes. -/
def Setting.saysArea : Setting → Option (Int × Int × Int × Int)
  | .area a b c d => some (a.value - 1, b.value, c.value - 1, d.value)
  | _ => none

/-- The text of a window: four numbers with commas. -/
def Setting.saysWindow : Setting → Option Bytes
  | .area a b c d => some (commas a.text b.text c.text d.text)
  | _ => none

end Msat.XritCommandLineSpec
