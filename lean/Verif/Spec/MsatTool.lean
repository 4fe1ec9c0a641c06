import Verif.Spec.Satellites

/-
What the options of the converter mean, and what its output files are called.
-/
namespace Msat.ToolSpec

/-- A decimal number, without sign. -/
def IsNumber (s : List Char) : Prop := s ≠ [] ∧ ∀ c ∈ s, '0' ≤ c ∧ c ≤ '9'

instance (s : List Char) : Decidable (IsNumber s) := by unfold IsNumber; infer_instance

/-- The value of a decimal number: units, tens and so on. -/
def decimal : List Char → Nat
  | [] => 0
  | c :: s => (c.toNat - '0'.toNat) * 10 ^ s.length + decimal s

/-- The band of an argument of --band, in an image with bands of these names: a number is that band, the first one being 1; anything else is
the first band of that name, after an exclamation mark if there is one. -/
def wanted (names : List (List Char)) (arg : List Char) : Option Nat :=
  if arg = [] then none
  else if IsNumber arg then some (decimal arg)
  else
    let name := if arg.head? = some '!' then arg.tail else arg
    (names.findIdx? (· = name)).map (· + 1)

/-- The bands of all the arguments. -/
def selection (names : List (List Char)) (args : List (List Char)) : List Nat := args.filterMap (wanted names)

/-- The digits of a date and time. -/
structure Date where
  year : List Char
  month : List Char
  day : List Char
  hour : List Char
  minute : List Char
  second : List Char

/-- Four digits for the year, two for the others. -/
def Date.Valid (d : Date) : Prop :=
  (d.year.length = 4 ∧ d.month.length = 2 ∧ d.day.length = 2 ∧ d.hour.length = 2 ∧ d.minute.length = 2 ∧ d.second.length = 2) ∧
  ∀ c, c ∈ d.year ∨ c ∈ d.month ∨ c ∈ d.day ∨ c ∈ d.hour ∨ c ∈ d.minute ∨ c ∈ d.second → '0' ≤ c ∧ c ≤ '9'

/-- As the drivers write it in the metadata: 2020-01-31 12:45:00. -/
def Date.text (d : Date) : List Char :=
  d.year ++ ['-'] ++ d.month ++ ['-'] ++ d.day ++ [' '] ++ d.hour ++ [':'] ++ d.minute ++ [':'] ++ d.second

/-- The name of the file of an image of SEVIRI: MSG1_Seviri_1_5_IR_108_20200131_1245. -/
def seviriFile (satellite channel : String) (d : Date) : List Char :=
  satellite.toList ++ "_Seviri_1_5_".toList ++ channel.toList ++ ['_'] ++ d.year ++ d.month ++ d.day ++ ['_'] ++ d.hour ++ d.minute

end Msat.ToolSpec
