import Verif.Spec.IniFile
import Verif.Spec.TextNumber

/-
Image directories of the Thorn SDS software (C90 to C92): INI documents `AoI` and `INFO.DBI`, and for every channel
a file of samples and a document with its calibration.
-/
namespace Msat.Db1Spec
open Msat IniSpec

abbrev Doc := List Item

/-- A channel: its samples, and its calibration if there is one. -/
structure Channel where
  raw : Bytes
  calibration : Option Doc

/-- A directory; documents and channels may be missing. -/
structure Directory where
  path : Bytes
  aoi : Option Doc
  info : Option Doc
  channels : Bytes → Option Channel

/-- A document that can be read as it is meant: its lines are sound, and the names of sections have no colon. -/
def SoundDoc (d : Option Doc) : Prop :=
  ∀ items, d = some items → (∀ i ∈ items, i.Ok ∧ i.Line) ∧ ∀ w n a, Item.sec w n a ∈ items → (58 : UInt8) ∉ n

/-- The text under a key "section:name", or ":name" before the first section; case does not matter. -/
def entry (d : Option Doc) (key : Bytes) : Option Bytes :=
  match d with
  | none => none
  | some items => (value (entries [] items) (key.map fold)).join

/-- A text of decimal digits and the number it means. -/
def Number (t : Bytes) (n : Nat) : Prop :=
  t ≠ [] ∧ (∀ c ∈ t, 48 ≤ c ∧ c ≤ 57) ∧ n = t.foldl (fun a c => 10 * a + (c.toNat - 48)) 0

/-- The number under a key is `n`, which is the default if there is none. -/
def NumberAt (d : Option Doc) (key : String) (dflt n : Nat) : Prop :=
  (entry d (str key) = none ∧ n = dflt) ∨ ∃ t, entry d (str key) = some t ∧ Number t n

/-- A decimal number with an optional minus sign. -/
def Integer (t : Bytes) (z : Int) : Prop :=
  (∃ n : Nat, Number t n ∧ z = n) ∨ ∃ r, ∃ n : Nat, t = 45 :: r ∧ Number r n ∧ z = -n

/-- The number under a key, or the default. -/
def IntegerAt (d : Option Doc) (key : Bytes) (dflt z : Int) : Prop :=
  (entry d key = none ∧ z = dflt) ∨ ∃ t, entry d key = some t ∧ Integer t z

/-- The answer under a key: yes, true, 1 or no, false, 0, of which the first letter counts; otherwise the default. -/
def AnswerAt (d : Option Doc) (key : Bytes) (dflt b : Bool) : Prop :=
  match (entry d key).bind List.head? with
  | none => b = dflt
  | some c => if c ∈ str "yY1tT" then b = true else if c ∈ str "nN0fF" then b = false else b = dflt

/-- Keys of a channel in `INFO.DBI`: "Channel7:Name". -/
def channelPath (k : Nat) (what : String) : Bytes := str "Channel" ++ (toString k).toUTF8.toList ++ str ":" ++ str what

def channelEntry (info : Option Doc) (k : Nat) (what : String) : Option Bytes := entry info (channelPath k what)

/-- The name belongs to channel `k` of the twelve. -/
def IsChannel (info : Option Doc) (name : Bytes) (k : Nat) : Prop :=
  1 ≤ k ∧ k ≤ 12 ∧ channelEntry info k "Name" = some name ∧ ∀ j, 1 ≤ j → j < k → channelEntry info j "Name" ≠ some name

/-- The decimal numeral of a number: digits, without zeros in front. -/
def Numeral (t : Bytes) (n : Nat) : Prop := Number t n ∧ (n = 0 → t = [48]) ∧ (n ≠ 0 → t.head? ≠ some 48)

/-- The channels 1 to 3 of SEVIRI, and the others. -/
def solar : List Bytes := [str "VIS006", str "VIS008", str "IR_016"]
def others : List Bytes :=
  [str "IR_039", str "WV_062", str "WV_073", str "IR_087", str "IR_097", str "IR_108", str "IR_120", str "IR_134",
    str "HRV"]

/-- The letter of a variable in calibration tables: temperatures, radiances of solar channels and of others. -/
inductive Letter (quantity name : Bytes) : Bytes → Prop
  | temperature : quantity.head? = some 84 → Letter quantity name (str "T")
  | solar : quantity.head? = some 82 → name ∈ solar → Letter quantity name (str "V")
  | other : quantity.head? = some 82 → name ∈ others → Letter quantity name (str "N")
  | undefined : quantity.head? ≠ some 84 → quantity.head? ≠ some 82 → Letter quantity name (str "U")

/-- The key of a count in a calibration document: "Temperature:T(12)". -/
def countKey (quantity letter count : Bytes) : Bytes := quantity ++ str ":" ++ letter ++ str "(" ++ count ++ str ")"

/-- The beginning of a pass, "02/07/2005 09:30:17". -/
def startText (y mo d h mi s : Nat) : Bytes :=
  TextSpec.digits 2 d ++ [47] ++ TextSpec.digits 2 mo ++ [47] ++ TextSpec.digits 4 y ++ [32] ++ TextSpec.digits 2 h ++ [58] ++
    TextSpec.digits 2 mi ++ [58] ++ TextSpec.digits 2 s

/-- Names of files that are exported: satellite, channel and beginning, without slashes, colons and blanks. -/
def exportName (satellite channel start suffix : Bytes) : Bytes :=
  (satellite ++ str "_" ++ channel ++ str "_" ++ start ++ str "." ++ suffix).map fun c =>
    if c = 47 ∨ c = 58 then 45 else if c = 32 then 95 else c

end Msat.Db1Spec
