import Verif.Spec.HriIdent
import Verif.Spec.HriCal
import Verif.Spec.Datetime
import Mathlib.Data.Nat.Log

/-
What the export of HRI files to NetCDF must say.  Only the enumerations of formats and bands come from the model.
-/
namespace Msat.HriToolsSpec
open Msat HriSpec
open Msat.Hri (Format Band)

/-- A complete file: the announced format, the first subframe, and the lines of the images, `pix k j` being line `j` of image `k`. -/
structure Received (file : Bytes) (a : Announced) (h : Header) (pix : Nat → Nat → Bytes) : Prop where
  sent : disseminated a = true
  sized : h.Sized a.family
  label : announces h.label = some a
  known : knownIdent h.ident
  bytes : ∃ (ss : List Sub) (rest : Bytes), (∀ s ∈ ss, s.Sized a.family) ∧ ss.map (·.line) = imageLines a.family (bands a) pix ∧
    file = fileBytes a.family h ss ++ rest

/-- The identification tells a date and time of the Gregorian calendar, and the satellite. -/
structure Identifies (ident : Bytes) (name : String) (y mo d h mi : Nat) : Prop where
  satellite : satelliteName (ident.getD 0 0).toNat (ident.getD 1 0).toNat = some name
  year : word ident 2 = y
  years : 1970 ≤ y ∧ y ≤ 9999
  date : dayOfYear y (word ident 4) mo d
  hour : word ident 6 / 100 = h
  minute : word ident 6 % 100 = mi
  day : h ≤ 23 ∧ mi ≤ 59

/-- The longitude of the satellite, a number with sign. -/
def longitude (ident : Bytes) : Int := twos 16 (word ident 24)

/-- A number with sign in decimal text, without leading zeros. -/
def numberText (v : Int) : Bytes := (if v < 0 then [45] else []) ++ TextSpec.digits (Nat.log 10 v.natAbs + 1) v.natAbs

/-- Names of the formats. -/
def formatName : Format → Bytes
  | .A => str "AFormat"
  | .B => str "BFormat"
  | .X => str "XFormat"

/-- Names of the bands: visible images of the X format have their own. -/
def bandName (f : Format) (b : Band) : String :=
  match b with
  | .IR => "IR"
  | .WV => "WV"
  | .VIS => "VIS"
  | .VH => if f = .X then "VH" else "VIS"

/-- Units. -/
def unit : Band → String
  | .IR => "K"
  | .WV => "K"
  | _ => "%"

/-- Distance between pixels: that of the visible images of the full disk is 1. -/
def step (f : Format) : Band → Int
  | .VIS => 1
  | _ => if f = .X then 4 else 2

/-- YYYYMMDD_HHMM -/
def shortStamp (y mo d h mi : Nat) : Bytes :=
  TextSpec.digits 4 y ++ TextSpec.digits 2 mo ++ TextSpec.digits 2 d ++ str "_" ++ TextSpec.digits 2 h ++ TextSpec.digits 2 mi

/-- The name of the file of an image. -/
def fileName (satellite : String) (f : Format) (b : Band) (y mo d h mi : Nat) : Bytes :=
  str satellite ++ str "_" ++ formatName f ++ str "_" ++ str (bandName f b) ++ str "_" ++ shortStamp y mo d h mi ++ str ".nc"

/-- A byte as a number with sign. -/
def signed (v : UInt8) : Int := if v.toNat ≤ 127 then v.toNat else (v.toNat : Int) - 256

end Msat.HriToolsSpec
