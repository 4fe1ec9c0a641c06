import Verif.Spec.HriImage

/-
What C35 means: the content of a label in words of the format description (EUM TD 02).  Only the enumerations
of formats and bands come from the model.
-/
namespace Msat.HriSpec
open Hri

/-- A big endian number of `n` bytes. -/
def be : Nat → Nat → List UInt8
  | 0, _ => []
  | n + 1, v => be n (v / 256) ++ [UInt8.ofNat v]

/-- How the last four bits of the encryption byte say which of the channels are encrypted: whether the byte is made of them and of other bits
that say nothing. -/
def Encrypts (b : UInt8) (visS visN ir wv : Bool) : Prop :=
  ∃ others, b.toNat = 16 * others + (if visS then 8 else 0) + (if visN then 4 else 0) + (if ir then 2 else 0) + (if wv then 1 else 0)

/-- The family announced by the format byte. -/
def family (b : UInt8) : Option Format :=
  if b = 0 then some .A else if b = 15 then some .X else if b = 255 then some .B else none

/-- What a label announces. -/
structure Announced where
  family : Format
  ir : Bool
  vis : Bool
  wv : Bool
  /-- the visible channel comes at reduced resolution -/
  reduced : Bool
deriving DecidableEq

def letter : Format → Char
  | .A => 'A'
  | .B => 'B'
  | .X => 'X'

/-- The name of a format: its family, one letter for each band, and H for visible images at reduced
resolution; the name does not say it when water vapour is included. -/
def code (a : Announced) : List Char :=
  letter a.family :: ((if a.ir then ['I'] else []) ++ (if a.vis then ['V'] else []) ++
    (if a.wv then ['W'] else []) ++ (if a.vis && a.reduced && !a.wv then ['H'] else []))

/-- The bands of the images, in order.  The B format only has visible images at full resolution. -/
def bands (a : Announced) : List Band :=
  (if a.ir then [.IR] else []) ++
  (if a.vis then [if a.reduced && a.family != .B then .VH else .VIS] else []) ++
  (if a.wv then [.WV] else [])

/-- The combinations that are disseminated, without those that come only by mistake. -/
def disseminated (a : Announced) : Bool :=
  match a.family, a.ir, a.vis, a.wv with
  | .A, false, true, false => true
  | .A, true, true, false => a.reduced
  | .A, _, false, true => true
  | .B, true, true, false => true
  | .B, _, false, true => true
  | .X, true, false, false => true
  | .X, false, false, true => true
  | .X, false, true, false => a.reduced
  | _, _, _, _ => false

/-- Where the point below the satellite is, in columns and lines from the first one: in the middle of the
images of the disc, below the last line of the images of Europe. -/
def centre (a : Announced) : Int × Int :=
  match a.family with
  | .A => if a.vis && !a.reduced && !a.wv then (2500, 2500) else (1248, 1249)
  | .B => (1248, -1118)
  | .X => (1250, 1250)

end Msat.HriSpec
