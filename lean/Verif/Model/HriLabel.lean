import Verif.Model.HriImage
import Verif.Model.HriMachine

/-
msat/hri/HRI_subframe_label.cpp: the label of a subframe; the choice of images and of the georeference from
the format code (msat/hri/HRI.cpp, msat/hri/HRI_geolocation.h).

Texts are lists of characters.  `throw;` without an active exception ends the program: `terminate`.
-/
namespace Msat.Hri

/-- msat/hri/HRI_subframe_label.h:60-76: the members of the label.  The unsigned members are given by their
values. -/
structure Label where
  framesInSubframe : Nat
  totalSubframes : Nat
  currentSubframe : Nat
  imageLine : Nat
  imageNumber : Nat
  format : UInt8
  visS : UInt8
  visN : UInt8
  ir : UInt8
  wv : UInt8
  grid : UInt8
  encryption : UInt8
  scanDirection : UInt8
  keyVisS : UInt8
  keyVisN : UInt8
  keyIr : UInt8
  keyWv : UInt8
deriving DecidableEq, Repr

/-- Assignment of a `short` to an `unsigned short`, of an `int` to an `unsigned int`. -/
def toUnsigned (bits : Nat) (v : Int) : Nat := (v % (2 ^ bits : Int)).toNat

/-- msat/hri/HRI_subframe_label.cpp:37-62 `readfrom`; `hsl` is the memory behind the pointer. -/
def readLabel (machine : Bool) (hsl : Bytes) : Outcome Label := do
  let a ← i2FromBuff machine hsl
  let b ← i2FromBuff machine (hsl.drop 2)
  let c ← i2FromBuff machine (hsl.drop 4)
  let d ← i2FromBuff machine (hsl.drop 6)
  let e ← i4FromBuff machine (hsl.drop 8)
  match hsl.drop 12 with
  | b12 :: b13 :: b14 :: b15 :: b16 :: b17 :: b18 :: b19 :: b20 :: b21 :: b22 :: b23 :: _ =>
    .ok ⟨toUnsigned 16 a, toUnsigned 16 b, toUnsigned 16 c, toUnsigned 16 d, toUnsigned 32 e,
      b12, b13, b14, b15, b16, b17, b18, b19, b20, b21, b22, b23⟩
  | _ => .ub

namespace Label

/-- msat/hri/HRI_subframe_label.cpp:64-68 -/
def isA (l : Label) : Bool := l.format == 0
/-- msat/hri/HRI_subframe_label.cpp:70-74 -/
def isB (l : Label) : Bool := l.format == 255
/-- msat/hri/HRI_subframe_label.cpp:76-80 -/
def isX (l : Label) : Bool := l.format == 15
/-- msat/hri/HRI_subframe_label.cpp:82-86 -/
def visSPresent (l : Label) : Bool := l.visS != 0
/-- msat/hri/HRI_subframe_label.cpp:88-92 -/
def visNPresent (l : Label) : Bool := l.visN != 0
/-- msat/hri/HRI_subframe_label.cpp:94-98 -/
def irPresent (l : Label) : Bool := l.ir != 0
/-- msat/hri/HRI_subframe_label.cpp:100-104 -/
def wvPresent (l : Label) : Bool := l.wv != 0
/-- msat/hri/HRI_subframe_label.cpp:130-134 -/
def visSReduced (l : Label) : Bool := l.visS == 255
/-- msat/hri/HRI_subframe_label.cpp:136-140 -/
def visNReduced (l : Label) : Bool := l.visN == 255
/-- msat/hri/HRI_subframe_label.cpp:142-146 -/
def visSEncrypted (l : Label) : Bool := l.encryption &&& 8 != 0
/-- msat/hri/HRI_subframe_label.cpp:148-152 -/
def visNEncrypted (l : Label) : Bool := l.encryption &&& 4 != 0
/-- msat/hri/HRI_subframe_label.cpp:154-158 -/
def irEncrypted (l : Label) : Bool := l.encryption &&& 2 != 0
/-- msat/hri/HRI_subframe_label.cpp:160-164 -/
def wvEncrypted (l : Label) : Bool := l.encryption &&& 1 != 0

/-- msat/hri/HRI_subframe_label.cpp:196-215 `format_code` -/
def formatCode (l : Label) : Outcome (List Char) :=
  let rest : List Char :=
    (if l.irPresent then ['I'] else []) ++
    (if l.visSPresent || l.visNPresent then ['V'] else []) ++
    (if l.wvPresent then ['W']
     else if (l.visSPresent || l.visNPresent) && (l.visSReduced || l.visNReduced) then ['H'] else [])
  if l.isA then .ok ('A' :: rest)
  else if l.isB then .ok ('B' :: rest)
  else if l.isX then .ok ('X' :: rest)
  else .terminate

end Label

/-- msat/hri/HRI.cpp:126-379: the `set_format_band` calls of the chain of `else if` on the format code, image
by image; `nimages` is the length of the list.  The satellite of the X format is not included: it does not
change the image. -/
def imagesOf (code : List Char) : Outcome (List (Format × Band)) :=
  if code = ['A', 'V'] then .ok [(.A, .VIS)]
  else if code = ['A', 'V', 'H'] then .ok [(.A, .VH)]
  else if code = ['A', 'W'] then .ok [(.A, .WV)]
  else if code = ['A', 'I', 'W'] then .ok [(.A, .IR), (.A, .WV)]
  else if code = ['A', 'I', 'V', 'H'] then .ok [(.A, .IR), (.A, .VH)]
  else if code = ['B', 'W'] then .ok [(.B, .WV)]
  else if code = ['B', 'I', 'V'] ∨ code = ['B', 'I', 'V', 'H'] then .ok [(.B, .IR), (.B, .VIS)]
  else if code = ['B', 'I', 'W'] then .ok [(.B, .IR), (.B, .WV)]
  else if code = ['X', 'I'] then .ok [(.X, .IR)]
  else if code = ['X', 'W'] then .ok [(.X, .WV)]
  else if code = ['X', 'V', 'H'] then .ok [(.X, .VH)]
  else .terminate

/-- msat/hri/HRI_geolocation.h:32-37 -/
structure Geolocation where
  cfac : Int
  lfac : Int
  coff : Int
  loff : Int
deriving DecidableEq, Repr

/-- msat/hri/HRI_geolocation.h:44-84 `set_format` -/
def geolocationOf (code : List Char) : Outcome Geolocation :=
  if code = ['A', 'W'] ∨ code = ['A', 'I', 'W'] ∨ code = ['A', 'I', 'V', 'H'] ∨ code = ['A', 'V', 'H'] then
    .ok ⟨-9102222, -9102222, 1248, 1249⟩
  else if code = ['A', 'V'] then .ok ⟨-18204444, -18204444, 2500, 2500⟩
  else if code = ['B', 'W'] ∨ code = ['B', 'I', 'V'] ∨ code = ['B', 'I', 'W'] ∨ code = ['B', 'I', 'V', 'H'] then
    .ok ⟨-18204444, -18204444, 1248, -1118⟩
  else if code = ['X', 'I'] ∨ code = ['X', 'V', 'H'] ∨ code = ['X', 'W'] then
    .ok ⟨-9102222, -9102222, 1250, 1250⟩
  else .terminate

end Msat.Hri
