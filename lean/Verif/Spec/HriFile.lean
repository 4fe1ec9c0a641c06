import Verif.Spec.HriLabel

/-
What C73 means: files in HRI format, as the format description (EUM TD 02) arranges them.  Only the enumerations of formats and bands come
from the model.
-/
namespace Msat.HriSpec
open Hri

/-- The byte that tells the files of the A format from those of the B and X formats. -/
def idOf : Format → UInt8
  | .A => 112
  | _ => 48

/-- Frames in a subframe. -/
def framesOf : Format → Nat
  | .A => 8
  | _ => 4

/-- Pixels in one subframe. -/
def width : Format → Nat
  | .A => 2500
  | _ => 1250

/-- A frame: synchronisation, identifier, 360 bytes. -/
def frame (id : UInt8) (p : Bytes) : Bytes := [0x05, 0x0C, 0xDF, id] ++ p

/-- `n` frames holding the bytes `p`. -/
def frames (id : UInt8) : Nat → Bytes → Bytes
  | 0, _ => []
  | n + 1, p => frame id (p.take 360) ++ frames id n (p.drop 360)

/-- The first subframe of a file. -/
structure Header where
  label : Bytes
  seed : Bytes
  ident : Bytes
  interp : Bytes
  /-- only in the A format -/
  keys : Bytes

/-- The parts have the sizes of the format. -/
structure Header.Sized (h : Header) (f : Format) : Prop where
  label : h.label.length = 24
  seed : h.seed.length = 8
  ident : h.ident.length = 48
  interp : h.interp.length = 1360
  keys : h.keys.length = if f = .A then 1440 else 0

/-- The frames of the first subframe. -/
def headerFrames (f : Format) (h : Header) : Bytes :=
  frames (idOf f) (framesOf f) (h.label ++ h.seed ++ h.ident ++ h.interp ++ h.keys)

/-- A subframe with pixels: a label and reserved bytes before them, reserved bytes behind them. -/
structure Sub where
  head : Bytes
  line : Bytes
  tail : Bytes

/-- The sizes of the format. -/
structure Sub.Sized (s : Sub) (f : Format) : Prop where
  head : s.head.length = if f = .A then 64 else 32
  line : s.line.length = width f
  tail : s.tail.length = if f = .A then 316 else 158

/-- The frames of a subframe with pixels. -/
def subFrames (f : Format) (s : Sub) : Bytes := frames (idOf f) (framesOf f) (s.head ++ s.line ++ s.tail)

/-- A file. -/
def fileBytes (f : Format) (h : Header) (ss : List Sub) : Bytes := headerFrames f h ++ (ss.map (subFrames f)).flatten

/-- What 24 bytes of label announce. -/
def announces (l : Bytes) : Option Announced :=
  (family (l.getD 12 0)).map fun f =>
    ⟨f, l.getD 15 0 != 0, l.getD 13 0 != 0 || l.getD 14 0 != 0, l.getD 16 0 != 0, l.getD 13 0 == 255 || l.getD 14 0 == 255⟩

/-- Identification bytes of a known satellite on a day of the year. -/
def knownIdent (s : Bytes) : Prop :=
  (s.getD 0 0 = 212 ∨ (s.getD 0 0 = 0 ∧ s.getD 1 0 ≤ 3)) ∧
    1 ≤ (s.getD 4 0).toNat * 256 + (s.getD 5 0).toNat ∧ (s.getD 4 0).toNat * 256 + (s.getD 5 0).toNat ≤ 366

/-- Lines of an image that come in one group of subframes: two of the visible images at full resolution, one of the others. -/
def perGroup (b : Band) : Nat := if b = .VIS then 2 else 1

/-- The subframes of one line: lines of the visible images at full resolution come in two halves. -/
def pieces (f : Format) (b : Band) (line : Bytes) : List Bytes :=
  if b = .VIS then [line.take (width f), line.drop (width f)] else [line]

/-- The subframes of group `i` for the bands `bs`, the first of which is image `k`; `pix k j` is line `j` of image `k`. -/
def group (f : Format) (pix : Nat → Nat → Bytes) (i : Nat) : Nat → List Band → List Bytes
  | _, [] => []
  | k, b :: bs =>
    (if b = .VIS then pieces f b (pix k (2 * i)) ++ pieces f b (pix k (2 * i + 1)) else pieces f b (pix k i)) ++
      group f pix i (k + 1) bs

/-- Groups in a file. -/
def groupsOf : Format → Nat
  | .A => 2500
  | .B => 625
  | .X => 1250

/-- The lines of all the subframes of a file with the images `pix`. -/
def imageLines (f : Format) (bs : List Band) (pix : Nat → Nat → Bytes) : List Bytes :=
  (List.range (groupsOf f)).flatMap fun i => group f pix i 0 bs

/-! ### TECNAVIA files -/

/-- A TECNAVIA file, without frames: 512 bytes, the first subframe with its synchronisation, and then subframes.  In the A format the keys
are part of `fill`. -/
structure Tec where
  pre : Bytes
  header : Header
  fill : Bytes

/-- The sizes of the format. -/
structure Tec.Sized (t : Tec) (f : Format) : Prop where
  pre : t.pre.length = 512
  label : t.header.label.length = 24
  seed : t.header.seed.length = 8
  ident : t.header.ident.length = 48
  interp : t.header.interp.length = 1360
  fill : t.fill.length = if f = .A then 1628 else 92

/-- The sizes of a subframe with pixels. -/
structure Sub.TecSized (s : Sub) (f : Format) : Prop where
  head : s.head.length = if f = .A then 384 else 192
  line : s.line.length = width f
  tail : s.tail.length = if f = .A then 184 else 90

/-- A subframe with pixels. -/
def tecSub (f : Format) (s : Sub) : Bytes := [0x05, 0x0C, 0xDF, idOf f] ++ s.head ++ s.line ++ s.tail

/-- A file. -/
def tecBytes (f : Format) (t : Tec) (ss : List Sub) : Bytes :=
  t.pre ++ ([0x05, 0x0C, 0xDF, idOf f] ++ t.header.label ++ t.header.seed ++ t.header.ident ++ t.header.interp ++ t.fill) ++
    (ss.map (tecSub f)).flatten

end Msat.HriSpec
