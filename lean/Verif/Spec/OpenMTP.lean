import Verif.Spec.Bytes
import Verif.Model.Basic

/-
OpenMTP files as they are documented: an ASCII header of 1345 bytes, a binary header in three sections, and the
lines of the image, each with a prefix of 32 bytes.  Independent of the model.
-/
namespace Msat.MtpSpec
open Msat Spec

/-- The integer of four bytes at an offset of a file or header. -/
def field (bytes : Bytes) (off : Nat) : Int := signed 32 (beVal ((bytes.drop off).take 4))

/-- Names of the channel codes: visible 1 to 3, infrared 4 and 5, water vapour 6 and 7. -/
def channelName (code : Int) : Option String :=
  if 1 ≤ code ∧ code ≤ 3 then some "VIS"
  else if code = 4 ∨ code = 5 then some "IR"
  else if code = 6 ∨ code = 7 then some "WV"
  else none

/-- Their units. -/
def channelUnit (code : Int) : Option String :=
  match channelName code with
  | some "VIS" => some "%"
  | some _ => some "K"
  | none => none

/-- The full disk: 2500 lines of 2500 pixels, twice as many in each direction for the composite of both visible
channels (code 3). -/
def FullDisk (code lines pixels : Int) : Prop :=
  (4 ≤ code ∧ code ≤ 7 ∧ lines = 2500 ∧ pixels = 2500) ∨ (code = 3 ∧ lines = 5000 ∧ pixels = 5000)

/-- The B format: 625 lines of 1250 pixels from line 1810. -/
def FormatB (code lines pixels first : Int) : Prop :=
  (4 ≤ code ∧ code ≤ 7 ∧ lines = 625 ∧ pixels = 1250 ∧ first = 1810) ∨
  (code = 3 ∧ lines = 1250 ∧ pixels = 2500 ∧ first = 3620)

/-- Where the lines begin: the third section of the binary header is longer for the visible composite. -/
def imageStart (file : Bytes) : Nat :=
  1345 + 5175 + 2636 + (if field file (1345 + 40) = 3 then 185188 else 136704)

/-- Number of lines of the image in a file. -/
def lineCount (file : Bytes) : Int := field file (1345 + 131)

/-- Number of pixels of a line in a file. -/
def pixelCount (file : Bytes) : Int := field file (1345 + 135)

/-- A file has all its lines. -/
def Complete (file : Bytes) : Prop :=
  imageStart file + (lineCount file).toNat * ((pixelCount file).toNat + 32) ≤ file.length

/-- Pixel `j` of line `i`. -/
def pixel (file : Bytes) (i j : Nat) : Option UInt8 :=
  file[imageStart file + i * ((pixelCount file).toNat + 32) + 32 + j]?

/-- Dimensions that the lines of the format can have: not negative, not more than 5000 pixels, and as many
pixels as can be counted. -/
def Sensible (file : Bytes) : Prop :=
  0 ≤ lineCount file ∧ 0 ≤ pixelCount file ∧ pixelCount file ≤ 5000 ∧ lineCount file * pixelCount file < 2 ^ 31

end Msat.MtpSpec
