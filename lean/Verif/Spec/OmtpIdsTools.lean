import Verif.Spec.OmtpIds
import Verif.Spec.TextNumber

/-
Specification of what the tools for OpenMTP-IDS files produce, in terms of the content of the input file.
-/
namespace Msat.IdsToolsSpec
open Ids IdsSpec

/-- The image of a channel: the pixels of the lines of that channel, in the order of the file. -/
def channelRows (x : OpenMTP_IDS) (id : Int) : List Bytes :=
  ((allLines x).filter (fun l => l.lineheader.channel_id = id)).map (·.linepixel)

/-- A number in decimal digits. -/
def Writes (text : Bytes) (n : Nat) : Prop := text ≠ [] ∧ (∀ c ∈ text, 48 ≤ c ∧ c ≤ 57) ∧ TextSpec.value text = n

/-- A binary portable grey map of so many columns with the rows given. -/
def GreyMap (columns : Nat) (rows : List Bytes) (file : Bytes) : Prop :=
  ∃ width height, Writes width columns ∧ Writes height rows.length ∧
    file = str "P5\n" ++ width ++ str " " ++ height ++ str "\n255\n" ++ rows.flatten

/-- The kinds of channels, by the identifiers of the format. -/
inductive Kind where
  | visible | infrared | waterVapour
deriving DecidableEq, Repr

/-- VIS 1, VIS 2, both, VIS 3, VIS 4 and their pairs; IR 1 and 2; WV 1 and 2. -/
def kind : Int → Option Kind
  | 1 => some .visible
  | 2 => some .visible
  | 3 => some .visible
  | 4 => some .infrared
  | 5 => some .infrared
  | 6 => some .waterVapour
  | 7 => some .waterVapour
  | 8 => some .visible
  | 9 => some .visible
  | 10 => some .visible
  | 11 => some .visible
  | 12 => some .visible
  | _ => none

/-- The documented names of the images. -/
def imageName : Kind → String
  | .visible => "vis.pgm"
  | .infrared => "ir.pgm"
  | .waterVapour => "wv.pgm"

/-- The content of a file after a sequence of writes. -/
def final (writes : List (String × Bytes)) (name : String) : Option Bytes :=
  (writes.reverse.find? (fun w => w.1 = name)).map (·.2)

/-- The lines of the sector: 510 lines from the 2655th, counted from zero over the whole file. -/
def sectorLines (x : OpenMTP_IDS) : List ScanLine := ((allLines x).drop 2655).take 510

/-- A line of the sector: 256 pixels from the 546th. -/
def cutLine (l : ScanLine) : ScanLine :=
  { lineheader := { l.lineheader with length := 272, start := 546, no_pixels := 256 }
    linepixel := (l.linepixel.drop 546).take 256 }

end Msat.IdsToolsSpec
