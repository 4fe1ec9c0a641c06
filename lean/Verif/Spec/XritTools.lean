import Verif.Model.HritFile
import Verif.Spec.HritFile
import Verif.Spec.FileAccess
import Verif.Spec.TextNumber

/-
Specification for the programs that put together the segments of a product.
-/
namespace Msat.XritToolsSpec
open Msat HritSpec XritSpec StdString
open Msat.Hrit (Env Disk)

/-- What the headers of the segments of a product have in common. -/
structure Common where
  spacecraft : Nat
  channel : Nat
  /-- number of segments planned -/
  planned : Nat
  /-- format of the compressed data: 1 JPEG, 2 T.4, 3 wavelet -/
  format : Nat
  bpp : Nat
  cols : Nat
  lines : Nat
  cfac : Int
  lfac : Int
  coff : Int
  loff : Int

/-- The segments of a product on disk: file `i` (from 0) is an xRIT image file with compression whose header says that it is
segment `i + 1` and what the headers have in common, and from whose data field the decompression library makes the image
`imgs i`.  There is memory. -/
structure OnDisk (env : Env) (disk : Disk) (files : Nat → Bytes) (c : Common) (imgs : Nat → List Nat) : Prop where
  named : ∀ i < c.planned, files i ≠ []
  known : c.format = 1 ∨ c.format = 2 ∨ c.format = 3
  memory : ∀ k, env.alloc k = true
  file : ∀ i < c.planned, ∃ rs data rest comp start,
    disk (files i) = some (fileOf 0 rs data rest) ∧ FileOk 0 rs data ∧
    structureOf rs = some (c.bpp, c.cols, c.lines, comp) ∧ comp ≠ 0 ∧
    segmentOf rs = some (c.spacecraft, c.channel, i + 1, start, c.planned, c.format) ∧
    navigationOf rs = some (c.cfac, c.lfac, c.coff, c.loff) ∧
    env.decode c.format c.bpp c.cols c.lines data = .ok (imgs i) ∧ (imgs i).length = c.cols * c.lines

/-- The sample of a product in a line, counted from the first line of the first segment, and in a column: that of the image of
the segment the line is in, or zero if the segment is not there. -/
def sampleOf (c : Common) (imgs : Nat → List Nat) (present : List Nat) (line col : Nat) : Option Nat :=
  if line / c.lines ∈ present then (imgs (line / c.lines))[line % c.lines * c.cols + col]? else some 0

/-- `name` is the file name of an image segment, compressed (`C_`) or not (`__`), or with any other flag. -/
def IsSegmentFile (res p1 p2 time : Bytes) (name : Bytes) : Prop :=
  ∃ number sat seg flag, number.length = 3 ∧ sat.length = 6 ∧ seg.length = 5 ∧ flag.length = 1 ∧
    name = longName res number sat (paddedTo p1 12) (paddedTo p2 9) (paddedTo (str "0" ++ seg) 9) time (flag ++ str "_")

/-- A window of a product, as it is asked for: lines and columns are counted from 1. -/
structure Window where
  firstLine : Nat
  nLines : Nat
  firstCol : Nat
  nCols : Nat

/-- The window is in an image of this size, and not empty. -/
def Window.In (w : Window) (lines cols : Nat) : Prop :=
  1 ≤ w.firstLine ∧ 1 ≤ w.nLines ∧ w.firstLine - 1 + w.nLines ≤ lines ∧
  1 ≤ w.firstCol ∧ 1 ≤ w.nCols ∧ w.firstCol - 1 + w.nCols ≤ cols

/-- The text asks for the window: four decimal numbers, with any number of digits, separated by commas. -/
def Window.Text (w : Window) (text : Bytes) : Prop :=
  ∃ k1 k2 k3 k4, 1 ≤ k1 ∧ 1 ≤ k2 ∧ 1 ≤ k3 ∧ 1 ≤ k4 ∧
    w.firstLine < 10 ^ k1 ∧ w.nLines < 10 ^ k2 ∧ w.firstCol < 10 ^ k3 ∧ w.nCols < 10 ^ k4 ∧
    text = TextSpec.digits k1 w.firstLine ++ ([44] ++ (TextSpec.digits k2 w.nLines ++ ([44] ++
      (TextSpec.digits k3 w.firstCol ++ ([44] ++ TextSpec.digits k4 w.nCols)))))

/-- The window that is asked for, or everything. -/
def Asks (lines cols : Nat) (w : Window) : Option Bytes → Prop
  | none => w = ⟨1, lines, 1, cols⟩
  | some text => w.Text text

end Msat.XritToolsSpec
