import Verif.Model.StdString

/-
msat/xrit/fileaccess.cpp: naming of the files of an xRIT product.
-/
namespace Msat.Xrit
open StdString

/-- `'/'` -/
def slash : UInt8 := 47
/-- `':'` -/
def colon : UInt8 := 58
/-- `'-'` -/
def dash : UInt8 := 45
/-- `'_'` -/
def under : UInt8 := 95
/-- `'?'` -/
def quest : UInt8 := 63

/-- msat/xrit/fileaccess.h `FileAccess`: identification of a product. -/
structure FileAccess where
  directory : Bytes
  resolution : Bytes
  productid1 : Bytes
  productid2 : Bytes
  timing : Bytes
deriving DecidableEq, Repr

/-- msat/xrit/fileaccess.cpp:38-43 `underscoreit` -/
def underscoreit (base : Bytes) (finalLen : Nat) : Bytes := resize base finalLen under

/-- The loop of `deunderscore`, msat/xrit/fileaccess.cpp:48-49, from position `pos`. -/
def deunderscorePos (s : Bytes) : Nat → Nat
  | 0 => 0
  | pos + 1 => if s[pos + 1]? = some under then deunderscorePos s pos else pos + 1

/-- msat/xrit/fileaccess.cpp:45-51 `deunderscore`.  On an empty string `pos` wraps around to the
largest `size_t` and `str[pos]` is out of bounds. -/
def deunderscore (s : Bytes) : Outcome Bytes :=
  if s.length = 0 then .ub else .ok (substr s 0 (deunderscorePos s (s.length - 1) + 1))

/-- One step of the loop of `isValid`, msat/xrit/fileaccess.cpp:64-66: `n` signs still to be found
from `pos`. -/
def findColons (s : Bytes) : Nat → Nat → Bool
  | 0, _ => true
  | n + 1, pos => match find s colon pos with
    | none => false
    | some p => findColons s n (p + 1)

/-- msat/xrit/fileaccess.cpp:54-68 `isValid` -/
def isValid (filename : Bytes) : Bool :=
  if filename.length < 3 then false
  else if substrFrom filename (filename.length - 3) = str "-C_" then true
  else findColons filename 3 0

/-- The statement `if ((end = filename.find(sep, beg)) == npos) throw ...;` followed by the use of
`filename.substr(beg, end-beg)` and `beg = end + 1`, repeated in msat/xrit/fileaccess.cpp:113-163. -/
def field (filename : Bytes) (sep : UInt8) (beg : Nat) : Outcome (Bytes × Nat) :=
  match find filename sep beg with
  | none => .throws "not in the form"
  | some e => .ok (substr filename beg (e - beg), e + 1)

/-- msat/xrit/fileaccess.cpp:92-105: the directory and the position where the name begins. -/
def splitDirectory (filename : Bytes) : Bytes × Nat :=
  match rfind filename slash with
  | none => (str ".", 0)
  | some e =>
    let d := substr filename 0 e
    (if d.length = 0 then str "/" else d, e + 1)

/-- msat/xrit/fileaccess.cpp:90-165 `FileAccess::parse(filename)` -/
def parse (filename : Bytes) : Outcome FileAccess :=
  let (directory, beg) := splitDirectory filename
  if filename.length < 3 then .throws "is not a valid xRIT file name"
  else if substrFrom filename (filename.length - 3) = str "-C_" then do
    let (resolution, beg) ← field filename dash beg
    let (_, beg) ← field filename dash beg
    let (_, beg) ← field filename dash beg
    let (p1, beg) ← field filename dash beg
    let productid1 ← deunderscore p1
    let (p2, beg) ← field filename dash beg
    let productid2 ← deunderscore p2
    let (_, beg) ← field filename dash beg
    let (t, _) ← field filename dash beg
    let timing ← deunderscore t
    pure ⟨directory, resolution, productid1, productid2, timing⟩
  else do
    let (resolution, beg) ← field filename colon beg
    let (productid1, beg) ← field filename colon beg
    let (productid2, beg) ← field filename colon beg
    pure ⟨directory, resolution, productid1, productid2, substrFrom filename beg⟩

/-- msat/xrit/fileaccess.cpp:81-88 `FileAccess::parse(fa, chan)` -/
def withChannel (fa : FileAccess) (chan : Bytes) : FileAccess := { fa with productid2 := chan }

/-- msat/xrit/fileaccess.cpp:167-179 `ensureComplete` -/
def ensureComplete (fa : FileAccess) : Outcome Unit :=
  if fa.directory = [] then .throws "source directory is missing"
  else if fa.resolution = [] then .throws "resolution is missing"
  else if fa.productid1 = [] then .throws "first product ID is missing"
  else if fa.productid2 = [] then .throws "second product ID is missing"
  else if fa.timing = [] then .throws "timing is missing"
  else .ok ()

/-- msat/xrit/fileaccess.cpp:257-266 `toString` -/
def toString (fa : FileAccess) : Bytes :=
  str "dir: " ++ fa.directory ++ str " res: " ++ fa.resolution ++ str " prod1: " ++ fa.productid1
    ++ str " prod2: " ++ fa.productid2 ++ str " time: " ++ fa.timing

/-! ### searching the files -/

/-- msat/xrit/fileaccess.cpp:183-191: the pattern of `prologueFile`. -/
def prologuePattern (fa : FileAccess) : Bytes :=
  fa.directory ++ [slash] ++ fa.resolution ++ str "-???-??????-" ++ underscoreit fa.productid1 12
    ++ [dash] ++ underscoreit [under] 9 ++ [dash] ++ str "PRO______-" ++ fa.timing ++ str "-__"

/-- msat/xrit/fileaccess.cpp:209-217: the pattern of `epilogueFile`. -/
def epiloguePattern (fa : FileAccess) : Bytes :=
  fa.directory ++ [slash] ++ fa.resolution ++ str "-???-??????-" ++ underscoreit fa.productid1 12
    ++ [dash] ++ underscoreit [under] 9 ++ [dash] ++ str "EPI______-" ++ fa.timing ++ str "-__"

/-- msat/xrit/fileaccess.cpp:235-242: the pattern of `segmentFiles`. -/
def segmentPattern (fa : FileAccess) : Bytes :=
  fa.directory ++ [slash] ++ fa.resolution ++ str "-???-??????-" ++ underscoreit fa.productid1 12
    ++ [dash] ++ underscoreit fa.productid2 9 ++ [dash] ++ str "0?????___" ++ [dash] ++ fa.timing
    ++ [dash] ++ str "C_"

/-- One file name against one pattern, as `glob(3)` does in the C locale for patterns whose only
special character is `?`.  (`*`, `[` and `\` inside a product name are not modelled.) -/
def globMatch : Bytes → Bytes → Bool
  | [], [] => true
  | p :: ps, c :: cs => (p == quest || p == c) && globMatch ps cs
  | _, _ => false

/-- `glob(3)` on a pattern whose directory part has no special character: `ls` gives the entries of
a directory (none if it does not exist).  The order of the results (`strcoll` in glob) is the order
of the directory here. -/
def glob (ls : Bytes → List Bytes) (pattern : Bytes) : List Bytes :=
  match rfind pattern slash with
  | none => (ls (str ".")).filter (globMatch pattern)
  | some e =>
    ((ls (substr pattern 0 e)).filter (globMatch (substrFrom pattern (e + 1)))).map
      (fun n => substr pattern 0 e ++ [slash] ++ n)

/-- msat/xrit/fileaccess.cpp:193-204 and 219-230: use of the results by `prologueFile` and
`epilogueFile`. -/
def univocal : List Bytes → Outcome Bytes
  | [] => .throws "No such file(s)"
  | [f] => .ok f
  | _ => .throws "Non univoque prologue file.... Do not trust calibration."

/-- msat/xrit/fileaccess.cpp:181-205 -/
def prologueFile (ls : Bytes → List Bytes) (fa : FileAccess) : Outcome Bytes :=
  univocal (glob ls (prologuePattern fa))

/-- msat/xrit/fileaccess.cpp:207-231 -/
def epilogueFile (ls : Bytes → List Bytes) (fa : FileAccess) : Outcome Bytes :=
  univocal (glob ls (epiloguePattern fa))

/-- msat/xrit/fileaccess.cpp:233-255 -/
def segmentFiles (ls : Bytes → List Bytes) (fa : FileAccess) : Outcome (List Bytes) :=
  match glob ls (segmentPattern fa) with
  | [] => .throws "No such file(s)"
  | fs => .ok fs

end Msat.Xrit
