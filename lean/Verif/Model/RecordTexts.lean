import Verif.Model.Layout
import Verif.Model.TimeTexts
import Verif.Model.HritTexts

/-
The `operator<<` of the records of the prologue and of the epilogue, msat/hrit/MSG_data_*.cpp: what they write, one item after
the other.

Simplifications: a text is the list of the items written, each with the members that must not be zero for it to be written (the
`if` around it); the members are those of Layout, by path; the decimal texts of `float` and `double`, the texts of the generalized
times and those of the bit fields of raw members are parameters (`World`); `std::endl` writes a newline.
-/
namespace Msat.RecordTexts
open Msat Layout Text

/-- How the value of a member is written. -/
inductive Form where
  /-- an integer, in decimal (one byte ones are cast to `uint_2`; `bool` are 0 or 1) -/
  | dec
  /-- `float` -/
  | r4
  /-- `double` -/
  | r8
  /-- `MSG_time_cds_short` -/
  | t6
  /-- `MSG_time_cds` -/
  | t8
  /-- `MSG_time_cds_expanded` -/
  | t10
  /-- `MSG_time_generalized` -/
  | gtime
  /-- `get_coarse_time()` of `MSG_time_cuc` -/
  | cucCoarse
  /-- `get_fine_time()` of `MSG_time_cuc` -/
  | cucFine
  /-- a `MSG_time_cuc` as a real number of seconds -/
  | cucReal
  /-- the text of a code, by a `switch` whose `default` is "Unknown" -/
  | name (table : List (Nat × String))
  /-- `MSG_spacecraft` -/
  | spacecraft
  /-- `MSG_SU_ID` -/
  | unit
  /-- element `i` of an array of bytes, in decimal -/
  | byte (i : Nat)
  /-- `Value` of element `i` of `DCRValues`, in hexadecimal -/
  | dcr (i : Nat)
  /-- the bits of a status -/
  | status
deriving DecidableEq, Repr

/-- One thing written. -/
inductive What where
  /-- a literal text -/
  | lit (s : String)
  /-- `std::setw(w) << std::setfill(fill) << i+1` -/
  | index (w : Nat) (fill : UInt8) (i : Nat)
  /-- `std::endl` -/
  | endl
  /-- a member, with `std::setw(w) << std::setfill(fill)`; `again` if it was already written in another form -/
  | value (path : Path) (form : Form) (w : Nat) (fill : UInt8) (again : Bool)
  /-- the bar of element `i` of a histogram of `n` counts -/
  | bar (path : Path) (n i : Nat)
deriving DecidableEq, Repr

/-- One thing written if none of the members `guards` is zero. -/
structure Item where
  guards : List Path
  what : What
deriving DecidableEq, Repr

/-- What an `operator<<` writes. -/
abbrev Text := List Item

/-! ### Writing the items, as in the code -/

/-- `<< "..."` -/
def lit (s : String) : Item := ⟨[], .lit s⟩
/-- `<< std::endl` -/
def endl : Item := ⟨[], .endl⟩
/-- `<< std::setw(w) << std::setfill('0') << i+1` -/
def index (w i : Nat) : Item := ⟨[], .index w 48 i⟩
/-- `<< std::setw(3) << std::setfill(' ') << i+1` -/
def index3 (i : Nat) : Item := ⟨[], .index 3 32 i⟩
/-- `<< member` -/
def val (p : Path) (f : Form) : Item := ⟨[], .value p f 0 32 false⟩
/-- `<< member`, the second time -/
def again (p : Path) (f : Form) : Item := ⟨[], .value p f 0 32 true⟩
/-- `<< std::setw(12) << std::setfill(' ') << member` -/
def wide (p : Path) (f : Form) : Item := ⟨[], .value p f 12 32 false⟩
/-- `<< std::setw(3) << std::setfill('0') << member` -/
def wide3 (p : Path) (f : Form) : Item := ⟨[], .value p f 3 48 false⟩
/-- `for (int i = 0; i < count; i ++) os << "*";` for element `i` of a histogram of `n` counts -/
def bar (p : Path) (n i : Nat) : Item := ⟨[], .bar p n i⟩

/-- `<< std::setw(12) << std::setfill(' ') << p[first] << " " << ... << p[first+n-1] << std::endl` -/
def row (p : Path) (first n : Nat) (f : Form) : Text :=
  ((List.range n).map fun k => wide (p ++ [.i (first + k)]) f).intersperse (lit " ") ++ [endl]

/-- The same item, of member `p` of an object. -/
def Item.under (p : Path) (t : Item) : Item :=
  ⟨t.guards.map (p ++ ·), match t.what with
    | .value q f w c a => .value (p ++ q) f w c a
    | .bar q n i => .bar (p ++ q) n i
    | x => x⟩

/-- `<< member`, where `member` has its own `operator<<`. -/
def sub (p : Path) (t : Text) : Text := t.map (Item.under p)

/-- `for (int i = 0; i < n; i ++) os << ...` -/
def each (n : Nat) (f : Nat → Text) : Text := (List.range n).flatMap f

/-- `if (p) os << ...` -/
def when (p : Path) (t : Text) : Text := t.map fun x => { x with guards := p :: x.guards }

/-! ### What is written -/

/-- The members of an object, as assigned by `read_from` (Layout.run). -/
abbrev Members := List (Path × Val)

/-- Texts that depend on the C++ library. -/
structure World where
  /-- `float`, from its bits -/
  r4 : Nat → Bytes
  /-- `double`, from its bits -/
  r8 : Nat → Bytes
  /-- `MSG_time_cuc` in seconds, from its seven bytes -/
  cucReal : Nat → Bytes
  /-- `MSG_time_generalized`, from its fifteen characters -/
  gtime : Bytes → Bytes
  /-- bit field number `i` of raw bytes -/
  bits : Bytes → Nat → Bytes

/-- Value of a member; a member that was never assigned has none. -/
def member (o : Members) (p : Path) : Outcome Val :=
  match o.lookup p with
  | some v => .ok v
  | none => .ub

/-- The condition of an `if`: a number that is not zero, or, for `StartTime`, a day that is not zero (`is_present`,
msat/hrit/MSG_data_SatelliteStatus.cpp:85-86, 113-126, and `get_day_from_epoch`, msat/hrit/MSG_data_CelestialEvents.cpp:192, 224). -/
def nonzero : Val → Outcome Bool
  | .nat n => .ok (n ≠ 0)
  | .int i => .ok (i ≠ 0)
  | .time d _ _ _ => .ok (d ≠ 0)
  | .bytes _ => .ub

/-- Whether all the conditions around an item hold; a condition that does not hold keeps the ones inside from being looked at. -/
def holds (o : Members) : List Path → Outcome Bool
  | [] => .ok true
  | p :: ps => do
    let v ← member o p
    if ← nonzero v then holds o ps else pure false

/-- `std::setw(w) << std::setfill(fill)` -/
def pad (w : Nat) (fill : UInt8) (s : Bytes) : Bytes := List.replicate (w - s.length) fill ++ s

/-- Decimal text of a signed number. -/
def signed (i : Int) : Bytes := if i < 0 then str "-" ++ decimal i.natAbs else decimal i.natAbs

/-- The `switch` of the functions that name codes. -/
def nameOf (table : List (Nat × String)) (code : Nat) : String := (table.lookup code).getD "Unknown"

/-- msat/hrit/MSG_data_IMPFConfiguration.cpp:134-151 `MSG_SU_ID` -/
def unitName (id : Nat) : String :=
  if id = 0 then "No particular SU" else
  if id ≥ 10000 ∧ id < 20000 then "BRGS" else
  if id ≥ 20000 ∧ id < 30000 then "CF" else
  if id ≥ 30000 ∧ id < 40000 then "DADF" else
  if id ≥ 40000 ∧ id < 50000 then "IMPF" else
  if id ≥ 50000 ∧ id < 60000 then "MARF" else
  if id ≥ 60000 ∧ id < 70000 then "MPEF" else
  if id ≥ 70000 ∧ id < 80000 then "PGS" else
  if id ≥ 80000 ∧ id < 90000 then "SSF" else
  if id ≥ 90000 ∧ id < 100000 then "SIU" else
  if id ≥ 100000 ∧ id < 101000 then "LEOP_CC" else "Unknown"

/-- The seven bytes of a `MSG_time_cuc`. -/
def cucBytes (n : Nat) : Bytes := (List.range 7).map fun k => UInt8.ofNat (n / 256 ^ (6 - k))

/-- Text of a value. -/
def valueText (w : World) : Form → Val → Outcome Bytes
  | .dec, .nat n => .ok (decimal n)
  | .dec, .int i => .ok (signed i)
  | .r4, .nat n => .ok (w.r4 n)
  | .r8, .nat n => .ok (w.r8 n)
  | .t6, .time d m _ _ => .ok (TimeTexts.shortText (Time.cdsShortOf d m))
  | .t8, .time d m u _ => TimeTexts.cdsText (Time.cdsShortOf d m, u)
  | .t10, .time d m u n => TimeTexts.expandedText (Time.cdsShortOf d m, u, n)
  | .gtime, .bytes b => .ok (w.gtime b)
  | .cucCoarse, .nat n => .ok (TimeTexts.coarseText (cucBytes n))
  | .cucFine, .nat n => .ok (TimeTexts.fineText (cucBytes n))
  | .cucReal, .nat n => .ok (w.cucReal n)
  | .name table, .nat n => .ok (str (nameOf table n))
  | .spacecraft, .nat n => .ok (str (HritTexts.spacecraftName n))
  | .unit, .nat n => .ok (str (unitName n))
  | .byte i, .bytes b => match b[i]? with
    | some c => .ok (decimal c.toNat)
    | none => .ub
  | .dcr i, .bytes b => .ok (w.bits b i)
  | .status, .bytes b => .ok (w.bits b 0)
  | _, _ => .ub

/-- The counts of a histogram. -/
def counts (o : Members) (p : Path) : Nat → Outcome (List Nat)
  | 0 => .ok []
  | n + 1 => do
    let cs ← counts o p n
    match ← member o (p ++ [.i n]) with
    | .nat c => pure (cs ++ [c])
    | _ => .ub

/-- msat/hrit/MSG_data_RadiometricQuality.cpp:511-519 `maxistogram` -/
def maxistogram (istogram : List Nat) : Nat :=
  let maxval := istogram.foldl (fun m c => if m < c then c else m) 0
  if maxval = 0 then 1 else maxval / 76

/-- `int count = istogram[i] / maxistogram(istogram, n);` and the `count` asterisks, e.g.
msat/hrit/MSG_data_RadiometricQuality.cpp:176-181; a division by zero is undefined. -/
def barText (istogram : List Nat) (i : Nat) : Outcome Bytes :=
  match istogram[i]? with
  | none => .ub
  | some c => if maxistogram istogram = 0 then .ub else .ok (List.replicate (c / maxistogram istogram) 42)

/-- What an item writes, when it is written. -/
def whatText (w : World) (o : Members) : What → Outcome Bytes
  | .lit s => .ok (str s)
  | .index k c i => .ok (pad k c (decimal (i + 1)))
  | .endl => .ok [10]
  | .value p f k c _ => do
    let v ← member o p
    let s ← valueText w f v
    pure (pad k c s)
  | .bar p n i => do
    let cs ← counts o p n
    barText cs i

/-- What an item writes. -/
def itemText (w : World) (o : Members) (x : Item) : Outcome Bytes := do
  if ← holds o x.guards then whatText w o x.what else pure []

/-- What an `operator<<` writes. -/
def print (w : World) (o : Members) : Text → Outcome Bytes
  | [] => .ok []
  | x :: xs => do
    let a ← itemText w o x
    let b ← print w o xs
    pure (a ++ b)

end Msat.RecordTexts
