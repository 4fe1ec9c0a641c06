import Verif.Model.Time
import Verif.Model.XritDataset
import Verif.Model.Datetime

/-
msat/hrit/MSG_time_cds.cpp: the texts of the times, and generalized times.

Simplifications: the dates are those of `gmtime` from 1958 on; `%Y`, `%m`, ... of `strftime` are written like `%04d` and
`%02d` of `printf`; numbers of `sscanf` are read exactly, and with at most four digits they fit in an `int`.
-/
namespace Msat.TimeTexts
open Msat Text Time

/-- `strftime(tempchar, 128, "%Y-%m-%d %H:%M:%S", ...)`, msat/hrit/MSG_time_cds.cpp:105, 116, 364 and 373, of year, month, day,
hour, minute and second. -/
def strftime (y m d h mi s : Int) : Bytes :=
  fmt0 4 y ++ str "-" ++ fmt0 2 m ++ str "-" ++ fmt0 2 d ++ str " " ++ fmt0 2 h ++ str ":" ++ fmt0 2 mi ++ str ":" ++ fmt0 2 s

/-- msat/hrit/MSG_time_cds.cpp:101-121 `MSG_time_cds_short::get_timestring` -/
def shortText (c : CdsShort) : Bytes :=
  let (y, m, d, h, mi) := XritDataset.gmtime c.unixtime
  strftime y m d h mi ((c.unixtime + 378691200).toNat % 60 : Nat) ++ str " +" ++ fmt0 3 c.usecs ++ str " msecs"

/-- `times.insert(24, temp)`: an exception if the text is shorter. -/
def insert24 (times temp : Bytes) : Outcome Bytes :=
  if times.length < 24 then .throws "std::out_of_range" else .ok (times.take 24 ++ temp ++ times.drop 24)

/-- msat/hrit/MSG_time_cds.cpp:289-309 `MSG_time_cds::get_timestring` -/
def cdsText (c : CdsShort × Nat) : Outcome Bytes := insert24 (shortText c.1) (str "." ++ fmt0 3 c.2)

/-- msat/hrit/MSG_time_cds.cpp:226-246 `MSG_time_cds_expanded::get_timestring` -/
def expandedText (c : CdsShort × Nat × Nat) : Outcome Bytes :=
  insert24 (shortText c.1) (str "." ++ fmt0 3 c.2.1 ++ fmt0 3 c.2.2)

/-- msat/hrit/MSG_time_cds.cpp:167-175 `MSG_time_cuc::get_coarse_time` of the seven bytes of a time -/
def coarseText (t : Bytes) : Bytes :=
  fmt0 3 (t.getD 0 0).toNat ++ str " " ++ fmt0 3 (t.getD 1 0).toNat ++ str " " ++ fmt0 3 (t.getD 2 0).toNat ++ str " " ++
    fmt0 3 (t.getD 3 0).toNat

/-- msat/hrit/MSG_time_cds.cpp:177-184 `MSG_time_cuc::get_fine_time` -/
def fineText (t : Bytes) : Bytes :=
  fmt0 3 (t.getD 4 0).toNat ++ str " " ++ fmt0 3 (t.getD 5 0).toNat ++ str " " ++ fmt0 3 (t.getD 6 0).toNat

/-! ### Generalized times -/

/-- What is used of `struct tm`: the years from 1900, the months from 0. -/
structure Tm where
  year : Int
  mon : Int
  mday : Int
  hour : Int
  min : Int
  sec : Int
deriving DecidableEq, Repr

/-- msat/hrit/MSG_time_cds.cpp:326-329: a new object. -/
def Tm.new : Tm := ⟨0, 0, 0, 0, 0, 0⟩

/-- `"%4d%2d%2d%2d%2d%2dZ"`, msat/hrit/MSG_time_cds.cpp:341. -/
def generalizedFormat : List Directive :=
  [.int (some 4), .int (some 2), .int (some 2), .int (some 2), .int (some 2), .int (some 2), .lit 90]

/-- What `sscanf` assigns: as many members as it could read. -/
def assign (t : Tm) (vs : List Int) : Tm :=
  { year := vs.getD 0 t.year, mon := vs.getD 1 t.mon, mday := vs.getD 2 t.mday, hour := vs.getD 3 t.hour,
    min := vs.getD 4 t.min, sec := vs.getD 5 t.sec }

/-- msat/hrit/MSG_time_cds.cpp:339-348 `MSG_time_generalized::read_from`; `buff` is what there is in memory from the time
on.  `sscanf` needs a text that ends with a zero. -/
def readGeneralized (t : Tm) (buff : Bytes) : Outcome Tm :=
  if 0 ∈ buff then
    let t := assign t (scanf generalizedFormat (buff.takeWhile (· ≠ 0)))
    .ok { t with year := t.year - 1900, mon := t.mon - 1 }
  else .ub

/-- msat/hrit/MSG_time_cds.cpp:350-353 `get_unixtime`; `mktime` of year, month from 1, day, hour, minute and second. -/
def generalizedUnixtime (mktime : Int → Int → Int → Int → Int → Int → Int) (t : Tm) : Int :=
  mktime (t.year + 1900) (t.mon + 1) t.mday t.hour t.min t.sec

/-- msat/hrit/MSG_time_cds.cpp:360-376 `get_timestring` -/
def generalizedText (t : Tm) : Bytes := strftime (t.year + 1900) (t.mon + 1) t.mday t.hour t.min t.sec

/-! ### Addresses of texts -/

/-- A text in memory: it is there as long as the object that holds it. -/
structure Held where
  text : Bytes
  alive : Bool
deriving DecidableEq, Repr

/-- `return (char_1 *) get_timestring( ).c_str( );`, msat/hrit/MSG_time_cds.cpp:123-126, 248-251, 311-314, 378-381: the address of
the text of a temporary, which ends with the statement. -/
def timechar (timestring : Bytes) : Held :=
  let temporary : Held := ⟨timestring, true⟩
  { temporary with alive := false }

/-- Reading a text through its address. -/
def Held.read (p : Held) : Outcome Bytes := if p.alive then .ok p.text else .ub

end Msat.TimeTexts
