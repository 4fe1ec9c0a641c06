import Verif.Model.HriMachine
import Verif.Model.Datetime
import Verif.Spec.Calendar

/-
msat/hri/HRI_subframe_identification.cpp, HRI_subframe_keyslot.cpp, HRI_subframe_interpretation.cpp: what the header of an HRI file
says.  `throw;` without an active exception ends the program: `terminate`.
-/
namespace Msat.Hri
open Msat

/-! ### Dates -/

/-- The year and the day of the year, from 0, of a number of days from the beginning of year `y`. -/
def yearOf (y n : Nat) : Nat × Nat :=
  if n < 365 then (y, n)
  else if n = 365 ∧ Spec.isLeap y then (y, n)
  else yearOf (y + 1) (n - (if Spec.isLeap y then 366 else 365))
termination_by n
decreasing_by split <;> omega

/-- The month and the day, from 1, of a day of the year, from month `m`; `k` months are left. -/
def monthOf (y : Nat) : Nat → Nat → Nat → Nat × Nat
  | 0, m, n => (m, n + 1)
  | k + 1, m, n => if n < Spec.daysInMonth y m then (m, n + 1) else monthOf y k (m + 1) (n - Spec.daysInMonth y m)

/-- `gmtime` of the C library: year, month, day.  Times before 1970 are not modelled: the first day of 1970 stands for all of them. -/
def gmtimeDate (t : Int) : Nat × Nat × Nat :=
  let (y, n) := yearOf 1970 (t / 86400).toNat
  let (m, d) := monthOf y 12 1 n
  (y, m, d)

/-! ### Identification -/

/-- msat/hri/HRI_subframe_identification.h:38-66: the members that are read.  `satellite` is the name; `weekday` is the `tm_wday` that
the text `datetime` is made with. -/
structure Ident where
  satellite : List Char
  meteosatId : Int
  indicator : UInt8 × UInt8
  year : Int
  month : Int
  day : Int
  hour : Int
  minute : Int
  weekday : Int
  julianDay : Nat
  nominalTime : Nat
  columnOffset : Nat
  lineOffset : Nat
  longitude : Int
deriving DecidableEq, Repr

/-- msat/hri/HRI_subframe_identification.cpp:43-78: name and number of the satellite. -/
def satelliteOf (b0 b1 : UInt8) : Outcome (List Char × Int) :=
  if b0 = 212 then
    if 240 < b1 then
      .ok ("METEOSAT".toList ++ '-' :: (toString (b1.toNat - 240)).toList, (b1.toNat : Int) - 240)
    else .ok ("METEOSAT".toList, 1)
  else if b0 = 0 then
    if b1 = 0 then .ok ("GOES-E".toList, -1)
    else if b1 = 1 then .ok ("GOES-W".toList, -1)
    else if b1 = 2 then .ok ("GMS".toList, -1)
    else if b1 = 3 then .ok ("GOMS".toList, -1)
    else .terminate
  else .terminate

/-- Assignment of a `short` to an `unsigned short`. -/
def toUshort (v : Int) : Nat := (v % 65536).toNat

/-- msat/hri/HRI_subframe_identification.cpp:80-90: month and day.  `utcoff` is how much local time is ahead of UTC, in seconds, at noon
of the first of January; the product is computed on `int`. -/
def monthDayOf (utcoff : Int) (year : Int) (julianDay : Nat) : Outcome (Nat × Nat) :=
  let seconds : Int := (julianDay - 1 : Int) * 24 * 60 * 60
  if seconds < 2 ^ 31 then
    let jtime := Datetime.mktimeUTC year 1 1 12 0 0 - utcoff + seconds
    .ok (gmtimeDate jtime).2
  else .ub

/-- msat/hri/HRI_subframe_identification.cpp:38-112 `readfrom` -/
def readIdent (machine : Bool) (utcoff : Int) (hsi : Bytes) : Outcome Ident :=
  match hsi with
  | b0 :: b1 :: _ => do
    let (name, n) ← satelliteOf b0 b1
    let year ← i2FromBuff machine (hsi.drop 2)
    let jd ← i2FromBuff machine (hsi.drop 4)
    let julianDay := toUshort jd
    let (month, day) ← monthDayOf utcoff year julianDay
    let nt ← i2FromBuff machine (hsi.drop 6)
    let nominalTime := toUshort nt
    let hour := nominalTime / 100
    let minute := nominalTime - hour * 100
    let co ← i2FromBuff machine (hsi.drop 20)
    let lo ← i2FromBuff machine (hsi.drop 22)
    let lon ← i2FromBuff machine (hsi.drop 24)
    pure ⟨name, n, (b0, b1), year, month, day, hour, minute, 0, julianDay, nominalTime, toUshort co, toUshort lo, lon⟩
  | _ => .ub

namespace Ident
/-- msat/hri/HRI_subframe_identification.cpp:114-118 -/
def isMeteosat (i : Ident) : Bool := 0 < i.indicator.1
/-- msat/hri/HRI_subframe_identification.cpp:120-125 -/
def isGOES_E (i : Ident) : Bool := i.indicator.1 == 0 && i.indicator.2 == 0
/-- msat/hri/HRI_subframe_identification.cpp:127-132 -/
def isGOES_W (i : Ident) : Bool := i.indicator.1 == 0 && i.indicator.2 == 1
/-- msat/hri/HRI_subframe_identification.cpp:134-139 -/
def isGMS (i : Ident) : Bool := i.indicator.1 == 0 && i.indicator.2 == 2
/-- msat/hri/HRI_subframe_identification.cpp:141-146 -/
def isGOMS (i : Ident) : Bool := i.indicator.1 == 0 && i.indicator.2 == 3
end Ident

/-! ### Keys -/

/-- msat/hri/HRI_subframe_keyslot.h:35-40 `HRI_keyslot` -/
structure KeySlot where
  usage : Bool
  keyNumber : Nat
  stationNumber : Nat
  messageKey : Bytes
deriving DecidableEq, Repr

/-- All the members zero. -/
def KeySlot.zero : KeySlot := ⟨false, 0, 0, List.replicate 8 0⟩

/-- msat/hri/HRI_subframe_keyslot.cpp:41-58: one key, from 12 bytes. -/
def readKey (b : Bytes) : Outcome KeySlot :=
  match b with
  | b0 :: b1 :: b2 :: b3 :: b4 :: b5 :: b6 :: b7 :: b8 :: b9 :: b10 :: b11 :: _ =>
    if b0 ≠ 0 then .ok ⟨true, b1.toNat, 16 * b2.toNat + b3.toNat, [b4, b5, b6, b7, b8, b9, b10, b11]⟩
    else .ok KeySlot.zero
  | _ => .ub

/-- The loop of `readfrom` from key `120 - n`. -/
def readKeysFrom : Nat → Bytes → Outcome (List KeySlot)
  | 0, _ => .ok []
  | n + 1, b => do
    let k ← readKey b
    let ks ← readKeysFrom n (b.drop 12)
    pure (k :: ks)

/-- msat/hri/HRI_subframe_keyslot.cpp:37-60 `readfrom` -/
def readKeys (buff : Bytes) : Outcome (List KeySlot) := readKeysFrom 120 buff

/-- msat/hri/HRI_subframe_keyslot.cpp:62-70 `has_keys` -/
def hasKeys (keys : List KeySlot) (station : Int) : Bool := keys.any fun k => k.usage && (k.stationNumber : Int) == station

/-- msat/hri/HRI_subframe_keyslot.cpp:72-83 `get_key` -/
def getKey (keys : List KeySlot) (station keynum : Int) : KeySlot :=
  (keys.find? fun k => k.usage && (k.stationNumber : Int) == station && (k.keyNumber : Int) == keynum).getD KeySlot.zero

/-! ### Interpretation -/

/-- How a member is read. -/
inductive Kind where
  | r4c6 | r4c3 | r4fc3 | r4c5 | r4fc5 | i2c3 | i2c2
  | r8 | r4 | i4 | i2 | flag
deriving DecidableEq, Repr

/-- A value of a member: a number, the bits of an IEEE number, a flag. -/
inductive Value where
  | num (v : Rat)
  | int (v : Int)
  | bits (n : Nat)
  | flag (b : Bool)
deriving DecidableEq, Repr

/-- Bytes that a member takes. -/
def Kind.size : Kind → Nat
  | .r4c6 => 6 | .r4c3 => 3 | .r4fc3 => 3 | .r4c5 => 5 | .r4fc5 => 5 | .i2c3 => 3 | .i2c2 => 2
  | .r8 => 8 | .r4 => 4 | .i4 => 4 | .i2 => 2 | .flag => 1

/-- One member: which function of `HRI_machine` reads it. -/
def readValue (longSize : Nat) (machine : Bool) (k : Kind) (b : Bytes) : Outcome Value :=
  match k with
  | .r4c6 => do pure (.num (← r4FromChar6 b))
  | .r4c3 => do pure (.num (← r4FromChar3 b))
  | .r4fc3 => do pure (.num (← r4fFromChar3 b))
  | .r4c5 => do pure (.num (← r4FromChar5 b))
  | .r4fc5 => do pure (.num (← r4fFromChar5 b))
  | .i2c3 => do pure (.num (← i2FromChar3 b))
  | .i2c2 => do pure (.num (← i2FromChar2 b))
  | .r8 => do pure (.bits (← r8FromBuff longSize machine b))
  | .r4 => do pure (.bits (← r4FromBuff longSize machine b))
  | .i4 => do pure (.int (← i4FromBuff machine b))
  | .i2 => do pure (.int (← i2FromBuff machine b))
  | .flag => match b with
    | c :: _ => .ok (.flag (c ≠ 0))
    | [] => .ub

/-- msat/hri/HRI_subframe_interpretation.cpp:44-169: the members, how and where they are read, in the order of the code. -/
def members : List (String × Kind × Nat) :=
  [("cal.bbc1ir", .r4c6, 0), ("cal.bbsd1i", .r4c3, 6), ("cal.bbc1wv", .r4c6, 9), ("cal.bbsd1w", .r4c3, 15),
   ("cal.bb1t", .r4c5, 18), ("cal.bb2t", .r4c5, 23), ("cal.bbc2ir", .r4c6, 28), ("cal.bbsd2i", .r4c3, 34),
   ("cal.bbc2wv", .r4c6, 37), ("cal.bbsd2w", .r4c3, 43), ("cal.time1_day", .i2c3, 46), ("cal.time1_slot", .i2c2, 49),
   ("cal.calir", .r4fc5, 51), ("cal.irspc", .r4fc3, 56), ("cal.time2_day", .i2c3, 59), ("cal.time2_slot", .i2c2, 62),
   ("cal.calwv", .r4fc5, 64), ("cal.wvspc", .r4fc3, 69), ("cal.time3_day", .i2c3, 72), ("cal.time3_slot", .i2c2, 75),
   ("cal.ir_gain", .i2c2, 92), ("cal.wv_gain", .i2c2, 94), ("cal.v1_gain", .i2c2, 96), ("cal.v2_gain", .i2c2, 98),
   ("oper.degsra", .r8, 104), ("oper.degsde", .r8, 112), ("oper.degnra", .r8, 120), ("oper.degnde", .r8, 128),
   ("oper.finatt_x", .r8, 136), ("oper.finatt_y", .r8, 144), ("oper.finatt_z", .r8, 152), ("oper.farade_1", .r8, 160),
   ("oper.farade_2", .r8, 168), ("oper.nrslot", .i4, 176), ("oper.spndur", .r4, 180), ("oper.flecl", .flag, 184),
   ("oper.fldec", .flag, 185), ("oper.flman", .flag, 186), ("oper.flmode", .flag, 187), ("oper.flir1", .flag, 188),
   ("oper.flir2", .flag, 189), ("oper.flwv1", .flag, 190), ("oper.flwv2", .flag, 191), ("oper.flvis1", .flag, 192),
   ("oper.flvis2", .flag, 193), ("oper.flvis3", .flag, 194), ("oper.flvis4", .flag, 195), ("imag.imstat_1", .flag, 232),
   ("imag.imstat_2", .flag, 233), ("imag.imstat_3", .flag, 234), ("imag.imstat_4", .flag, 235),
   ("imag.imstat_5", .flag, 236), ("imag.imstat_6", .flag, 237), ("imag.imstat_7", .flag, 238),
   ("imag.imstat_8", .flag, 239), ("imag.imstat_9", .flag, 240), ("imag.imstat_10", .flag, 241),
   ("imag.imstat_11", .flag, 242), ("imag.limhor_1", .i2, 248), ("imag.limhor_2", .i2, 250), ("imag.limhor_3", .i2, 252),
   ("imag.limhor_4", .i2, 254), ("imag.limhor_5", .i2, 256), ("imag.limhor_6", .i2, 258), ("imag.limhor_7", .i2, 260),
   ("imag.limhor_8", .i2, 262), ("imag.limhor_9", .i2, 264), ("imag.limhor_10", .i2, 266), ("imag.limhor_11", .i2, 268),
   ("imag.limhor_12", .i2, 270), ("imag.satdis", .r8, 272), ("imag.sorbof_x", .r8, 280), ("imag.sorbof_y", .r8, 288),
   ("imag.sorbof_z", .r8, 296), ("imag.norbof_x", .r8, 304), ("imag.norbof_y", .r8, 312), ("imag.norbof_z", .r8, 320),
   ("imag.xddifm", .r4, 328), ("imag.yddifm", .r4, 332), ("imag.xscm", .r4, 336), ("imag.yscm", .r4, 340),
   ("imag.conds_1", .flag, 344), ("imag.conds_2", .flag, 345), ("imag.conds_3", .flag, 346), ("imag.conds_4", .flag, 347),
   ("imag.lowdyn_ir", .i2, 348), ("imag.lowdyn_v1", .i2, 350), ("imag.lowdyn_v2", .i2, 352), ("imag.lowdyn_wv", .i2, 354),
   ("imag.higdyn_ir", .i2, 356), ("imag.higdyn_v1", .i2, 358), ("imag.higdyn_v2", .i2, 360), ("imag.higdyn_wv", .i2, 362),
   ("imag.mvis1", .r4, 364), ("imag.mvis2", .r4, 368), ("imag.snnom_ir", .r4, 372), ("imag.snnom_v1", .r4, 376),
   ("imag.snnom_v2", .r4, 380), ("imag.snnom_wv", .r4, 384), ("imag.snnlin", .i4, 388), ("imag.snrep_ir", .r4, 392),
   ("imag.snrep_v1", .r4, 396), ("imag.snrep_v2", .r4, 400), ("imag.snrep_wv", .r4, 404), ("imag.snrwp_ir", .r4, 408),
   ("imag.snrwp_v1", .r4, 412), ("imag.snrwp_v2", .r4, 416), ("imag.snrwp_wv", .r4, 420), ("imag.swmnep_ir", .r4, 424),
   ("imag.swmnep_v1", .r4, 428), ("imag.swmnep_v2", .r4, 432), ("imag.swmnep_wv", .r4, 436), ("imag.swmnwp_ir", .r4, 440),
   ("imag.swmnwp_v1", .r4, 444), ("imag.swmnwp_v2", .r4, 448), ("imag.swmnwp_wv", .r4, 452), ("imag.snmxep_ir", .i2, 456),
   ("imag.snmxep_v1", .i2, 458), ("imag.snmxep_v2", .i2, 460), ("imag.snmxep_wv", .i2, 462), ("imag.snmxwp_ir", .i2, 466),
   ("imag.snmxwp_v1", .i2, 466), ("imag.snmxwp_v2", .i2, 468), ("imag.snmxwp_wv", .i2, 470)]

/-- msat/hri/HRI_subframe_interpretation.cpp:37-173 `readfrom`: the members and the administrative message. -/
def readInterp (longSize : Nat) (machine : Bool) (hsi : Bytes) : Outcome (List (String × Value) × Bytes) := do
  let vs ← readMembers longSize machine hsi members
  if 1360 ≤ hsi.length then pure (vs, (hsi.drop 560).take 800) else .ub
where
  readMembers (longSize : Nat) (machine : Bool) (hsi : Bytes) : List (String × Kind × Nat) → Outcome (List (String × Value))
    | [] => .ok []
    | (name, kind, off) :: ms => do
      let v ← readValue longSize machine kind (hsi.drop off)
      let vs ← readMembers longSize machine hsi ms
      pure ((name, v) :: vs)

end Msat.Hri
