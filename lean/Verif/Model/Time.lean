import Verif.Model.Machine

/-
msat/hrit/MSG_time_cds.cpp: CCSDS time codes.
-/
namespace Msat.Time
open Machine

/-- Members of `MSG_time_cds_short`, msat/hrit/MSG_time_cds.h:104-110. -/
structure CdsShort where
  day : Nat       -- day_from_epoch
  msec : Nat      -- msec_in_day
  unixtime : Int
  usecs : Nat
deriving DecidableEq, Repr

/-- msat/hrit/MSG_time_cds.cpp:54-69 `MSG_time_cds_short::read_from` on decoded fields.
`time_t` is 64 bit: no overflow is possible for a 16-bit day. -/
def cdsShortOf (day msec : Nat) : CdsShort :=
  let secsFrom1958 : Int := 86400 * day
  let secsInDay := msec / 1000
  { day := day, msec := msec, usecs := msec % 1000,
    unixtime := secsFrom1958 + secsInDay + (-378691200) }

/-- msat/hrit/MSG_time_cds.cpp:54-69 `MSG_time_cds_short::read_from(buff)` (returns 6). -/
def cdsShort (buf : Bytes) (off : Nat) : Outcome CdsShort := do
  let day ← ui2 buf off
  let msec ← ui4 buf (off + 2)
  pure (cdsShortOf day msec)

/-- msat/hrit/MSG_time_cds.cpp:208-214 `MSG_time_cds_expanded::read_from` (returns 10):
short time, microseconds, nanoseconds. -/
def cdsExpanded (buf : Bytes) (off : Nat) : Outcome (CdsShort × Nat × Nat) := do
  let s ← cdsShort buf off
  let us ← ui2 buf (off + 6)
  let ns ← ui2 buf (off + 8)
  pure (s, us, ns)

/-- msat/hrit/MSG_time_cds.cpp:277-282 `MSG_time_cds::read_from` (returns 8). -/
def cds (buf : Bytes) (off : Nat) : Outcome (CdsShort × Nat) := do
  let s ← cdsShort buf off
  let us ← ui2 buf (off + 6)
  pure (s, us)

/-- msat/hrit/MSG_time_cds.cpp:152-160 `MSG_time_cuc::read_from`: the value as a number of 2^-24
seconds.  The C++ sums doubles; every partial sum is an integer multiple of 2^-24 below 2^32, hence
exact with 56 bits only when the low bits allow: here the exact (unrounded) value is modelled. -/
def cuc24 (buf : Bytes) (off : Nat) : Outcome Nat := do
  match buf.drop off with
  | c0 :: c1 :: c2 :: c3 :: c4 :: c5 :: c6 :: _ =>
    .ok ((256 ^ 3 * c0.toNat + 256 ^ 2 * c1.toNat + 256 * c2.toNat + c3.toNat) * 256 ^ 3
      + c4.toNat * 256 ^ 2 + c5.toNat * 256 + c6.toNat)
  | _ => .ub

end Msat.Time
