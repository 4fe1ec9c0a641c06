import Verif.Model.Basic

/-
msat/utils/sys.cc: `timesec_elapsed`.  `time_t` and `long` have 64 bits; their overflow is undefined.
-/
namespace Msat.Sys

/-- `timespec` -/
structure Timespec where
  sec : Int
  nsec : Int
deriving DecidableEq, Repr

/-- The result of an operation on signed numbers of 64 bits. -/
def i64 (v : Int) : Outcome Int := if -(2 ^ 63) ≤ v ∧ v < 2 ^ 63 then .ok v else .ub

/-- Conversion to `unsigned long long`. -/
def toU64 (v : Int) : Nat := (v % 2 ^ 64).toNat

/-- msat/utils/sys.cc:1285-1301 `timesec_elapsed` -/
def timesecElapsed (b u : Timespec) : Outcome Nat :=
  if b.sec > u.sec then .ok 0
  else if b.sec = u.sec then
    if b.nsec > u.nsec then .ok 0
    else do
      let d ← i64 (u.nsec - b.nsec)
      pure (toU64 d)
  else if u.nsec < b.nsec then do
    let s ← i64 (u.sec - b.sec)
    let s ← i64 (s - 1)
    let s ← i64 (s * 1000000000)
    let n ← i64 (u.nsec + 1000000000)
    let n ← i64 (n - b.nsec)
    let r ← i64 (s + n)
    pure (toU64 r)
  else do
    let s ← i64 (u.sec - b.sec)
    let s ← i64 (s * 1000000000)
    let r ← i64 (s + u.nsec)
    let r ← i64 (r - b.nsec)
    pure (toU64 r)

end Msat.Sys
