import Verif.Model.Locks

/-
Locks in words of the documentation of fcntl(2) and of msat/utils/sys.h:294-318.
-/
namespace Msat.LocksSpec
open Msat.Locks

/-- The bytes of a request: `len` bytes from `start`, those before it if `len` is negative, and all from it if `len` is zero. -/
def Covers (lk : Flock) (b : Nat) : Prop :=
  if 0 < lk.len then lk.start ≤ b ∧ (b : Int) < lk.start + lk.len
  else if lk.len < 0 then lk.start + lk.len ≤ b ∧ (b : Int) < lk.start
  else lk.start ≤ b

/-- A request that can be made with a descriptor: the bytes exist, the descriptor is open for what is asked for. -/
structure Sensible (d : Descriptor) (lk : Flock) : Prop where
  start : 0 ≤ lk.start
  first : 0 ≤ lk.start + lk.len
  last : lk.start + lk.len ≤ 2 ^ 63
  fresh : lk.pid = 0
  reads : lk.kind = .read → d.reads = true
  writes : lk.kind = .write → d.writes = true

/-- Someone has a lock of a byte, to write or only to read. -/
def Holds (t : Table) (o b : Nat) (write : Bool) : Prop :=
  ∃ e ∈ t, e.owner = o ∧ e.write = write ∧ e.first ≤ b ∧ ∀ s, e.stop = some s → b < s

/-- Nobody else has a lock that is in the way: for reading, none to write; for writing, none at all. -/
def Free (t : Table) (o : Nat) (lk : Flock) : Prop :=
  lk.kind ≠ .unlock → ∀ b, Covers lk b → ∀ o' write, o' ≠ o → Holds t o' b write → write = false ∧ lk.kind = .read

/-- After a request has been granted: the bytes of the request have the lock that was asked for, everything else is as before. -/
def Granted (t t' : Table) (o : Nat) (lk : Flock) : Prop :=
  ∀ o' b write, (o' = o ∧ Covers lk b → (Holds t' o' b write ↔ lk.kind = .write ∧ write = true ∨ lk.kind = .read ∧ write = false)) ∧
    (¬ (o' = o ∧ Covers lk b) → (Holds t' o' b write ↔ Holds t o' b write))

/-- Nobody can write what another reads or writes. -/
def Exclusive (t : Table) : Prop :=
  ∀ b o o' write write', Holds t o b write → Holds t o' b write' → o ≠ o' → write = false ∧ write' = false

end Msat.LocksSpec
