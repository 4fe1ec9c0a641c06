import Verif.Model.Time

/-
The shape shared by all the `read_from(buff)` members of msat/hrit/MSG_data_*.cpp: straight-line
code that reads fields at computed offsets, advances a local `position` and returns a length.
A body is modelled as the list of reads it makes (its *plan*) together with its return value.
Simplification: destination members are named by a path, they are not a typed C++ object.
-/
namespace Msat.Layout
open Machine Time

/-- One step of the name of a member: a field name or an array index. -/
inductive Key where
  | f (name : String)
  | i (idx : Nat)
deriving DecidableEq, Repr

/-- Name of a member, as in `Orbit.OrbitPoliniomal[3].X[2]`. -/
abbrev Path := List Key

/-- How a member is decoded from the buffer. -/
inductive Kind where
  /-- `*(buff+off)` or `get_ui1`: one byte (also enumerations stored on one byte). -/
  | u1
  /-- `*(buff+off) ? true : false` -/
  | flag
  /-- `get_ui2` -/
  | u2
  /-- `get_ui4` -/
  | u4
  /-- `get_i4` -/
  | i4
  /-- `get_r4`, as a bit pattern -/
  | r4
  /-- `get_r8`, as a bit pattern -/
  | r8
  /-- `MSG_time_cds_short::read_from` -/
  | t6
  /-- `MSG_time_cds::read_from` -/
  | t8
  /-- `MSG_time_cds_expanded::read_from` -/
  | t10
  /-- `MSG_time_cuc::read_from` -/
  | cuc
  /-- `memcpy(dst, buff+off, n)` into an object of `cap` bytes.  Also used for
  `MSG_time_generalized::read_from` (msat/hrit/MSG_time_cds.cpp:339-348): the 15 characters are
  kept raw, their `sscanf` interpretation is not modelled. -/
  | mem (n cap : Nat)
deriving DecidableEq, Repr

/-- A decoded value. -/
inductive Val where
  | nat (n : Nat)
  | int (i : Int)
  | bytes (b : Bytes)
  | time (day msec usec nsec : Nat)
deriving DecidableEq, Repr

/-- Value stored by a read of kind `k` at offset `off` of the buffer. -/
def readField (k : Kind) (buf : Bytes) (off : Nat) : Outcome Val :=
  match k with
  | .u1 => do let v ← ui1 buf off; pure (.nat v)
  | .flag => do let v ← ui1 buf off; pure (.nat (if v ≠ 0 then 1 else 0))
  | .u2 => do let v ← ui2 buf off; pure (.nat v)
  | .u4 => do let v ← ui4 buf off; pure (.nat v)
  | .i4 => do let v ← Machine.i4 buf off; pure (.int v)
  | .r4 => do let v ← ui4 buf off; pure (.nat v)
  | .r8 => do let v ← ui8 buf off; pure (.nat v)
  | .t6 => do let c ← cdsShort buf off; pure (.time c.day c.msec 0 0)
  | .t8 => do let c ← cds buf off; pure (.time c.1.day c.1.msec c.2 0)
  | .t10 => do let c ← cdsExpanded buf off; pure (.time c.1.day c.1.msec c.2.1 c.2.2)
  | .cuc => do let v ← cuc24 buf off; pure (.nat v)
  | .mem n cap => if n ≤ cap then do let b ← slice buf off n; pure (.bytes b) else .ub

/-- One read: destination, offset in the buffer, decoding. -/
structure Read where
  path : Path
  off : Nat
  kind : Kind
deriving DecidableEq, Repr

/-- The same read, of a member of member `ks`. -/
def Read.under (ks : Path) (r : Read) : Read := { r with path := ks ++ r.path }

/-- The reads of a call `read_from(buff + base)`, and its return value. -/
abbrev ReadFrom := Nat → List Read × Nat

/-- A statement of a body: from the address of `buff` and the value of `position`, the reads it
makes and the new value of `position`. -/
abbrev Stmt := Nat → Nat → List Read × Nat

/-- `dst = get(buff + position + off)` -/
def get (dst : Path) (k : Kind) (off : Nat) : Stmt := fun b p => ([⟨dst, b + p + off, k⟩], p)

/-- `position += n` -/
def adv (n : Nat) : Stmt := fun _ p => ([], p + n)

/-- `position += dst.read_from(buff + position)` -/
def call (dst : Path) (f : ReadFrom) : Stmt :=
  fun b p => ((f (b + p)).1.map (Read.under dst), p + (f (b + p)).2)

/-- `(void) dst.read_from(buff + position + off)` -/
def callAt (dst : Path) (f : ReadFrom) (off : Nat) : Stmt :=
  fun b p => ((f (b + p + off)).1.map (Read.under dst), p)

/-- Statements one after the other. -/
def block : List Stmt → Stmt
  | [], _, p => ([], p)
  | s :: ss, b, p =>
    let r := s b p
    let r' := block ss b r.2
    (r.1 ++ r'.1, r'.2)

/-- `for (int i = 0; i < n; i ++) body(i)` -/
def loop : Nat → (Nat → Stmt) → Stmt
  | 0, _, _, p => ([], p)
  | n + 1, body, b, p =>
    let r := loop n body b p
    let r' := body n b r.2
    (r.1 ++ r'.1, r'.2)

/-- A `read_from` body ending with `return position`. -/
def body (ss : List Stmt) : ReadFrom := fun b => block ss b 0

/-- A `read_from` body ending with `return n` for a constant `n`. -/
def bodyRet (ss : List Stmt) (n : Nat) : ReadFrom := fun b => ((block ss b 0).1, n)

/-- Making the reads of a plan one after the other: the members assigned, in order, with their
values; undefined behaviour as soon as one read is undefined. -/
def runReads : List Read → Bytes → Outcome (List (Path × Val))
  | [], _ => .ok []
  | r :: rs, buf => do
    let v ← readField r.kind buf r.off
    let rest ← runReads rs buf
    pure ((r.path, v) :: rest)

/-- Calling `read_from(buff + base)`: the members assigned and the value returned. -/
def run (f : ReadFrom) (buf : Bytes) (base : Nat) : Outcome (List (Path × Val) × Nat) := do
  let vs ← runReads (f base).1 buf
  pure (vs, (f base).2)

end Msat.Layout
