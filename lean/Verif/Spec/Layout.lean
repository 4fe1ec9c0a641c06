import Verif.Model.Layout
import Verif.Spec.Bytes

/-
Specification of a binary layout: fields one after the other, without gaps except for declared
spare bytes.
-/
namespace Msat.Layout
open Spec

/-- Width in bytes of a field. -/
def Kind.width : Kind → Nat
  | .u1 | .flag => 1
  | .u2 => 2
  | .u4 | .i4 | .r4 => 4
  | .r8 | .t8 => 8
  | .t6 => 6
  | .t10 => 10
  | .cuc => 7
  | .mem n _ => n

/-- A layout.  A structure is a chain of `field`s (or `skip`s) ended by `done`. -/
inductive Lay where
  | prim (k : Kind)
  | arr (n : Nat) (l : Lay)
  | field (name : String) (l rest : Lay)
  | skip (n : Nat) (rest : Lay)
  | done

namespace Lay

/-- Number of bytes. -/
def size : Lay → Nat
  | prim k => k.width
  | arr n l => n * l.size
  | field _ l rest => l.size + rest.size
  | skip n rest => n + rest.size
  | done => 0

/-- The fields of the layout when it starts at offset `base`. -/
def reads : Lay → Nat → List Read
  | prim k, base => [⟨[], base, k⟩]
  | arr n l, base => (List.range n).flatMap fun j => (l.reads (base + j * l.size)).map (Read.under [.i j])
  | field nm l rest, base => (l.reads base).map (Read.under [.f nm]) ++ rest.reads (base + l.size)
  | skip n rest, base => rest.reads (base + n)
  | done, _ => []

/-- Spare bytes of a layout. -/
def spareBytes : Lay → Nat
  | prim _ => 0
  | arr n l => n * l.spareBytes
  | field _ l rest => l.spareBytes + rest.spareBytes
  | skip n rest => n + rest.spareBytes
  | done => 0

/-- A structure given by its list of members. -/
def struct : List (String × Lay) → Lay
  | [] => done
  | (nm, l) :: r => field nm l (struct r)

end Lay

/-- The values a field of a given kind can hold. -/
def Kind.InRange : Kind → Val → Prop
  | .u1, .nat v => v < 2 ^ 8
  | .flag, .nat v => v < 2
  | .u2, .nat v => v < 2 ^ 16
  | .u4, .nat v | .r4, .nat v => v < 2 ^ 32
  | .r8, .nat v => v < 2 ^ 64
  | .i4, .int v => -2 ^ 31 ≤ v ∧ v < 2 ^ 31
  | .t6, .time d m u n => d < 2 ^ 16 ∧ m < 2 ^ 32 ∧ u = 0 ∧ n = 0
  | .t8, .time d m u n => d < 2 ^ 16 ∧ m < 2 ^ 32 ∧ u < 2 ^ 16 ∧ n = 0
  | .t10, .time d m u n => d < 2 ^ 16 ∧ m < 2 ^ 32 ∧ u < 2 ^ 16 ∧ n < 2 ^ 16
  | .cuc, .nat v => v < 2 ^ 56
  | .mem n cap, .bytes b => b.length = n ∧ n ≤ cap
  | _, _ => False

/-- Big-endian bytes of a value. -/
def Kind.encode : Kind → Val → Bytes
  | .u1, .nat v | .flag, .nat v => encBE 1 v
  | .u2, .nat v => encBE 2 v
  | .u4, .nat v | .r4, .nat v => encBE 4 v
  | .r8, .nat v => encBE 8 v
  | .i4, .int v => encBE 4 (pattern 32 v)
  | .t6, .time d m _ _ => encBE 2 d ++ encBE 4 m
  | .t8, .time d m u _ => encBE 2 d ++ encBE 4 m ++ encBE 2 u
  | .t10, .time d m u n => encBE 2 d ++ encBE 4 m ++ encBE 2 u ++ encBE 2 n
  | .cuc, .nat v => encBE 7 v
  | .mem _ _, .bytes b => b
  | _, _ => []

/-- The `n` spare bytes of a record, whose content is arbitrary. -/
def spare (n : Nat) : Val → Bytes
  | .bytes b => (b ++ List.replicate n 0).take n
  | _ => List.replicate n 0

/-- Bytes of a record whose members have the values given by `ρ` (the value at path `[]` of a
`skip` is the content of the spare bytes). -/
def Lay.encode : Lay → (Path → Val) → Bytes
  | prim k, ρ => k.encode (ρ [])
  | arr n l, ρ => (List.range n).flatMap fun j => l.encode (fun p => ρ (.i j :: p))
  | field nm l rest, ρ => l.encode (fun p => ρ (.f nm :: p)) ++ rest.encode ρ
  | skip n rest, ρ => spare n (ρ [.f "spare"]) ++ rest.encode ρ
  | done, _ => []

/-- Every member has a value its field can hold. -/
def Lay.InRange (l : Lay) (ρ : Path → Val) : Prop := ∀ r ∈ l.reads 0, r.kind.InRange (ρ r.path)

end Msat.Layout
