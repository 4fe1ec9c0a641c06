/-
Common vocabulary of the model: C++ outcomes, byte buffers.
-/
namespace Msat

/-- Outcome of running a piece of C++ code.  `ub` is undefined behaviour (out-of-bounds access,
null dereference, division by zero...), `terminate` is `std::terminate` (e.g. `throw;` with no
active exception), `diverges` is a loop that never ends. -/
inductive Outcome (α : Type) where
  | ok (a : α)
  | throws (msg : String)
  | ub
  | terminate
  | diverges
deriving Repr, DecidableEq

namespace Outcome

/-- Sequencing: anything but `ok` stops the computation. -/
def bind {α β : Type} : Outcome α → (α → Outcome β) → Outcome β
  | ok a, f => f a
  | throws m, _ => throws m
  | ub, _ => ub
  | terminate, _ => terminate
  | diverges, _ => diverges

instance : Monad Outcome where
  pure := ok
  bind := bind

/-- The run ended normally or with a C++ exception: what a caller can handle. -/
def Handled {α : Type} : Outcome α → Prop
  | ok _ => True
  | throws _ => True
  | _ => False

/-- The run threw a C++ exception. -/
def Throws {α : Type} : Outcome α → Prop
  | throws _ => True
  | _ => False

instance {α : Type} (o : Outcome α) : Decidable o.Handled := by
  cases o <;> simp only [Handled] <;> infer_instance

instance {α : Type} (o : Outcome α) : Decidable o.Throws := by
  cases o <;> simp only [Throws] <;> infer_instance

@[simp] theorem ok_bind {α β : Type} (a : α) (f : α → Outcome β) : (Outcome.ok a >>= f) = f a := rfl
@[simp] theorem throws_bind {α β : Type} (m : String) (f : α → Outcome β) :
    ((Outcome.throws m : Outcome α) >>= f) = Outcome.throws m := rfl
@[simp] theorem ub_bind {α β : Type} (f : α → Outcome β) :
    ((Outcome.ub : Outcome α) >>= f) = Outcome.ub := rfl
@[simp] theorem terminate_bind {α β : Type} (f : α → Outcome β) :
    ((Outcome.terminate : Outcome α) >>= f) = Outcome.terminate := rfl
@[simp] theorem diverges_bind {α β : Type} (f : α → Outcome β) :
    ((Outcome.diverges : Outcome α) >>= f) = Outcome.diverges := rfl
@[simp] theorem pure_eq {α : Type} (a : α) : (pure a : Outcome α) = Outcome.ok a := rfl

end Outcome

/-- A buffer of `unsigned char`, or the bytes of a `std::string`. -/
abbrev Bytes := List UInt8

/-- The bytes of an ASCII literal (used for literals of the C++ source only). -/
def str (s : String) : Bytes := s.toList.map (fun c => UInt8.ofNat c.toNat)

/-- Access to `n` bytes at offset `off` of a buffer: undefined behaviour outside of it. -/
def slice (buf : Bytes) (off n : Nat) : Outcome Bytes :=
  if off + n ≤ buf.length then .ok ((buf.drop off).take n) else .ub

/-- Subtraction of `unsigned int` (32 bit): wraps around. -/
def u32sub (a b : Nat) : Nat := (a + (2 ^ 32 - b)) % 2 ^ 32

/-- Subtraction of `size_t` (64 bit): wraps around. -/
def u64sub (a b : Nat) : Nat := (a + (2 ^ 64 - b)) % 2 ^ 64

end Msat
