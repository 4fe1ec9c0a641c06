import Verif.Model.Sys

/-
msat/utils/sys.cc: the objects that own memory mappings and file descriptors.

An object is a place in memory: `none` is no object, `some none` an object that owns nothing, `some (some r)` one
that owns `r`.  What the kernel answers is given with each operation.  Operations on objects that do not exist
(which no C++ program writes) do nothing.
-/
namespace Msat.Owners
open Sys (upd)

/-! ### MMap -/

/-- The objects, the mappings that have been made, and those released, in order.  Every mapping has a number of its
own, also when it is made at the address of an earlier one. -/
structure Maps where
  objs : Nat → Option (Option Nat)
  made : List Nat
  released : List Nat

/-- `munmap(2)`: `none` is an error.  `MAP_FAILED` is not the address of a page: EINVAL. -/
def sysMunmap (s : Maps) (addr : Option Nat) (ok : Bool) : Option Maps :=
  match addr with
  | none => none
  | some m => if ok then some { s with released := s.released ++ [m] } else none

inductive MOp where
  /-- a new mapping, in a new object -/
  | make (o m : Nat)
  /-- `MMap o(std::move(src))` -/
  | move (o src : Nat)
  /-- `dst = std::move(src)` -/
  | assign (dst src : Nat) (ok : Bool)
  | munmap (o : Nat) (ok : Bool)
  | destroy (o : Nat) (ok : Bool)
deriving DecidableEq, Repr

/-- msat/utils/sys.cc:258-263 `MMap::munmap`: the state afterwards and whether it has thrown. -/
def mmapMunmap (s : Maps) (o : Nat) (ok : Bool) : Maps × Bool :=
  match s.objs o with
  | none => (s, false)
  | some addr => match sysMunmap s addr ok with
    | none => (s, true)
    | some s => ({ s with objs := upd s.objs o (some none) }, false)

/-- msat/utils/sys.cc:232-256: constructors, assignment, destructor. -/
def mstep (s : Maps) : MOp → Maps × Bool
  | .make o m =>
    if s.objs o = none ∧ m ∉ s.made then ({ s with objs := upd s.objs o (some (some m)), made := m :: s.made }, false)
    else (s, false)
  | .move o src =>
    match s.objs o, s.objs src with
    | none, some addr => ({ s with objs := upd (upd s.objs o (some addr)) src (some none) }, false)
    | _, _ => (s, false)
  | .assign dst src ok =>
    match s.objs dst, s.objs src with
    | some _, some addr =>
      if dst = src then (s, false)
      else match mmapMunmap s dst ok with
        | (s, true) => (s, true)
        | (s, false) => ({ s with objs := upd (upd s.objs dst (some addr)) src (some none) }, false)
    | _, _ => (s, false)
  | .munmap o ok => mmapMunmap s o ok
  | .destroy o ok =>
    match s.objs o with
    | none => (s, false)
    | some none => ({ s with objs := upd s.objs o none }, false)
    | some (some m) =>
      let s' := (sysMunmap s (some m) ok).getD s
      ({ s' with objs := upd s'.objs o none }, false)

/-! ### ManagedNamedFileDescriptor -/

/-- The objects (each with the descriptor that it holds), the kernel's table of open files, the files closed, in
order.  Every time a file is opened it gets a new number. -/
structure Files where
  objs : Nat → Option (Option Nat)
  table : Nat → Option Nat
  /-- opened by objects -/
  opened : List Nat
  /-- opened elsewhere in the program -/
  others : List Nat
  closed : List Nat

/-- `close(2)`: the file is closed even when an error is reported (as Linux does); a descriptor that is not
open is an error.  The second component says whether 0 is returned. -/
def sysClose (s : Files) (fd : Nat) (ok : Bool) : Files × Bool :=
  match s.table fd with
  | none => (s, false)
  | some f => ({ s with table := upd s.table fd none, closed := s.closed ++ [f] }, ok)

inductive FOp where
  /-- a file is opened by an object, with a descriptor that the kernel chooses -/
  | make (o fd f : Nat)
  /-- a file is opened by another part of the program, which keeps it open -/
  | elsewhere (fd f : Nat)
  | move (o src : Nat)
  | assign (dst src : Nat) (ok : Bool)
  | close (o : Nat) (ok : Bool)
  | destroy (o : Nat) (ok : Bool)
deriving DecidableEq, Repr

/-- msat/utils/sys.cc:293-299 `FileDescriptor::close` -/
def fdClose (s : Files) (o : Nat) (ok : Bool) : Files × Bool :=
  match s.objs o with
  | none => (s, false)
  | some none => (s, false)
  | some (some fd) => match sysClose s fd ok with
    | (s, false) => (s, true)
    | (s, true) => ({ s with objs := upd s.objs o (some none) }, false)

/-- msat/utils/sys.cc:272-277 and 545-560: construction, move, assignment, destructor. -/
def fstep (s : Files) : FOp → Files × Bool
  | .make o fd f =>
    if s.objs o = none ∧ s.table fd = none ∧ f ∉ s.opened ∧ f ∉ s.others then
      ({ s with objs := upd s.objs o (some (some fd)), table := upd s.table fd (some f), opened := f :: s.opened }, false)
    else (s, false)
  | .elsewhere fd f =>
    if s.table fd = none ∧ f ∉ s.opened ∧ f ∉ s.others then
      ({ s with table := upd s.table fd (some f), others := f :: s.others }, false)
    else (s, false)
  | .move o src =>
    match s.objs o, s.objs src with
    | none, some fd => ({ s with objs := upd (upd s.objs o (some fd)) src (some none) }, false)
    | _, _ => (s, false)
  | .assign dst src ok =>
    match s.objs dst, s.objs src with
    | some _, some fd =>
      if dst = src then (s, false)
      else match fdClose s dst ok with
        | (s, true) => (s, true)
        | (s, false) => ({ s with objs := upd (upd s.objs dst (some fd)) src (some none) }, false)
    | _, _ => (s, false)
  | .close o ok => fdClose s o ok
  | .destroy o ok =>
    match s.objs o with
    | none => (s, false)
    | some none => ({ s with objs := upd s.objs o none }, false)
    | some (some fd) =>
      let s' := (sysClose s fd ok).1
      ({ s' with objs := upd s'.objs o none }, false)

end Msat.Owners
