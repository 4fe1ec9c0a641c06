import Verif.Model.Ini

/-
msat/iniparser.c: the memory of dictionaries: what `calloc`, `strdup`, `free` do with the blocks, and the pointers that are handed out.
Model/Ini.lean has the contents of dictionaries; here every string is a block of the heap.

Simplifications: allocation never fails (the code does not check it, except that it would write through null pointers); a freed address is
not allocated again, so that reading through a pointer to a freed block is always noticed (`.ub`); the contents of the blocks of the three arrays
and of the `dictionary` itself are those of `slots` and `n`, not bytes.
-/
namespace Msat.IniHeap
open Msat

/-- The heap: the blocks in use, with the string they hold; blocks from `next` on were never allocated. -/
structure Heap where
  blocks : Nat → Option Bytes
  next : Nat

/-- `calloc`, `strdup` -/
def alloc (m : Heap) (b : Bytes) : Nat × Heap := (m.next, ⟨fun p => if p = m.next then some b else m.blocks p, m.next + 1⟩)

/-- `free` of a pointer that is not null: a second time is undefined. -/
def free (m : Heap) (p : Nat) : Outcome Heap :=
  match m.blocks p with
  | none => .ub
  | some _ => .ok { m with blocks := fun q => if q = p then none else m.blocks q }

/-- Reading the string at a pointer. -/
def load (m : Heap) (p : Nat) : Outcome Bytes :=
  match m.blocks p with
  | none => .ub
  | some b => .ok b

/-- msat/iniparser.h `dictionary`: one position of the arrays `key`, `val` and `hash`. -/
structure Slot where
  key : Option Nat
  val : Option Nat
  hash : UInt32
deriving DecidableEq, Repr

/-- A position as `calloc` makes it. -/
def Slot.zero : Slot := ⟨none, none, 0⟩

/-- msat/iniparser.h `dictionary`, at block `self`, with the arrays at blocks `vals`, `keys`, `hashes`. -/
structure Dict where
  self : Nat
  vals : Nat
  keys : Nat
  hashes : Nat
  n : Int
  slots : List Slot
deriving DecidableEq, Repr

/-- msat/iniparser.c:273-287 `dictionary_new` -/
def new (m : Heap) (size : Nat) : Heap × Dict :=
  let (self, m) := alloc m []
  let (vals, m) := alloc m []
  let (keys, m) := alloc m []
  let (hashes, m) := alloc m []
  (m, ⟨self, vals, keys, hashes, 0, List.replicate (if size < 128 then 128 else size) Slot.zero⟩)

/-- `if (p != NULL) free(p);` -/
def freeOpt (m : Heap) : Option Nat → Outcome Heap
  | none => .ok m
  | some p => free m p

/-- msat/iniparser.c:305-310: the loop of `dictionary_del` -/
def freeSlots (m : Heap) : List Slot → Outcome Heap
  | [] => .ok m
  | s :: ss => do
    let m ← freeOpt m s.key
    let m ← freeOpt m s.val
    freeSlots m ss

/-- msat/iniparser.c:300-317 `dictionary_del`, 982-985 `iniparser_free` -/
def del (m : Heap) (d : Dict) : Outcome Heap := do
  let m ← freeSlots m d.slots
  let m ← free m d.vals
  let m ← free m d.keys
  let m ← free m d.hashes
  free m d.self

/-- What `dictionary_get` returns: the default, or a pointer of the dictionary (which may be null). -/
inductive Found where
  | default
  | value (p : Option Nat)
deriving DecidableEq, Repr

/-- msat/iniparser.c:341-351: the loop of `dictionary_get` -/
def getLoop (m : Heap) (h : UInt32) (key : Bytes) : List Slot → Outcome Found
  | [] => .ok .default
  | s :: ss =>
    if h = s.hash then
      match s.key with
      | none => .ub
      | some p => do
        let k ← load m p
        if key = k then .ok (.value s.val) else getLoop m h key ss
    else getLoop m h key ss

/-- msat/iniparser.c:724-736 `iniparser_getstring`: the key is copied and the copy freed -/
def getstring (m : Heap) (d : Dict) (key : Bytes) : Outcome (Heap × Found) := do
  let (lc, m1) := alloc m (Ini.strlwc key)
  let k ← load m1 lc
  let r ← getLoop m1 (Ini.hash k) k d.slots
  let m2 ← free m1 lc
  pure (m2, r)

/-- The loops at msat/iniparser.c:391-405 and 452-463. -/
def findKey (m : Heap) (h : UInt32) (key : Bytes) : List Slot → Outcome (Option Nat)
  | [] => .ok none
  | s :: ss =>
    match s.key with
    | none => do
      let r ← findKey m h key ss
      pure (r.map (· + 1))
    | some p =>
      if h = s.hash then do
        let k ← load m p
        if key = k then pure (some 0) else do
          let r ← findKey m h key ss
          pure (r.map (· + 1))
      else do
        let r ← findKey m h key ss
        pure (r.map (· + 1))

/-- The first unused position, msat/iniparser.c:421-426. -/
def firstFree : List Slot → Option Nat
  | [] => none
  | s :: ss => match s.key with
    | none => some 0
    | some _ => (firstFree ss).map (· + 1)

/-- `val ? strdup(val) : NULL` -/
def strdupOpt (m : Heap) : Option Nat → Outcome (Option Nat × Heap)
  | none => .ok (none, m)
  | some p => do
    let b ← load m p
    pure (some (alloc m b).1, (alloc m b).2)

/-- msat/iniparser.c:214-222 `mem_double` -/
def memDouble (m : Heap) (p : Nat) : Outcome (Nat × Heap) := do
  let (q, m1) := alloc m []
  let _ ← load m1 p
  let m2 ← free m1 p
  pure (q, m2)

/-- msat/iniparser.c:408-419: growing if all positions are used. -/
def grow (m : Heap) (d : Dict) : Outcome (Heap × Dict) :=
  if d.n = d.slots.length then do
    let (vals, m) ← memDouble m d.vals
    let (keys, m) ← memDouble m d.keys
    let (hashes, m) ← memDouble m d.hashes
    pure (m, { d with vals := vals, keys := keys, hashes := hashes, slots := d.slots ++ List.replicate d.slots.length Slot.zero })
  else pure (m, d)

/-- msat/iniparser.c:408-432: adding an entry -/
def insert (m : Heap) (d : Dict) (h : UInt32) (key : Bytes) (val : Option Nat) : Outcome (Heap × Dict) := do
  let (m, d) ← grow m d
  match firstFree d.slots with
  | some i => do
    let (k, m) := alloc m key
    let (v, m) ← strdupOpt m val
    pure (m, { d with n := d.n + 1, slots := d.slots.set i ⟨some k, v, h⟩ })
  | none => .ub    -- the entry would be written after the end of the arrays

/-- msat/iniparser.c:396-404: changing the value of a key -/
def replace (m : Heap) (d : Dict) (i : Nat) (val : Option Nat) : Outcome (Heap × Dict) :=
  match d.slots[i]? with
  | some s => do
    let m ← freeOpt m s.val
    let (v, m) ← strdupOpt m val
    pure (m, { d with slots := d.slots.set i { s with val := v } })
  | none => .ub

/-- msat/iniparser.c:390-405: is the key there? -/
def present (m : Heap) (d : Dict) (key : Bytes) : Outcome (Option Nat) :=
  if d.n > 0 then findKey m (Ini.hash key) key d.slots else .ok none

/-- msat/iniparser.c:381-433 `dictionary_set`, with the pointer to the value -/
def set (m : Heap) (d : Dict) (key : Bytes) (val : Option Nat) : Outcome (Heap × Dict) := do
  let i ← present m d key
  match i with
  | some i => replace m d i val
  | none => insert m d (Ini.hash key) key val

/-- msat/iniparser.c:878-882 `iniparser_setstr` -/
def setstr (m : Heap) (d : Dict) (entry : Bytes) (val : Option Nat) : Outcome (Heap × Dict) := set m d (Ini.strlwc entry) val

/-- msat/iniparser.c:468-477: removing position `i` -/
def remove (m : Heap) (d : Dict) (i : Nat) : Outcome (Heap × Dict) :=
  match d.slots[i]? with
  | some s => do
    let m ← freeOpt m s.key
    let m ← freeOpt m s.val
    pure (m, { d with n := d.n - 1, slots := d.slots.set i Slot.zero })
  | none => .ub

/-- msat/iniparser.c:446-477 `dictionary_unset` -/
def unset (m : Heap) (d : Dict) (key : Bytes) : Outcome (Heap × Dict) := do
  let i ← findKey m (Ini.hash key) key d.slots
  match i with
  | none => pure (m, d)
  | some i => remove m d i

/-- msat/iniparser.c:894-897 `iniparser_unset` -/
def iniUnset (m : Heap) (d : Dict) (entry : Bytes) : Outcome (Heap × Dict) := unset m d (Ini.strlwc entry)

/-- What a caller does with a dictionary. -/
inductive Op where
  /-- sets a value from its own block, and frees that afterwards -/
  | set (entry : Bytes) (val : Option Bytes)
  /-- sets a value to that of another entry, with the pointer the dictionary returned for it -/
  | copy (entry other : Bytes)
  | unset (entry : Bytes)
  | get (entry : Bytes)
deriving DecidableEq, Repr

/-- One operation. -/
def step (m : Heap) (d : Dict) : Op → Outcome (Heap × Dict)
  | .set entry none => setstr m d entry none
  | .set entry (some b) => do
    let (p, m) := alloc m b
    let (m, d) ← setstr m d entry (some p)
    let m ← free m p
    pure (m, d)
  | .copy entry other => do
    let (m, r) ← getstring m d other
    match r with
    | .default => setstr m d entry none
    | .value p => setstr m d entry p
  | .unset entry => iniUnset m d entry
  | .get entry => do
    let (m, _) ← getstring m d entry
    pure (m, d)

/-- Operations one after the other. -/
def run (m : Heap) (d : Dict) : List Op → Outcome (Heap × Dict)
  | [] => .ok (m, d)
  | op :: ops => do
    let (m, d) ← step m d op
    run m d ops

end Msat.IniHeap
