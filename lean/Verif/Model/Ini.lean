import Verif.Model.Str

/-
msat/iniparser.c: the dictionary and the access functions.

A C string is the list of its bytes, without the final NUL: `strcmp(a, b) == 0` is `a = b`.  Memory always
suffices; the `int` that counts entries does not overflow (it would take 2^31 entries).  `tolower` and
`isspace` of the C library are those of the C locale; the code calls them with a `char`, which is negative
for bytes above 127: common C libraries accept that.
-/
namespace Msat.Ini
open Msat.Str

/-- One position of the three arrays `key`, `val` and `hash` (msat/iniparser.h `dictionary`): `none` is a null
pointer. -/
structure Slot where
  key : Option Bytes
  val : Option Bytes
  hash : UInt32
deriving DecidableEq, Repr

/-- A position as `calloc` makes it. -/
def Slot.zero : Slot := ⟨none, none, 0⟩

/-- `dictionary`: `size` is the length of the arrays. -/
structure Dict where
  n : Int
  slots : List Slot
deriving DecidableEq, Repr

/-- `(unsigned)key[i]`: a `char` is signed. -/
def charToUnsigned (c : UInt8) : UInt32 := if c.toNat < 128 then c.toUInt32 else c.toUInt32 + 0xFFFFFF00

/-- msat/iniparser.c:249-253: the loop of `dictionary_hash`. -/
def hashLoop (hash : UInt32) : Bytes → UInt32
  | [] => hash
  | c :: cs =>
    let hash := hash + charToUnsigned c
    let hash := hash + (hash <<< 10)
    let hash := hash ^^^ (hash >>> 6)
    hashLoop hash cs

/-- msat/iniparser.c:242-258 `dictionary_hash` -/
def hash (key : Bytes) : UInt32 :=
  let hash := hashLoop 0 key
  let hash := hash + (hash <<< 3)
  let hash := hash ^^^ (hash >>> 11)
  hash + (hash <<< 15)

/-- msat/iniparser.c:273-287 `dictionary_new` -/
def newDict (size : Nat) : Dict := ⟨0, List.replicate (if size < 128 then 128 else size) Slot.zero⟩

/-- What `dictionary_get` returns: the default, or a value of the dictionary (which may be null). -/
inductive Found where
  | default
  | value (v : Option Bytes)
deriving DecidableEq, Repr

/-- msat/iniparser.c:341-351: the loop of `dictionary_get`.  The test for an unused position looks at the array
and not at its element: `strcmp` is called with the null pointer of an unused position. -/
def getLoop (h : UInt32) (key : Bytes) : List Slot → Outcome Found
  | [] => .ok .default
  | s :: ss =>
    if h = s.hash then
      match s.key with
      | none => .ub
      | some k => if key = k then .ok (.value s.val) else getLoop h key ss
    else getLoop h key ss

/-- msat/iniparser.c:335-353 `dictionary_get` -/
def get (d : Dict) (key : Bytes) : Outcome Found := getLoop (hash key) key d.slots

/-- The position of a key, as the loops at msat/iniparser.c:391-405 and 452-463 look for it. -/
def findKey (h : UInt32) (key : Bytes) : List Slot → Option Nat
  | [] => none
  | s :: ss =>
    match s.key with
    | none => (findKey h key ss).map (· + 1)
    | some k => if h = s.hash ∧ key = k then some 0 else (findKey h key ss).map (· + 1)

/-- The first unused position, msat/iniparser.c:421-426. -/
def firstFree : List Slot → Option Nat
  | [] => none
  | s :: ss => match s.key with
    | none => some 0
    | some _ => (firstFree ss).map (· + 1)

/-- msat/iniparser.c:408-432: adding an entry: growing if all positions are used. -/
def insert (d : Dict) (h : UInt32) (key : Bytes) (val : Option Bytes) : Outcome Dict :=
  let slots := if d.n = d.slots.length then d.slots ++ List.replicate d.slots.length Slot.zero else d.slots
  match firstFree slots with
  | some i => .ok ⟨d.n + 1, slots.set i ⟨some key, val, h⟩⟩
  | none => .ub    -- the entry would be written after the end of the arrays

/-- msat/iniparser.c:381-433 `dictionary_set` -/
def set (d : Dict) (key : Bytes) (val : Option Bytes) : Outcome Dict :=
  let h := hash key
  match (if d.n > 0 then findKey h key d.slots else none) with
  | some i => match d.slots[i]? with
    | some s => .ok { d with slots := d.slots.set i { s with val := val } }
    | none => .ub
  | none => insert d h key val

/-- msat/iniparser.c:446-477 `dictionary_unset` -/
def unset (d : Dict) (key : Bytes) : Dict :=
  match findKey (hash key) key d.slots with
  | none => d
  | some i => ⟨d.n - 1, d.slots.set i Slot.zero⟩

/-! ### Access functions -/

/-- `ASCIILINESZ`, msat/iniparser.c:44 -/
def lineSize : Nat := 1024

/-- msat/iniparser.c:58-72 `strlwc` -/
def strlwc (s : Bytes) : Bytes := (s.take lineSize).map tolower

/-- msat/iniparser.c:724-736 `iniparser_getstring` -/
def getstring (d : Dict) (key : Bytes) : Outcome Found := get d (strlwc key)

/-- msat/iniparser.c:878-882 `iniparser_setstr` -/
def setstr (d : Dict) (entry : Bytes) (val : Option Bytes) : Outcome Dict := set d (strlwc entry) val

/-- msat/iniparser.c:894-897 `iniparser_unset` -/
def iniUnset (d : Dict) (entry : Bytes) : Dict := unset d (strlwc entry)

/-- msat/iniparser.c:850-859 `iniparser_find_entry` -/
def findEntry (d : Dict) (entry : Bytes) : Outcome Bool := do
  match ← getstring d entry with
  | .default => .ok false
  | .value _ => .ok true

/-- msat/iniparser.c:819-834 `iniparser_getboolean`; the first character of an empty text is its NUL, the text
of a section is a null pointer. -/
def getboolean (d : Dict) (key : Bytes) (notfound : Int) : Outcome Int := do
  match ← getstring d key with
  | .default => .ok notfound
  | .value none => .ub
  | .value (some v) =>
    let c := v.headD 0
    if c = 121 ∨ c = 89 ∨ c = 49 ∨ c = 116 ∨ c = 84 then .ok 1
    else if c = 110 ∨ c = 78 ∨ c = 48 ∨ c = 102 ∨ c = 70 then .ok 0
    else .ok notfound

/-- `atoi` for texts whose number fits an `int`: blanks, a sign, digits. -/
def atoi (s : Bytes) : Int :=
  let s := s.dropWhile isspace
  match s with
  | 45 :: r => -(decDigits 0 r : Int)
  | 43 :: r => decDigits 0 r
  | _ => decDigits 0 s

/-- msat/iniparser.c:753-760 `iniparser_getint` -/
def getint (d : Dict) (key : Bytes) (notfound : Int) : Outcome Int := do
  match ← getstring d key with
  | .default => .ok notfound
  | .value none => .ub
  | .value (some v) => .ok (atoi v)

/-- A position that holds a section: `strchr(key, ':') == NULL`. -/
def Slot.isSection (s : Slot) : Bool :=
  match s.key with
  | none => false
  | some k => !k.contains 58

/-- msat/iniparser.c:558-573 `iniparser_getnsec`, for a dictionary that is not null. -/
def getnsec (d : Dict) : Nat := d.slots.foldl (fun n s => if s.isSection then n + 1 else n) 0

/-- msat/iniparser.c:597-606: the loop of `iniparser_getsecname`: the key where the search stops, and the
number of sections found. -/
def secLoop (n : Int) (found : Int) : List Slot → Option Bytes × Int
  | [] => (none, found)
  | s :: ss =>
    if s.isSection then
      if found + 1 > n then (s.key, found + 1) else secLoop n (found + 1) ss
    else secLoop n found ss

/-- msat/iniparser.c:591-611 `iniparser_getsecname` -/
def getsecname (d : Dict) (n : Int) : Option Bytes :=
  if n < 0 then none
  else
    let (k, found) := secLoop n 0 d.slots
    if found ≤ n then none else k

end Msat.Ini
