import Verif.Model.DataAccess

/-
tools/hrit/xritdump.cpp: the contents of an xRIT product as text.

Simplifications: the reading of prologue and epilogue and `scan` are modelled elsewhere
(DataAccess.lean), and are here a function `open_` from the name given on the command line to the
product and to `swapY`; what was printed before an exception is not kept.
-/
namespace Msat.XritDump
open Xrit

/-- The outcomes of the iterations of a loop, stopping at the first that fails. -/
def collect {α : Type} : List (Outcome α) → Outcome (List α)
  | [] => .ok []
  | x :: xs => do
    let v ← x
    let vs ← collect xs
    pure (v :: vs)

/-- `aachars`, tools/hrit/xritdump.cpp:86; the terminator can be read (`operator[]` at `size()`). -/
def aachars : List Char := " .,-:=$#".toList ++ [Char.ofNat 0]

/-- `aachars[(s-min) * aachars.size() / (max-min)]`, tools/hrit/xritdump.cpp:117 and 144: the
differences are `int`s converted to `size_t`. -/
def shade (s min max : Nat) : Outcome Char :=
  let num := (((s : Int) - min) % 2 ^ 64).toNat * 8 % 2 ^ 64
  let den := (((max : Int) - min) % 2 ^ 64).toNat
  if den = 0 then .ub
  else match aachars[num / den]? with
    | none => .ub
    | some c => .ok c

/-- The loop of tools/hrit/xritdump.cpp:92-102. -/
def extremes (samples : List Nat) : Nat × Nat :=
  samples.foldl (fun a v => (if v < a.1 then v else a.1, if v > a.2 then v else a.2)) (0xffff, 0)

/-- The picture of a segment, tools/hrit/xritdump.cpp:108-121. -/
def render (da : DataAccess) (img : List Nat) (min max : Nat) : Outcome (List (List Char)) :=
  collect ((List.range 3).map fun y => collect ((List.range 50).map fun x =>
    match img[y * da.seglines / 3 * da.columns + x * da.columns / 50]? with
    | none => .ub
    | some s => shade s min max))

/-- What is printed of a segment. -/
inductive SegmentDump where
  | missing
  | shown (min max : Nat) (rows : List (List Char))
deriving DecidableEq, Repr

/-- tools/hrit/xritdump.cpp:90-121: one segment. -/
def dumpSegment (da : DataAccess) (disk : Bytes → Outcome SegData) (cache : Cache) (i : Nat) :
    Outcome (SegmentDump × Cache) := do
  let r := segment da disk cache i
  match ← r.1 with
  | none => .ok (.missing, r.2)
  | some d =>
    match d.image with
    | none => .ub
    | some img =>
      if img.length < da.columns * da.seglines then .ub
      else
        let e := extremes (img.take (da.columns * da.seglines))
        (render da img e.1 e.2).bind fun rows => .ok (.shown e.1 e.2 rows, r.2)

/-- tools/hrit/xritdump.cpp:105-106: the extremes of the product after those of a segment. -/
def widen (comp : Nat × Nat) : SegmentDump → Nat × Nat
  | .missing => comp
  | .shown min max _ => (if min < comp.1 then min else comp.1, if max > comp.2 then max else comp.2)

/-- tools/hrit/xritdump.cpp:88-124: the segments, the extremes of the product and the cache. -/
def dumpSegments (da : DataAccess) (disk : Bytes → Outcome SegData) :
    List Nat → Cache → Nat × Nat → Outcome (List SegmentDump × (Nat × Nat) × Cache)
  | [], cache, comp => .ok ([], comp, cache)
  | i :: is, cache, comp => do
    let s ← dumpSegment da disk cache i
    let rest ← dumpSegments da disk is s.2 (widen comp s.1)
    pure (s.1 :: rest.1, rest.2)

/-- tools/hrit/xritdump.cpp:127-131 -/
def compSize (da : DataAccess) : Nat := if da.hrv then 11136 else 3712

/-- tools/hrit/xritdump.cpp:136-147: one row of the picture of the product. -/
def compositeRow (da : DataAccess) (disk : Bytes → Outcome SegData) (cache : Cache) (comp : Nat × Nat)
    (y : Nat) : Outcome (List Char × Cache) := do
  let r := lineRead da disk cache (y * compSize da / 24)
  let row ← r.1
  if compSize da < da.columns then .ub
  else
    let buf := row ++ List.replicate (compSize da - da.columns) 0
    (collect ((List.range 50).map fun x =>
      match buf[x * compSize da / 50]? with
      | none => .ub
      | some s => shade s comp.1 comp.2)).bind fun cs => .ok (cs, r.2)

/-- tools/hrit/xritdump.cpp:134-148 -/
def compositeRows (da : DataAccess) (disk : Bytes → Outcome SegData) (comp : Nat × Nat) :
    List Nat → Cache → Outcome (List (List Char))
  | [], _ => .ok []
  | y :: ys, cache => do
    let r ← compositeRow da disk cache comp y
    let rest ← compositeRows da disk comp ys r.2
    pure (r.1 :: rest)

/-- tools/hrit/xritdump.cpp:62-84: the labels and the values printed. -/
def facts (da : DataAccess) (swapY : Bool) : List (String × String) :=
  [("Columns", toString da.columns), ("Lines", toString da.lines),
    ("Segments", toString da.segnames.length),
    ("Pixels per segment", toString (da.columns * da.seglines)),
    ("Scanlines per segment", toString da.seglines),
    ("East is", if da.swapX then "left" else "right"),
    ("North is", if swapY then "down" else "up"),
    ("HRV", if da.hrv then "yes" else "no")] ++
  if da.hrv then
    [("LowerEastColumnActual", toString da.cov.lowerEast),
      ("LowerSouthLineActual", toString da.cov.lowerSouth),
      ("LowerWestColumnActual", toString da.cov.lowerWest),
      ("LowerNorthLineActual", toString da.cov.lowerNorth),
      ("UpperEastColumnActual", toString da.cov.upperEast),
      ("UpperSouthLineActual", toString da.cov.upperSouth),
      ("UpperWestColumnActual", toString da.cov.upperWest),
      ("UpperNorthLineActual", toString da.cov.upperNorth)]
  else
    [("SouthLineActual", toString da.southLine), ("WestColumnActual", toString da.westColumn)]

/-- What `do_dump` prints. -/
structure Dump where
  facts : List (String × String)
  segments : List SegmentDump
  composite : List (List Char)
deriving DecidableEq, Repr

/-- tools/hrit/xritdump.cpp:51-153 `do_dump` -/
def doDump (da : DataAccess) (swapY : Bool) (disk : Bytes → Outcome SegData) : Outcome Dump := do
  let s ← dumpSegments da disk (List.range da.segnames.length) [] (0xffff, 0)
  let c ← compositeRows da disk s.2.1 (List.range 24) s.2.2
  pure ⟨facts da swapY, s.1, c⟩

/-- An argument of the command line as `getopt_long` gives it: options first, in order. -/
inductive Arg where
  | help
  | other
  | file (name : Bytes)
deriving DecidableEq, Repr

/-- The option loop of tools/hrit/xritdump.cpp:164-192: the status to exit with, if any. -/
def options : List Arg → Option Nat
  | [] => none
  | .help :: _ => some 0
  | .other :: _ => some 1
  | .file _ :: as => options as

/-- The names left after the options. -/
def names : List Arg → List Bytes
  | [] => []
  | .file n :: as => n :: names as
  | _ :: as => names as

/-- The loop and the handler of tools/hrit/xritdump.cpp:201-212: the dumps printed and the status. -/
def dumpAll (open_ : Bytes → Outcome (DataAccess × Bool)) (disk : Bytes → Outcome SegData) :
    List Bytes → Outcome (List Dump × Nat)
  | [] => .ok ([], 0)
  | n :: ns =>
    match (open_ n).bind fun p => doDump p.1 p.2 disk with
    | .ok d => (dumpAll open_ disk ns).bind fun r => .ok (d :: r.1, r.2)
    | .throws _ => .ok ([], 1)
    | .ub => .ub
    | .terminate => .terminate
    | .diverges => .diverges

/-- tools/hrit/xritdump.cpp:155-213 `main` -/
def main (open_ : Bytes → Outcome (DataAccess × Bool)) (disk : Bytes → Outcome SegData)
    (args : List Arg) : Outcome (List Dump × Nat) :=
  match options args with
  | some status => .ok ([], status)
  | none => if names args = [] then .ok ([], 1) else dumpAll open_ disk (names args)

end Msat.XritDump
