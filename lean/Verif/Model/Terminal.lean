import Verif.Model.Basic
import Verif.Model.Text

/-
msat/utils/term.cc, term.h: colours of texts written to a terminal.

Simplifications: a stream is the bytes written to it; `std::to_string` is `Text.decimal` (the codes are never negative: they are a constant
plus a value masked by 0xf).
-/
namespace Msat.Terminal
open Msat Text

/-- `errno` after isatty(3). -/
inductive Errno where
  | einval
  | enotty
  | other
deriving DecidableEq, Repr

/-- msat/utils/term.cc:34-48 `Terminal::Terminal`: the value of `isatty`; `fd` is whether the stream has a file descriptor, `res` and `e`
what isatty(3) returns and leaves in `errno`. -/
def open_ (fd : Bool) (res : Int) (e : Errno) : Outcome Bool :=
  if fd then
    if res = 1 then .ok true
    else match e with
      | .einval => .ok false
      | .enotty => .ok false
      | .other => .throws "isatty failed"
  else .ok false

/-- msat/utils/term.cc:18 `col & color_mask`, of an `int` in two's complement -/
def masked (col : Int) : Nat := (col % 16).toNat

/-- msat/utils/term.cc:17 `col & Terminal::bright` -/
def bright (col : Int) : Bool := (col / 16) % 2 = 1

/-- msat/utils/term.cc:70-76 `SGR::set_fg`: the codes appended -/
def fgCodes (col : Int) : List Nat :=
  (if bright col then [1] else []) ++ (if masked col ≠ 0 then [29 + masked col] else [])

/-- msat/utils/term.cc:78-86 `SGR::set_bg`: the codes appended -/
def bgCodes (col : Int) : List Nat :=
  if bright col ∧ masked col ≠ 0 then [99 + masked col]
  else if masked col ≠ 0 then [89 + masked col]
  else []

/-- msat/utils/term.cc:52-68 `SGR`: the codes, with semicolons between them -/
def sequence (codes : List Nat) : Bytes :=
  [27, 91] ++ (List.intersperse [59] (codes.map decimal)).flatten ++ [109]

/-- msat/utils/term.cc:96-99, 117-120: the sequence that sets two colours -/
def setSequence (fg bg : Int) : Bytes :=
  sequence ((if fg ≠ 0 then fgCodes fg else []) ++ (if bg ≠ 0 then bgCodes bg else []))

/-- msat/utils/term.cc:29, 122 `"\x1b[0m"` -/
def resetSequence : Bytes := [27, 91, 48, 109]

/-- msat/utils/term.cc:113-124 `Terminal::color` -/
def color (isatty : Bool) (fg bg : Int) (s : Bytes) : Bytes :=
  if isatty then setSequence fg bg ++ s ++ resetSequence else s

/-- msat/utils/term.cc:126-129 `Terminal::color_fg` -/
def colorFg (isatty : Bool) (col : Int) (s : Bytes) : Bytes := color isatty col 0 s

/-- msat/utils/term.cc:131-134 `Terminal::color_bg` -/
def colorBg (isatty : Bool) (col : Int) (s : Bytes) : Bytes := color isatty 0 col s

/-- A program that writes to a terminal: texts, exceptions, and scopes with the object returned by `set_color(fg, bg)`. -/
inductive Program where
  | done
  /-- throws an exception -/
  | fail
  | text (s : Bytes) (rest : Program)
  | colored (fg bg : Int) (inside rest : Program)
deriving DecidableEq, Repr

/-- What a program writes, and whether it is left by an exception: msat/utils/term.cc:91-101 `Terminal::set_color` at the beginning of a scope,
msat/utils/term.cc:26-30 `Restore::~Restore` at its end. -/
def run (isatty : Bool) : Program → Bytes × Bool
  | .done => ([], false)
  | .fail => ([], true)
  | .text s rest => (s ++ (run isatty rest).1, (run isatty rest).2)
  | .colored fg bg inside rest =>
    let a := (if isatty then setSequence fg bg else []) ++ (run isatty inside).1 ++ (if isatty then resetSequence else [])
    if (run isatty inside).2 then (a, true) else (a ++ (run isatty rest).1, (run isatty rest).2)

end Msat.Terminal
