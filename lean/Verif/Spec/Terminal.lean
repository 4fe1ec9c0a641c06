import Verif.Model.Basic

/-
What a terminal shows (ECMA-48, "Select Graphic Rendition", with the usual codes 90-97 and 100-107 for bright colours), and what the colours of
`Terminal` are meant to be.  Independent of the code.
-/
namespace Msat.TerminalSpec
open Msat

/-- How characters are shown. Colours are 0 (black) to 7 (white), 8 to 15 the bright ones; none is the default colour. -/
structure Look where
  fg : Option Nat
  bg : Option Nat
  bold : Bool
deriving DecidableEq, Repr

/-- The look after a reset. -/
def default : Look := ⟨none, none, false⟩

/-- The effect of one code. -/
def select (l : Look) (code : Nat) : Look :=
  if code = 0 then default
  else if code = 1 then { l with bold := true }
  else if 30 ≤ code ∧ code ≤ 37 then { l with fg := some (code - 30) }
  else if 40 ≤ code ∧ code ≤ 47 then { l with bg := some (code - 40) }
  else if 90 ≤ code ∧ code ≤ 97 then { l with fg := some (code - 90 + 8) }
  else if 100 ≤ code ∧ code ≤ 107 then { l with bg := some (code - 100 + 8) }
  else l

/-- Where the terminal is in a sequence. -/
inductive Mode where
  /-- characters are shown -/
  | ground
  /-- after an escape -/
  | escape
  /-- after escape and `[`: the codes so far, and the one being read -/
  | codes (done : List Nat) (current : Nat)
deriving DecidableEq, Repr

/-- State of a terminal. -/
structure State where
  look : Look
  mode : Mode
  /-- the characters shown, with their looks -/
  shown : List (UInt8 × Look)
deriving DecidableEq, Repr

/-- One byte arrives. Sequences other than SGR are not interpreted. -/
def step (s : State) (c : UInt8) : State :=
  match s.mode with
  | .ground => if c = 27 then { s with mode := .escape } else { s with shown := s.shown ++ [(c, s.look)] }
  | .escape => if c = 91 then { s with mode := .codes [] 0 } else { s with mode := .ground }
  | .codes done current =>
    if 48 ≤ c.toNat ∧ c.toNat ≤ 57 then { s with mode := .codes done (current * 10 + (c.toNat - 48)) }
    else if c = 59 then { s with mode := .codes (done ++ [current]) 0 }
    else if c = 109 then { s with mode := .ground, look := (done ++ [current]).foldl select s.look }
    else { s with mode := .ground }

/-- Bytes arrive. -/
def feed (s : State) (bytes : Bytes) : State := bytes.foldl step s

/-- A colour as a user names it: one of the eight colours, or none, and bright or not. -/
structure Colour where
  hue : Option (Fin 8)
  bright : Bool
deriving DecidableEq, Repr

/-- The number of a colour: `black` is 1, ..., `white` 8, `bright` 16 more, nothing 0 (term.h). -/
def Colour.code (c : Colour) : Int := (match c.hue with | none => 0 | some k => k.val + 1) + (if c.bright then 16 else 0)

/-- The look of text in foreground colour `c`: bright is bold. -/
def onForeground (c : Colour) (l : Look) : Look :=
  { l with bold := if c.bright then true else l.bold, fg := match c.hue with | none => l.fg | some k => some k.val }

/-- The look of text on background colour `c`. -/
def onBackground (c : Colour) (l : Look) : Look :=
  { l with bg := match c.hue with | none => l.bg | some k => some (if c.bright then k.val + 8 else k.val) }

/-- Text without control sequences. -/
def NoEscape (s : Bytes) : Prop := ∀ c ∈ s, c ≠ 27

instance (s : Bytes) : Decidable (NoEscape s) := by unfold NoEscape; infer_instance

end Msat.TerminalSpec
