import Verif.Model.RecordTexts
import Verif.Spec.Prologue

/-
What the text of a record must show: the members of its documented layout (Spec/Prologue.lean).
-/
namespace Msat.RecordTextsSpec
open Msat Layout RecordTexts

/-- The values held by a field: one, except that 42 raw bytes are the 42 one-byte gains of the detectors and 63 raw bytes
are the 42 twelve-bit offsets of the detectors. -/
def values : Kind → List Path
  | .mem 42 _ => (List.range 42).map fun i => [.i i]
  | .mem 63 _ => (List.range 42).map fun i => [.i i]
  | _ => [[]]

/-- The values of a record, in the order of its layout. -/
def leaves (l : Lay) : List Path := (l.reads 0).flatMap fun r => (values r.kind).map (r.path ++ ·)

/-- The value an item shows, if it is shown for the first time. -/
def displays : What → List Path
  | .value p (.byte i) _ _ false => [p ++ [.i i]]
  | .value p (.dcr i) _ _ false => [p ++ [.i i]]
  | .value p _ _ _ false => [p]
  | .bar p _ i => [p ++ [.i i]]
  | _ => []

/-- The values a text shows, in the order of the text. -/
def displayed (t : Text) : List Path := t.flatMap fun x => displays x.what

/-- The last index of the name of a value. -/
def lastIndex (p : Path) : Nat :=
  match p.getLast? with
  | some (.i n) => n
  | _ => 0

/-- The values that are not shown (see `C108_violated_timeliness`, `C108_violated_offsets` and `C108_violated_straylight`). -/
def neverShown (p : Path) : Bool :=
  p.elem (.f "NonNominalTimeliness") || (p.elem (.f "DCRValues") && decide (12 ≤ lastIndex p)) ||
    (p.elem (.f "StraylightCorrection") && decide (4 ≤ lastIndex p))

/-- Texts of numbers of the C++ library: not empty, without newlines, blanks and parentheses; other texts are on one line. -/
structure Plain (w : World) : Prop where
  r4 : ∀ n, w.r4 n ≠ [] ∧ ∀ c ∈ w.r4 n, c ≠ 10 ∧ c ≠ 32 ∧ c ≠ 41
  r8 : ∀ n, w.r8 n ≠ [] ∧ ∀ c ∈ w.r8 n, c ≠ 10 ∧ c ≠ 32 ∧ c ≠ 41
  cucReal : ∀ n, w.cucReal n ≠ [] ∧ ∀ c ∈ w.cucReal n, c ≠ 10 ∧ c ≠ 32 ∧ c ≠ 41
  gtime : ∀ b, ∀ c ∈ w.gtime b, c ≠ 10
  bits : ∀ b i, ∀ c ∈ w.bits b i, c ≠ 10

/-- The counts of a histogram can be drawn: all zero, or one of them is at least 76. -/
def Showable (ρ : Path → Val) (p : Path) (n : Nat) : Prop :=
  (∀ i, i < n → ρ (p ++ [.i i]) = .nat 0) ∨ ∃ i c, i < n ∧ ρ (p ++ [.i i]) = .nat c ∧ 76 ≤ c

/-- The members assigned by reading a record that holds the values `ρ`. -/
def object (l : Lay) (ρ : Path → Val) : Members := (l.reads 0).map fun r => (r.path, ρ r.path)

/-- Two objects of which the same optional parts are written. -/
def SameShape (t : Text) (o o' : Members) : Prop := ∀ x ∈ t, holds o x.guards = holds o' x.guards

/-- An item that is written. -/
def Written (t : Text) (o : Members) (x : What) : Prop := ∃ g, ⟨g, x⟩ ∈ t ∧ holds o g = .ok true

/-- Whether a literal has letters. -/
def worded (s : String) : Bool := (str s).any fun c => decide (65 ≤ c ∧ c ≤ 90 ∨ 97 ≤ c ∧ c ≤ 122)

/-- The names of the members of a path, without the indices. -/
def names (p : Path) : List String := p.filterMap fun k => match k with
  | .f s => some s
  | .i _ => none

/-- The values shown, each with the last words written before it. -/
def labels : String → Text → List (String × List String)
  | _, [] => []
  | cur, x :: xs => match x.what with
    | .lit s => labels (if worded s then s else cur) xs
    | .value p _ _ _ false => (cur, names p) :: labels cur xs
    | .bar p _ _ => (cur, names p) :: labels cur xs
    | _ => labels cur xs

/-- The support units of the ground segment (MSG_data_IMPFConfiguration.cpp:134-151): first and last identifier, and name.  Each unit has ten
thousand identifiers, but for the last. -/
def units : List (Nat × Nat × String) :=
  [(0, 0, "No particular SU"), (10000, 19999, "BRGS"), (20000, 29999, "CF"), (30000, 39999, "DADF"), (40000, 49999, "IMPF"),
   (50000, 59999, "MARF"), (60000, 69999, "MPEF"), (70000, 79999, "PGS"), (80000, 89999, "SSF"), (90000, 99999, "SIU"),
   (100000, 100999, "LEOP_CC")]

end Msat.RecordTextsSpec
