import Verif.Model.Redirect

/-
What the file descriptors of a child are to be.
-/
namespace Msat.RedirectSpec
open Msat Redirect

/-- Standard input of the child: `own` is that of the parent. -/
def stdin (t : Table) (c : Child) : Option Obj :=
  match c.stdin.action with
  | .fd => t.get c.stdin.ends.1
  | .pipe => some (.pipeR 0)
  | .devnull => some .devnull
  | _ => t.get 0

/-- Standard output -/
def stdout (t : Table) (c : Child) : Option Obj :=
  match c.stdout.action with
  | .fd => t.get c.stdout.ends.2
  | .pipe => some (.pipeW 1)
  | .devnull => some .devnull
  | _ => t.get 1

/-- Standard error -/
def stderr (t : Table) (c : Child) : Option Obj :=
  match c.stderr.action with
  | .fd => t.get c.stderr.ends.2
  | .pipe => some (.pipeW 2)
  | .devnull => some .devnull
  | .stdout => stdout t c
  | .unchanged => t.get 2

/-- Descriptors of the parent that are moved. -/
def moved (c : Child) : List Int :=
  (if c.stdin.action = .fd then [c.stdin.ends.1] else []) ++ (if c.stdout.action = .fd then [c.stdout.ends.2] else []) ++
    (if c.stderr.action = .fd then [c.stderr.ends.2] else [])

/-- The standard descriptors of the parent are open. -/
def StdOpen (t : Table) : Prop := t.get 0 ≠ none ∧ t.get 1 ≠ none ∧ t.get 2 ≠ none

/-- Descriptors to redirect to are open, other than the standard ones, and different from each other. -/
def Distinct (t : Table) (c : Child) : Prop := (∀ fd ∈ moved c, 3 ≤ fd ∧ t.get fd ≠ none) ∧ (moved c).Nodup

end Msat.RedirectSpec
