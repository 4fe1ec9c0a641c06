import Verif.Spec.RecordTexts
import Verif.Lemmas.Layout
import Verif.Lemmas.Outcome
import Mathlib.Data.List.Flatten
import Mathlib.Data.List.Perm.Basic

/-
Auxiliary facts on the texts of the records.
-/
namespace Msat.RecordTexts
open Msat Layout RecordTextsSpec

/-! ### What is shown -/

theorem displayed_nil : displayed [] = [] := rfl

theorem displayed_append (a b : Text) : displayed (a ++ b) = displayed a ++ displayed b := List.flatMap_append

theorem displays_under (p : Path) (x : Item) : displays (x.under p).what = (displays x.what).map (p ++ ·) := by
  rcases x with ⟨g, w⟩
  cases w with
  | lit | index | endl => rfl
  | bar q n i => simp [Item.under, displays]
  | value q f k c a =>
    cases a <;> cases f <;> simp [Item.under, displays]

theorem displayed_sub (p : Path) (t : Text) : displayed (sub p t) = (displayed t).map (p ++ ·) := by
  simp only [displayed, sub, List.flatMap_map, List.map_flatMap, displays_under]

theorem displayed_each (n : Nat) (f : Nat → Text) : displayed (each n f) = (List.range n).flatMap fun i => displayed (f i) := by
  simp only [displayed, each, List.flatMap_assoc]

theorem displayed_when (p : Path) (t : Text) : displayed (when p t) = displayed t := by
  simp only [displayed, RecordTexts.when, List.flatMap_map]

/-! ### The values of a layout -/

theorem leaves_at (l : Lay) (b : Nat) : ((l.reads b).flatMap fun r => (values r.kind).map (r.path ++ ·)) = leaves l := by
  rw [Lay.reads_zero l b, List.flatMap_map]
  rfl

theorem under_leaves (p : Path) (rs : List Read) :
    ((rs.map (Read.under p)).flatMap fun r => (values r.kind).map (r.path ++ ·))
      = (rs.flatMap fun r => (values r.kind).map (r.path ++ ·)).map (p ++ ·) := by
  rw [List.flatMap_map, List.map_flatMap]
  congr 1
  funext r
  simp only [Read.under, List.map_map]
  congr 1
  funext q
  simp [List.append_assoc]

theorem leaves_field (nm : String) (l rest : Lay) : leaves (.field nm l rest) = (leaves l).map ([.f nm] ++ ·) ++ leaves rest := by
  conv_lhs => unfold leaves
  rw [show (Lay.field nm l rest).reads 0 = (l.reads 0).map (Read.under [.f nm]) ++ rest.reads (0 + l.size) from rfl,
    List.flatMap_append, under_leaves, leaves_at, leaves_at]

theorem leaves_skip (n : Nat) (rest : Lay) : leaves (.skip n rest) = leaves rest := by
  conv_lhs => unfold leaves
  rw [show (Lay.skip n rest).reads 0 = rest.reads (0 + n) from rfl, leaves_at]

theorem leaves_done : leaves .done = [] := rfl

theorem leaves_arr (n : Nat) (l : Lay) :
    leaves (.arr n l) = (List.range n).flatMap fun j => (leaves l).map ([.i j] ++ ·) := by
  conv_lhs => unfold leaves
  rw [show (Lay.arr n l).reads 0 = (List.range n).flatMap fun j => (l.reads (0 + j * l.size)).map (Read.under [.i j]) from rfl,
    List.flatMap_assoc]
  congr 1
  funext j
  rw [under_leaves, leaves_at]

theorem leaves_struct_cons (nm : String) (l : Lay) (r : List (String × Lay)) :
    leaves (.struct ((nm, l) :: r)) = (leaves l).map ([.f nm] ++ ·) ++ leaves (.struct r) := leaves_field nm l _

theorem leaves_struct_nil : leaves (.struct []) = [] := rfl

/-- The members shown are those of the layout, each once. -/
def Shows (t : Text) (l : Lay) : Prop := (displayed t).Perm (leaves l)

theorem shows_each {n : Nat} {f : Nat → Text} {g : Nat → List Path} (h : ∀ i, i < n → (displayed (f i)).Perm (g i)) :
    (displayed (each n f)).Perm ((List.range n).flatMap g) := by
  rw [displayed_each]
  exact List.Perm.flatMap_left _ fun i hi => h i (List.mem_range.1 hi)

/-- Members that are arrays, shown element by element. -/
theorem shows_array {n : Nat} {t : Text} {l : Lay} (nm : String) (f : Nat → Text) (hf : ∀ i, displayed (f i) = displayed (sub [.f nm, .i i] t))
    (h : Shows t l) : (displayed (each n f)).Perm ((leaves (.arr n l)).map ([.f nm] ++ ·)) := by
  rw [leaves_arr, List.map_flatMap]
  refine shows_each fun i _ => ?_
  rw [hf, displayed_sub, List.map_map]
  exact h.map _

end Msat.RecordTexts
