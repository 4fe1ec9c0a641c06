import Verif.Model.Progress
import Verif.Spec.Progress
import Mathlib.Tactic.Common

/-
C110: messages on the progress of tasks are one line each, indented by the number of tasks they are inside of, and a task that ends, also by an
exception, gives back the indentation there was before.
-/
namespace Msat.Props
open Progress ProgressSpec

/-- The program does not change the handler. -/
def KeepsHandler : Program → Prop
  | .done => True
  | .fail => True
  | .activity _ _ _ rest => KeepsHandler rest
  | .task _ inside rest => KeepsHandler inside ∧ KeepsHandler rest
  | .setHandler _ => False

/-- The messages of a program inside `d` tasks, and whether it is left by an exception. -/
def messages (d : Nat) : Program → List Message × Bool
  | .done => ([], false)
  | .fail => ([], true)
  | .activity s p t rest =>
    (⟨d, s ++ (if p = -1 then [] else if t = -1 then str " " ++ number p ++ str "%" else str " (" ++ number p ++ str "/" ++ number t ++ str ")")⟩ ::
      (messages d rest).1, (messages d rest).2)
  | .task desc inside rest =>
    let m : Message := ⟨d, desc ++ str "..."⟩
    if (messages (d + 1) inside).2 then (m :: (messages (d + 1) inside).1, true)
    else (m :: (messages (d + 1) inside).1 ++ (messages d rest).1, (messages d rest).2)
  | .setHandler rest => messages d rest

theorem run_messages (p : Program) (hp : KeepsHandler p) (d : Nat) :
    run p (.stream d) = (((messages d p).1.map line).flatten, .stream d, (messages d p).2) := by
  induction p generalizing d with
  | done => rfl
  | fail => rfl
  | activity s a t rest ih =>
    simp only [run, messages, ih hp d, List.map_cons, List.flatten_cons]
    congr 2
    unfold activity line outputIndent
    simp only [Int.toNat_natCast]
    by_cases h1 : a = -1
    · simp [h1]
    · by_cases h2 : t = -1
      · simp [h1, h2]
      · simp [h1, h2]
  | task desc inside rest ih1 ih2 =>
    have h1 := ih1 hp.1 (d + 1)
    have h2 := ih2 hp.2 d
    have hc : (((d + 1 : Nat) : Int)) = (d : Int) + 1 := by omega
    rw [hc] at h1
    have hd : (d : Int) + 1 - 1 = d := by omega
    simp only [run, messages, pushTask, h1, popTask, hd]
    have hl : line ⟨d, desc ++ str "..."⟩ = outputIndent d ++ desc ++ str "..." ++ [10] := by
      unfold line outputIndent
      simp
    by_cases hx : (messages (d + 1) inside).2 = true
    · rw [if_pos hx, if_pos hx]
      simp [hl]
    · rw [if_neg hx, if_neg hx, h2]
      simp [hl]
  | setHandler rest ih => exact hp.elim

/-- The messages of any program whose handler is set before: one line each, indented by the number of tasks around it, with nothing after an
exception; at the end the indentation is what it was. -/
theorem C110_lines (p : Program) (hp : KeepsHandler p) :
    run (.setHandler p) .silent = (((messages 0 p).1.map line).flatten, .stream 0, (messages 0 p).2) :=
  run_messages p hp 0

/-- A task inside another that fails. -/
def failingTasks : Program :=
  .task (str "Reading") (.activity (str "segment") 1 8 (.task (str "Uncompressing") .fail .done)) (.activity (str "never") (-1) (-1) .done)

example : KeepsHandler failingTasks ∧ (messages 0 failingTasks).1.map (·.depth) = [0, 1, 1] ∧ (messages 0 failingTasks).2 = true :=
  ⟨⟨⟨trivial, trivial⟩, trivial⟩, by decide +kernel, by decide +kernel⟩

/-- The amount of an activity is written as " n%" or " (n/total)", and not at all if it is not known. -/
theorem C110_amount (s : Bytes) (a : Amount) (d : Nat) :
    activity s a.args.1 a.args.2 (.stream d) = line ⟨d, s ++ a.text Text.decimal⟩ := by
  have hn : ∀ n : Nat, number (n : Int) = Text.decimal n := by
    intro n
    unfold number
    rw [if_neg (by omega), Int.natAbs_natCast]
  have h1 : ∀ n : Nat, ((n : Int) ≠ -1) := by intro n; omega
  unfold activity line outputIndent
  cases a <;> simp [Amount.args, Amount.text, hn, h1]

/-- The default handler writes nothing. -/
theorem C110_silent (p : Program) (hp : KeepsHandler p) : (run p .silent).1 = [] ∧ (run p .silent).2.1 = .silent := by
  induction p with
  | done => exact ⟨rfl, rfl⟩
  | fail => exact ⟨rfl, rfl⟩
  | activity s a t rest ih => exact ⟨by simp [run, activity, (ih hp).1], (ih hp).2⟩
  | task desc inside rest ih1 ih2 =>
    obtain ⟨h1, h2⟩ := ih1 hp.1
    obtain ⟨h3, h4⟩ := ih2 hp.2
    simp only [run, pushTask, h2, popTask]
    split
    · exact ⟨by simp [h1], rfl⟩
    · exact ⟨by simp [h1, h3], h4⟩
  | setHandler rest ih => exact hp.elim

/-- Discrepancy: a handler set inside a task counts the ends of the tasks around it but not their beginnings: after them its indentation is
negative, and messages inside as many new tasks are not indented. -/
theorem C110_violated_handler (desc desc2 s : Bytes) :
    run (.task desc (.setHandler .done) (.task desc2 (.activity s (-1) (-1) .done) .done)) .silent =
      (line ⟨0, desc2 ++ str "..."⟩ ++ line ⟨0, s⟩, .stream (-1), false) := by
  simp [run, pushTask, popTask, activity, outputIndent, line]

/-- A total alone, without the count, is not written. -/
theorem C110_total (s : Bytes) (tot : Int) (d : Nat) : activity s (-1) tot (.stream d) = line ⟨d, s⟩ := by
  simp [activity, outputIndent, line]

end Msat.Props
