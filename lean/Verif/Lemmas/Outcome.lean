import Verif.Model.Basic

/-
Outcomes in sequence.
-/
namespace Msat.Outcome

theorem of_bind_ok {α β : Type} {o : Outcome α} {f : α → Outcome β} {x : β} (hx : (o >>= f) = .ok x) :
    ∃ a, o = .ok a ∧ f a = .ok x := by
  cases o <;> simp_all

end Msat.Outcome
