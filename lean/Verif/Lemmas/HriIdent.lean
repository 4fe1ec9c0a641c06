import Verif.Model.HriIdent
import Verif.Spec.HriIdent
import Verif.Lemmas.HriHeader
import Verif.Lemmas.Outcome

/-
Lemmas for C74: `gmtime` inverts the calendar.
-/
namespace Msat.Props
open Msat Msat.Hri Msat.HriSpec Msat.Spec

theorem daysBetween_first (y k : Nat) : daysBetweenYears y (y + (k + 1)) = yearLen y + daysBetweenYears (y + 1) (y + 1 + k) := by
  unfold daysBetweenYears
  rw [show y + (k + 1) - y = k + 1 by omega, show y + 1 + k - (y + 1) = k by omega, List.range_succ_eq_map, List.map_cons, List.sum_cons,
    List.map_map]
  congr 2
  apply List.map_congr_left
  intro i _
  show yearLen (y + (i + 1)) = yearLen (y + 1 + i)
  rw [show y + (i + 1) = y + 1 + i by omega]

theorem daysBetween_last (y k : Nat) : daysBetweenYears y (y + (k + 1)) = daysBetweenYears y (y + k) + yearLen (y + k) := by
  unfold daysBetweenYears
  rw [show y + (k + 1) - y = k + 1 by omega, show y + k - y = k by omega, List.range_succ, List.map_append, List.sum_append]
  simp

theorem yearOf_here (y n : Nat) (h : n < yearLen y) : yearOf y n = (y, n) := by
  unfold yearOf
  unfold yearLen at h
  split at h
  · by_cases h5 : n < 365
    · rw [if_pos h5]
    · rw [if_neg h5, if_pos ⟨by omega, by assumption⟩]
  · rw [if_pos h]

theorem yearOf_next (y n : Nat) : yearOf y (yearLen y + n) = yearOf (y + 1) n := by
  rw [yearOf]
  unfold yearLen
  split
  · rename_i h
    rw [if_neg (by omega), if_neg (by omega), Nat.add_sub_cancel_left]
  · rename_i h
    rw [if_neg (by omega), if_neg (fun hc => h hc.2), Nat.add_sub_cancel_left]

theorem yearOf_days : ∀ k y n : Nat, n < yearLen (y + k) → yearOf y (daysBetweenYears y (y + k) + n) = (y + k, n)
  | 0, y, n, h => by
    have : daysBetweenYears y (y + 0) = 0 := by unfold daysBetweenYears; simp
    rw [this, Nat.zero_add]
    exact yearOf_here y n h
  | k + 1, y, n, h => by
    rw [daysBetween_first, Nat.add_assoc, yearOf_next, yearOf_days k (y + 1) n (by rw [show y + 1 + k = y + (k + 1) by omega]; exact h)]
    rw [show y + 1 + k = y + (k + 1) by omega]

theorem monthOf_from (y d : Nat) (h1 : 1 ≤ d) : ∀ j a k : Nat, d ≤ daysInMonth y (a + j) →
    monthOf y (k + j + 1) a (((List.range j).map fun i => daysInMonth y (a + i)).sum + d - 1) = (a + j, d)
  | 0, a, k, h => by
    simp only [List.range_zero, List.map_nil, List.sum_nil, Nat.zero_add, Nat.add_zero] at h ⊢
    rw [monthOf, if_pos (by omega), Nat.sub_add_cancel h1]
  | j + 1, a, k, h => by
    have ih := monthOf_from y d h1 j (a + 1) k (by rwa [show a + 1 + j = a + (j + 1) by omega])
    rw [List.range_succ_eq_map, List.map_cons, List.sum_cons, List.map_map, show a + 0 = a from rfl, ← Nat.add_assoc k j 1, monthOf, if_neg (by omega)]
    have e : ((fun i => daysInMonth y (a + i)) ∘ Nat.succ) = fun i => daysInMonth y (a + 1 + i) := by
      funext i
      show daysInMonth y (a + (i + 1)) = _
      rw [show a + (i + 1) = a + 1 + i by omega]
    rw [e, show ∀ A S : Nat, A + S + d - 1 - A = S + d - 1 from fun A S => by omega, ih, show a + 1 + j = a + (j + 1) by omega]

theorem monthOf_days (y m d : Nat) (h : ValidDate y m d) : monthOf y 12 1 (daysBeforeMonth y m + d - 1) = (m, d) := by
  obtain ⟨h1, h2, h3, h4⟩ := h
  have := monthOf_from y d h3 (m - 1) 1 (12 - m) (by rwa [show 1 + (m - 1) = m by omega])
  rw [show 12 - m + (m - 1) + 1 = 12 by omega, show 1 + (m - 1) = m by omega] at this
  rw [← this]
  unfold daysBeforeMonth
  congr 5
  funext i
  rw [Nat.add_comm]

theorem days_closed : ∀ k : Nat, daysBetweenYears 1970 (1970 + k) + 477 =
    365 * k + (1969 + k) / 4 + (1969 + k) / 400 - (1969 + k) / 100
  | 0 => by decide
  | k + 1 => by
    have ih := days_closed k
    rw [daysBetween_last]
    have hy : yearLen (1970 + k) + (1969 + k) / 4 + (1969 + k) / 400 + (1970 + k) / 100 =
        365 + (1970 + k) / 4 + (1970 + k) / 400 + (1969 + k) / 100 := by
      unfold yearLen isLeap
      by_cases h4 : (1970 + k) % 4 = 0 <;> by_cases h100 : (1970 + k) % 100 = 0 <;> by_cases h400 : (1970 + k) % 400 = 0 <;>
        simp [h4, h100, h400] <;> omega
    omega

theorem newYear (k : Nat) : Datetime.mktimeUTC ((1970 + k : Nat) : Int) 1 1 12 0 0 = 86400 * daysBetweenYears 1970 (1970 + k) + 43200 := by
  have h := days_closed k
  unfold Datetime.mktimeUTC
  dsimp only
  have hc : Datetime.cumulative 1 = 0 := by decide
  rw [hc, if_neg (by omega)]
  omega

end Msat.Props
