import Verif.Model.Elapsed

namespace Msat.Props
open Sys

/-- Nanoseconds since the epoch: what an instant means. -/
def instant (t : Timespec) : Int := t.sec * 1000000000 + t.nsec

/-- A normalised instant. -/
def Normalised (t : Timespec) : Prop := 0 ≤ t.nsec ∧ t.nsec < 1000000000

theorem i64_ok {v : Int} (h : -(2 ^ 63) ≤ v ∧ v < 2 ^ 63) : i64 v = .ok v := by unfold i64; rw [if_pos h]

theorem toU64_ok {v : Int} (h0 : 0 ≤ v) (h : v < 2 ^ 63) : toU64 v = v.toNat := by
  unfold toU64
  rw [Int.emod_eq_of_lt h0 (by omega)]

/-- The elapsed time between two instants at most 292 years apart is their difference, zero if the second comes
first. -/
theorem C41_elapsed_partial (b u : Timespec) (hb : Normalised b) (hu : Normalised u)
    (h : u.sec - b.sec ≤ 9223372035) :
    ∃ n, timesecElapsed b u = .ok n ∧ (n : Int) = max 0 (instant u - instant b) := by
  obtain ⟨bs, bn⟩ := b
  obtain ⟨us, un⟩ := u
  simp only [Normalised] at hb hu
  simp only [timesecElapsed, instant]
  dsimp only at h
  by_cases h1 : bs > us
  · rw [if_pos h1]; exact ⟨0, rfl, by omega⟩
  · rw [if_neg h1]
    by_cases h2 : bs = us
    · rw [if_pos h2]
      by_cases h3 : bn > un
      · rw [if_pos h3]; exact ⟨0, rfl, by omega⟩
      · rw [if_neg h3, i64_ok (by omega), Outcome.ok_bind]
        exact ⟨_, rfl, by rw [toU64_ok (by omega) (by omega)]; omega⟩
    · rw [if_neg h2]
      by_cases h3 : un < bn
      · rw [if_pos h3, i64_ok (by omega), Outcome.ok_bind, i64_ok (by omega), Outcome.ok_bind, i64_ok (by omega),
          Outcome.ok_bind, i64_ok (by omega), Outcome.ok_bind, i64_ok (by omega), Outcome.ok_bind, i64_ok (by omega),
          Outcome.ok_bind]
        exact ⟨_, rfl, by rw [toU64_ok (by omega) (by omega)]; omega⟩
      · rw [if_neg h3, i64_ok (by omega), Outcome.ok_bind, i64_ok (by omega), Outcome.ok_bind, i64_ok (by omega),
          Outcome.ok_bind, i64_ok (by omega), Outcome.ok_bind]
        exact ⟨_, rfl, by rw [toU64_ok (by omega) (by omega)]; omega⟩

/-- Instants more than 292 years apart make a signed number overflow (although the result would fit the
unsigned number returned): undefined behaviour. -/
theorem C41_violated_overflow (b u : Timespec) (hb : Normalised b) (hu : Normalised u)
    (h : 9223372037 < u.sec - b.sec) : timesecElapsed b u = .ub := by
  obtain ⟨bs, bn⟩ := b
  obtain ⟨us, un⟩ := u
  simp only [Normalised] at hb hu
  simp only [timesecElapsed]
  dsimp only at h
  have bad : ∀ v : Int, 2 ^ 63 ≤ v → i64 v = .ub := fun v hv => by unfold i64; rw [if_neg (by omega)]
  rw [if_neg (by omega), if_neg (by omega)]
  by_cases hbig : 2 ^ 63 ≤ us - bs
  · rw [bad _ hbig]
    split <;> rfl
  · rw [i64_ok (by omega), Outcome.ok_bind, Outcome.ok_bind]
    split
    · rw [i64_ok (by omega), Outcome.ok_bind, bad _ (by omega)]; rfl
    · rw [bad _ (by omega)]; rfl

/-- One second and a bit, with a borrow. -/
example : Normalised ⟨10, 900000000⟩ ∧ Normalised ⟨12, 100000000⟩ ∧
    timesecElapsed ⟨10, 900000000⟩ ⟨12, 100000000⟩ = .ok 1200000000 :=
  ⟨by simp [Normalised], by simp [Normalised], by decide +kernel⟩

end Msat.Props
