import Mathlib.Data.Nat.Bitwise
import Verif.Model.HriMachine
import Verif.Spec.HriMachine
import Mathlib.Tactic.Ring
import Mathlib.Tactic.Linarith
import Mathlib.Tactic.NormNum
import Mathlib.Tactic.Positivity
import Mathlib.Tactic.FieldSimp

namespace Msat.Props
open Hri HriSpec

theorem and_7fffffff (w : Nat) : w &&& 0x7FFFFFFF = w % 2 ^ 31 := Nat.and_two_pow_sub_one_eq_mod w 31
theorem and_ffffff (w : Nat) : w &&& 0x00FFFFFF = w % 2 ^ 24 := Nat.and_two_pow_sub_one_eq_mod w 24
theorem and_7fffff (w : Nat) : w &&& 0x007FFFFF = w % 2 ^ 23 := Nat.and_two_pow_sub_one_eq_mod w 23
theorem and_fffff (w : Nat) : w &&& 0x000FFFFF = w % 2 ^ 20 := Nat.and_two_pow_sub_one_eq_mod w 20

theorem and_exp (w : Nat) : (w &&& 0x7F000000) >>> 24 = w / 2 ^ 24 % 128 := by
  rw [Nat.shiftRight_and_distrib, Nat.shiftRight_eq_div_pow]
  exact Nat.and_two_pow_sub_one_eq_mod _ 7

theorem and_bit (w k : Nat) : w &&& 2 ^ k = w / 2 ^ k % 2 * 2 ^ k := by
  rw [Nat.and_comm, Nat.two_pow_and, Nat.testBit_eq_decide_div_mod_eq, Nat.mul_comm]
  rcases Nat.mod_two_eq_zero_or_one (w / 2 ^ k) with h | h <;> simp [h]

theorem or_add {a b : Nat} (k : Nat) (h : b < 2 ^ k) : (a * 2 ^ k) ||| b = a * 2 ^ k + b := by
  have := Nat.shiftLeft_add_eq_or_of_lt h a
  rw [Nat.shiftLeft_eq] at this
  exact this.symm

theorem normalise_spec (k : Nat) (f : Nat) (e : Int) (h0 : 0 < f) (h1 : f < 2 * 2 ^ k) :
    ∃ j : Nat, normalise (2 ^ k) f e = (f * 2 ^ j, e - j) ∧ 2 ^ k ≤ f * 2 ^ j ∧ f * 2 ^ j < 2 * 2 ^ k := by
  fun_induction normalise (2 ^ k) f e with
  | case1 f e h =>
    refine ⟨0, by simp, ?_, by simpa using h1⟩
    rw [and_bit] at h
    have hb : f / 2 ^ k % 2 ≠ 0 := by
      rcases h with h | h | h
      · intro e; rw [e] at h; simp at h
      · omega
      · omega
    have : 0 < f / 2 ^ k := by
      rcases Nat.eq_zero_or_pos (f / 2 ^ k) with h | h
      · rw [h] at hb; simp at hb
      · exact h
    have := (Nat.div_pos_iff.1 this).2
    simpa using this
  | case2 f e h ih =>
    rw [and_bit] at h
    have hlt : f < 2 ^ k := by
      by_contra hge
      apply h
      left
      have : f / 2 ^ k = 1 := by
        apply Nat.div_eq_of_lt_le <;> omega
      rw [this]
      have := Nat.two_pow_pos k
      simp
    rw [Nat.shiftLeft_eq] at ih ⊢
    obtain ⟨j, e1, e2, e3⟩ := ih (by omega) (by omega)
    have e4 : f * 2 ^ 1 * 2 ^ j = f * 2 ^ (j + 1) := by rw [Nat.mul_assoc, ← Nat.pow_add, Nat.add_comm]
    rw [e4] at e1 e2 e3
    refine ⟨j + 1, ?_, e2, e3⟩
    rw [e1]
    congr 1
    push_cast
    omega

theorem timesFour_eq (e : Int) : timesFour e = 4 * e := by
  unfold timesFour; split <;> omega

/-- The result when the fraction is not zero. -/
theorem r4Bits_eq (w : Nat) (hF : w % 2 ^ 24 ≠ 0) :
    ∃ f j : Nat, f = w % 2 ^ 24 * 2 ^ j ∧ 2 ^ 23 ≤ f ∧ f < 2 ^ 24 ∧
      ∃ E : Int, E = 4 * (((w / 2 ^ 24 % 128 : Nat) : Int) - 64) - 1 - j + 127 ∧
      r4Bits w = if 255 ≤ E then w / 2 ^ 31 % 2 * 2 ^ 31 + 0x7F7FFFFF
        else if E ≤ 0 then w / 2 ^ 31 % 2 * 2 ^ 31
        else w / 2 ^ 31 % 2 * 2 ^ 31 + E.toNat * 2 ^ 23 + (f - 2 ^ 23) := by
  obtain ⟨j, e1, e2, e3⟩ := normalise_spec 23 (w % 2 ^ 24)
    (4 * (((w / 2 ^ 24 % 128 : Nat) : Int) - 64) - 1) (by omega) (by omega)
  refine ⟨_, j, rfl, e2, by omega, _, rfl, ?_⟩
  have hs : w &&& 0x80000000 = w / 2 ^ 31 % 2 * 2 ^ 31 := and_bit w 31
  unfold r4Bits
  rw [and_7fffffff, if_neg (by omega)]
  simp only [and_exp, and_ffffff, hs, timesFour_eq]
  rw [if_pos hF]
  have e1' : normalise 0x00800000 (w % 2 ^ 24) (4 * (((w / 2 ^ 24 % 128 : Nat) : Int) - 64) - 1) = _ := e1
  rw [e1']
  simp only [and_7fffff]
  generalize w % 2 ^ 24 * 2 ^ j = f at *
  generalize 4 * (((w / 2 ^ 24 % 128 : Nat) : Int) - 64) - 1 - j + 127 = E
  have hm : f % 2 ^ 23 = f - 2 ^ 23 := by omega
  rw [hm]
  split
  · exact or_add 31 (by norm_num)
  · split
    · rfl
    · rename_i h1 h2
      have hlt : E.toNat * 2 ^ 23 + (f - 2 ^ 23) < 2 ^ 31 := by
        have : E.toNat ≤ 254 := by omega
        have := Nat.mul_le_mul_right (2 ^ 23) this
        omega
      rw [Nat.shiftLeft_eq, Nat.or_assoc, or_add 23 (by omega), or_add 31 hlt, Nat.add_assoc]

end Msat.Props
