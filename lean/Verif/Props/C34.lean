import Verif.Lemmas.HriMachine
import Mathlib.Algebra.Order.Field.Power
import Mathlib.Tactic.Positivity

namespace Msat.Props
open Hri HriSpec

/-! ## 32 bits -/

theorem sgn_abs (k w : Nat) : |sgn k w| = 1 := by unfold sgn; split <;> simp

theorem zpow16 (n : ℤ) : (16 : ℚ) ^ n = 2 ^ (4 * n) := by
  rw [zpow_mul]; norm_num

/-- The value of an IBM number in terms of its normalised fraction. -/
theorem ibm4_norm (w f j : Nat) (hf : f = w % 2 ^ 24 * 2 ^ j) (E : Int)
    (hE : E = 4 * (((w / 2 ^ 24 % 128 : Nat) : Int) - 64) - 1 - j + 127) :
    ibm4 w = sgn 31 w * f * (2 : ℚ) ^ (E - 150) := by
  unfold ibm4
  rw [zpow16, hf, hE]
  generalize w / 2 ^ 24 % 128 = c
  generalize w % 2 ^ 24 = F
  push_cast
  rw [show (4 * ((c : Int) - 64) - 1 - j + 127 - 150) = 4 * ((c : Int) - 64) - j - 24 by ring, zpow_sub₀ (by norm_num), zpow_sub₀ (by norm_num)]
  have : (2 : ℚ) ^ (j : ℤ) = 2 ^ j := zpow_natCast 2 j
  rw [this]
  have h2 : (2 : ℚ) ^ (24 : ℤ) = 2 ^ 24 := by norm_num
  rw [h2]
  field_simp

theorem ibm4_abs (w f : Nat) (E : Int) (h : ibm4 w = sgn 31 w * f * (2 : ℚ) ^ (E - 150)) :
    |ibm4 w| = f * (2 : ℚ) ^ (E - 150) := by
  rw [h, abs_mul, abs_mul, sgn_abs, one_mul, abs_of_nonneg (by positivity), abs_of_nonneg (by positivity)]

theorem mul_zpow_lt {f : Nat} {E : Int} (h : f < 2 ^ 24) : (f : ℚ) * (2 : ℚ) ^ (E - 150) < 2 ^ (E - 126) := by
  have : (2 : ℚ) ^ (E - 126) = 2 ^ 24 * 2 ^ (E - 150) := by
    rw [show E - 126 = 24 + (E - 150) by ring, zpow_add₀ (by norm_num)]; norm_num
  rw [this]
  have hp : (0 : ℚ) < 2 ^ (E - 150) := by positivity
  exact mul_lt_mul_of_pos_right (by exact_mod_cast h) hp

theorem le_mul_zpow {f : Nat} {E : Int} (h : 2 ^ 23 ≤ f) : (2 : ℚ) ^ (E - 127) ≤ (f : ℚ) * (2 : ℚ) ^ (E - 150) := by
  have : (2 : ℚ) ^ (E - 127) = 2 ^ 23 * 2 ^ (E - 150) := by
    rw [show E - 127 = 23 + (E - 150) by ring, zpow_add₀ (by norm_num)]; norm_num
  rw [this]
  have hp : (0 : ℚ) < 2 ^ (E - 150) := by positivity
  exact mul_le_mul_of_nonneg_right (by exact_mod_cast h) hp.le

theorem zpow_lt_iff {a b : Int} : (2 : ℚ) ^ a < 2 ^ b ↔ a < b := zpow_lt_zpow_iff_right₀ (by norm_num)

theorem frac_ne_zero {w : Nat} (h : ibm4 w ≠ 0) : w % 2 ^ 24 ≠ 0 := by
  intro e; apply h; unfold ibm4; rw [e]; simp

/-- Every IBM number of 32 bits whose magnitude is in the range of normal IEEE numbers is converted to the IEEE
number with the same value. -/
theorem C34_exact_partial (w : Nat) (hlo : (2 : ℚ) ^ (-126 : ℤ) ≤ |ibm4 w|) (hhi : |ibm4 w| < (2 : ℚ) ^ (128 : ℤ)) :
    ieee4 (r4Bits w) = some (ibm4 w) := by
  have hF : w % 2 ^ 24 ≠ 0 := frac_ne_zero (by
    intro e; rw [e] at hlo
    have : (0 : ℚ) < 2 ^ (-126 : ℤ) := by positivity
    simp at hlo; linarith)
  obtain ⟨f, j, hf, h1, h2, E, hE, hr⟩ := r4Bits_eq w hF
  have hv := ibm4_norm w f j hf E hE
  have ha := ibm4_abs w f E hv
  rw [ha] at hlo hhi
  have hE1 : -126 < E - 126 := zpow_lt_iff.1 (lt_of_le_of_lt hlo (mul_zpow_lt h2))
  have hE2 : E - 127 < 128 := zpow_lt_iff.1 (lt_of_le_of_lt (le_mul_zpow h1) hhi)
  rw [hr, if_neg (by omega), if_neg (by omega)]
  obtain ⟨n, rfl⟩ : ∃ n : Nat, E = n := ⟨E.toNat, by omega⟩
  rw [Int.toNat_natCast]
  have hn : n ≤ 254 ∧ 1 ≤ n := by omega
  obtain ⟨m, rfl⟩ : ∃ m, f = 2 ^ 23 + m := ⟨f - 2 ^ 23, by omega⟩
  have hm : m < 2 ^ 23 := by omega
  have hs : w / 2 ^ 31 % 2 < 2 := Nat.mod_lt _ (by norm_num)
  have hsg : sgn 31 (w / 2 ^ 31 % 2 * 2 ^ 31 + n * 2 ^ 23 + (2 ^ 23 + m - 2 ^ 23)) = sgn 31 w := by
    unfold sgn
    have : (w / 2 ^ 31 % 2 * 2 ^ 31 + n * 2 ^ 23 + (2 ^ 23 + m - 2 ^ 23)) / 2 ^ 31 % 2 = w / 2 ^ 31 % 2 := by omega
    rw [this]
  unfold ieee4
  simp only
  rw [show (w / 2 ^ 31 % 2 * 2 ^ 31 + n * 2 ^ 23 + (2 ^ 23 + m - 2 ^ 23)) / 2 ^ 23 % 256 = n by omega,
    show (w / 2 ^ 31 % 2 * 2 ^ 31 + n * 2 ^ 23 + (2 ^ 23 + m - 2 ^ 23)) % 2 ^ 23 = m by omega,
    if_neg (by omega), if_neg (by omega), hsg, hv]

/-- Zeros are zeros. -/
theorem C34_zero (w : Nat) (h : w % 2 ^ 31 = 0) : ieee4 (r4Bits w) = some 0 ∧ ibm4 w = 0 := by
  constructor
  · unfold r4Bits
    rw [and_7fffffff, if_pos h]
    unfold ieee4
    simp only
    rw [show w % 2 ^ 32 / 2 ^ 23 % 256 = 0 by omega, show w % 2 ^ 32 % 2 ^ 23 = 0 by omega]
    simp
  · unfold ibm4
    rw [show w % 2 ^ 24 = 0 by omega]; simp

/-- Numbers too large for an IEEE number become the largest one, with their sign. -/
theorem C34_too_large (w : Nat) (h : (2 : ℚ) ^ (128 : ℤ) ≤ |ibm4 w|) :
    ieee4 (r4Bits w) = some (sgn 31 w * (2 ^ 24 - 1) * (2 : ℚ) ^ (104 : ℤ)) := by
  have hF : w % 2 ^ 24 ≠ 0 := frac_ne_zero (by
    intro e; rw [e] at h
    have : (0 : ℚ) < 2 ^ (128 : ℤ) := by positivity
    simp at h; linarith)
  obtain ⟨f, j, hf, h1, h2, E, hE, hr⟩ := r4Bits_eq w hF
  have hv := ibm4_norm w f j hf E hE
  have ha := ibm4_abs w f E hv
  rw [ha] at h
  have hE1 : 128 < E - 126 := zpow_lt_iff.1 (lt_of_le_of_lt h (mul_zpow_lt h2))
  rw [hr, if_pos (by omega)]
  have hs : w / 2 ^ 31 % 2 < 2 := Nat.mod_lt _ (by norm_num)
  have hsg : sgn 31 (w / 2 ^ 31 % 2 * 2 ^ 31 + 0x7F7FFFFF) = sgn 31 w := by
    unfold sgn
    have : (w / 2 ^ 31 % 2 * 2 ^ 31 + 0x7F7FFFFF) / 2 ^ 31 % 2 = w / 2 ^ 31 % 2 := by omega
    rw [this]
  unfold ieee4
  simp only
  rw [show (w / 2 ^ 31 % 2 * 2 ^ 31 + 0x7F7FFFFF) / 2 ^ 23 % 256 = 254 by omega,
    show (w / 2 ^ 31 % 2 * 2 ^ 31 + 0x7F7FFFFF) % 2 ^ 23 = 2 ^ 23 - 1 by omega, hsg]
  norm_num

/-- Numbers below the range of normal IEEE numbers become zero. -/
theorem C34_too_small (w : Nat) (h0 : ibm4 w ≠ 0) (h : |ibm4 w| < (2 : ℚ) ^ (-126 : ℤ)) :
    ieee4 (r4Bits w) = some 0 := by
  have hF : w % 2 ^ 24 ≠ 0 := frac_ne_zero h0
  obtain ⟨f, j, hf, h1, h2, E, hE, hr⟩ := r4Bits_eq w hF
  have hv := ibm4_norm w f j hf E hE
  have ha := ibm4_abs w f E hv
  rw [ha] at h
  have hE1 : E - 127 < -126 := zpow_lt_iff.1 (lt_of_le_of_lt (le_mul_zpow h1) h)
  rw [hr, if_neg (by omega), if_pos (by omega)]
  unfold ieee4
  simp only
  rw [show (w / 2 ^ 31 % 2 * 2 ^ 31) / 2 ^ 23 % 256 = 0 by omega,
    show (w / 2 ^ 31 % 2 * 2 ^ 31) % 2 ^ 23 = 0 by omega]
  simp

/-- The number read is the one in the file, on machines where a `long` has four bytes, of either byte order. -/
theorem C34_read_partial (machine : Bool) (w : Nat) (hw : w < 2 ^ 32) (rest : Bytes) :
    r4FromBuff 4 machine (bytes4 w ++ rest) = .ok (r4Bits w) := by
  have hn : ∀ x : Nat, (UInt8.ofNat x).toNat = x % 256 := by intro x; simp
  have hd : detectBig machine = machine := by cases machine <;> decide
  unfold r4FromBuff bytes4
  simp only [List.cons_append, List.nil_append, hd]
  cases machine
  · simp only [Bool.false_eq_true, if_false, Nat.le_refl, if_true, load, List.reverse_cons, List.reverse_nil,
      List.nil_append, List.cons_append, List.foldl_cons, List.foldl_nil, hn]
    refine congrArg (fun x => Outcome.ok (r4Bits x)) ?_
    omega
  · simp only [if_true, load, List.take_succ_cons, List.take_zero, List.foldl_cons, List.foldl_nil, hn]
    rw [if_pos (by omega)]
    refine congrArg (fun x => Outcome.ok (r4Bits x)) ?_
    omega

/-- A fraction of zero with an exponent is not converted to zero: 0x41000000 becomes 8. -/
theorem C34_violated_zero_fraction :
    ibm4 0x41000000 = 0 ∧ ieee4 0 = some 0 ∧ ieee4 (r4Bits 0x41000000) = some 8 := by
  refine ⟨?_, ?_, ?_⟩
  · unfold ibm4; norm_num
  · unfold ieee4 sgn; norm_num
  · have : r4Bits 0x41000000 = 0x41000000 := by decide +kernel
    rw [this]
    unfold ieee4 sgn
    norm_num

/-- A number that a denormalised IEEE number represents exactly is converted to zero: 0x20100000 is 2 to the
power -132. -/
theorem C34_violated_denormal :
    ibm4 0x20100000 = (2 : ℚ) ^ (-132 : ℤ) ∧ ieee4 0x00020000 = some ((2 : ℚ) ^ (-132 : ℤ)) ∧
    ieee4 (r4Bits 0x20100000) = some 0 := by
  refine ⟨?_, ?_, ?_⟩
  · unfold ibm4 sgn; norm_num
  · unfold ieee4 sgn; norm_num
  · have : r4Bits 0x20100000 = 0 := by decide +kernel
    rw [this]
    unfold ieee4
    norm_num

/-- Where a `long` has eight bytes, as on all current 64 bit systems, the four bytes of the number are read
with an access of eight bytes: outside of the array. -/
theorem C34_violated_long (b : Bytes) : r4FromBuff 8 false b = .ub ∧ r8FromBuff 8 false b = .ub := by
  constructor
  · unfold r4FromBuff
    split
    · rw [if_neg (by decide), if_neg (by decide)]
    · rfl
  · unfold r8FromBuff
    split
    · rw [if_neg (by decide)]
    · rfl

/-- What is read beyond the four bytes makes no difference, as long as the access itself is tolerated. -/
theorem C34_beyond (w g : Nat) : r4Bits (w + g * 2 ^ 32) = r4Bits w := by
  have h1 : (w + g * 2 ^ 32) &&& 0x7FFFFFFF = w &&& 0x7FFFFFFF := by
    rw [and_7fffffff, and_7fffffff]; omega
  have h2 : (w + g * 2 ^ 32) &&& 0x80000000 = w &&& 0x80000000 := by
    have a := and_bit w 31
    have b := and_bit (w + g * 2 ^ 32) 31
    rw [show (w + g * 2 ^ 32) / 2 ^ 31 % 2 = w / 2 ^ 31 % 2 by omega] at b
    exact b.trans a.symm
  have h3 : ((w + g * 2 ^ 32) &&& 0x7F000000) >>> 24 = (w &&& 0x7F000000) >>> 24 := by
    rw [and_exp, and_exp]; omega
  have h4 : (w + g * 2 ^ 32) &&& 0x00FFFFFF = w &&& 0x00FFFFFF := by
    rw [and_ffffff, and_ffffff]; omega
  unfold r4Bits
  rw [h1, h2, h3, h4, show (w + g * 2 ^ 32) % 2 ^ 32 = w % 2 ^ 32 by omega]

/-- -118.625 is 0xC276A000. -/
example : ibm4 0xC276A000 = -118.625 ∧ (2 : ℚ) ^ (-126 : ℤ) ≤ |ibm4 0xC276A000| ∧
    |ibm4 0xC276A000| < (2 : ℚ) ^ (128 : ℤ) ∧ r4Bits 0xC276A000 = 0xC2ED4000 := by
  have h : ibm4 0xC276A000 = -118.625 := by unfold ibm4 sgn; norm_num
  refine ⟨h, ?_, ?_, by decide +kernel⟩
  · rw [h, abs_of_neg (by norm_num)]; norm_num
  · rw [h, abs_of_neg (by norm_num)]; norm_num

/-! ## 64 bits -/

theorem leftshift_eq {hi lo : Nat} (h : hi < 2 ^ 25) (hl : lo < 2 ^ 32) :
    leftshift hi lo = (2 * (hi * 2 ^ 32 + lo) / 2 ^ 32, 2 * (hi * 2 ^ 32 + lo) % 2 ^ 32) := by
  unfold leftshift
  have e : (lo >>> 31) &&& 1 = lo / 2 ^ 31 := by
    rw [Nat.and_one_is_mod, Nat.shiftRight_eq_div_pow]; omega
  rw [e, Nat.shiftLeft_eq, or_add 1 (by omega), Nat.shiftLeft_eq]
  congr 1 <;> omega

theorem rightshift_eq (n : Nat) : ∀ {hi lo : Nat}, hi < 2 ^ 32 → lo < 2 ^ 32 →
    rightshift hi lo n = ((hi * 2 ^ 32 + lo) / 2 ^ n / 2 ^ 32, (hi * 2 ^ 32 + lo) / 2 ^ n % 2 ^ 32) := by
  induction n with
  | zero =>
    intro hi lo h1 h2
    unfold rightshift
    simp only [Nat.pow_zero, Nat.div_one]
    congr 1 <;> omega
  | succ n ih =>
    intro hi lo h1 h2
    have e : (hi <<< 31 ||| (lo >>> 1) &&& 0x7FFFFFFF) % 2 ^ 32 = hi % 2 * 2 ^ 31 + lo / 2 := by
      rw [and_7fffffff, Nat.shiftRight_eq_div_pow, Nat.shiftLeft_eq, or_add 31 (Nat.mod_lt _ (by norm_num))]
      omega
    rw [rightshift, e, Nat.shiftRight_eq_div_pow, ih (by omega) (by omega)]
    have e2 : hi / 2 ^ 1 * 2 ^ 32 + (hi % 2 * 2 ^ 31 + lo / 2) = (hi * 2 ^ 32 + lo) / 2 := by omega
    rw [e2, Nat.pow_succ (n := 2) (m := n), Nat.mul_comm (2 ^ n) 2, ← Nat.div_div_eq_div_mul]

theorem normalise2_spec (hi lo : Nat) (e : Int) (h0 : 0 < hi) (h1 : hi < 2 ^ 25) (hl : lo < 2 ^ 32) :
    ∃ j v : Nat, v = (hi * 2 ^ 32 + lo) * 2 ^ j ∧ normalise2 hi lo e = ((v / 2 ^ 32, v % 2 ^ 32), e - j) ∧
      2 ^ 56 ≤ v ∧ v < 2 ^ 57 := by
  fun_induction normalise2 hi lo e with
  | case1 hi lo e h =>
    refine ⟨0, hi * 2 ^ 32 + lo, by simp, ?_, ?_, by omega⟩
    · rw [Int.natCast_zero, Int.sub_zero]
      congr 2 <;> omega
    · have hb := and_bit hi 24
      have hb' : hi &&& 0x01000000 = hi / 2 ^ 24 % 2 * 2 ^ 24 := hb
      rw [hb'] at h
      omega
  | case2 hi lo e h ih =>
    have hb' : hi &&& 0x01000000 = hi / 2 ^ 24 % 2 * 2 ^ 24 := and_bit hi 24
    rw [hb'] at h
    have hlt : hi < 2 ^ 24 := by omega
    rw [leftshift_eq (by omega) hl] at ih ⊢
    obtain ⟨j, v, e0, e1, e2, e3⟩ := ih (by omega) (by omega) (by omega)
    refine ⟨j + 1, v, ?_, ?_, e2, e3⟩
    · rw [e0, Nat.pow_succ (n := 2) (m := j), Nat.mul_comm (2 ^ j) 2, ← Nat.mul_assoc]
      congr 1
      omega
    · rw [e1]
      congr 1
      push_cast
      omega

/-- The result when the high part of the fraction is not zero. -/
theorem r8Bits_eq (w0 w1 : Nat) (hF : w0 % 2 ^ 24 ≠ 0) (h1 : w1 < 2 ^ 32) :
    ∃ v j : Nat, v = (w0 % 2 ^ 24 * 2 ^ 32 + w1) * 2 ^ j ∧ 2 ^ 56 ≤ v ∧ v < 2 ^ 57 ∧ j ≤ 56 ∧
      ∃ E : Nat, (E : Int) = 4 * (((w0 / 2 ^ 24 % 128 : Nat) : Int) - 64) - j + 1023 ∧ 0 < E ∧ E < 2047 ∧
      (r8Bits w0 w1).1 * 2 ^ 32 + (r8Bits w0 w1).2
        = w0 / 2 ^ 31 % 2 * 2 ^ 63 + E * 2 ^ 52 + (v / 16 - 2 ^ 52) := by
  obtain ⟨j, v, e0, e1, e2, e3⟩ := normalise2_spec (w0 % 2 ^ 24) w1
    (4 * (((w0 / 2 ^ 24 % 128 : Nat) : Int) - 64)) (by omega) (by omega) h1
  have hj : j ≤ 56 := by
    by_contra hge
    have : 2 ^ 57 ≤ 2 ^ j := Nat.pow_le_pow_right (by norm_num) (by omega)
    have h3 : 1 * 2 ^ j ≤ (w0 % 2 ^ 24 * 2 ^ 32 + w1) * 2 ^ j := Nat.mul_le_mul_right _ (by omega)
    omega
  have hc : w0 / 2 ^ 24 % 128 < 128 := Nat.mod_lt _ (by norm_num)
  refine ⟨v, j, e0, e2, e3, hj, (4 * (((w0 / 2 ^ 24 % 128 : Nat) : Int) - 64) - j + 1023).toNat, ?_, ?_, ?_, ?_⟩
  · omega
  · omega
  · omega
  have hs : w0 &&& 0x80000000 = w0 / 2 ^ 31 % 2 * 2 ^ 31 := and_bit w0 31
  unfold r8Bits
  rw [and_7fffffff, if_neg (by omega)]
  simp only [and_exp, and_ffffff, hs, timesFour_eq]
  rw [if_pos hF, e1]
  simp only
  rw [rightshift_eq 4 (by omega) (by omega)]
  simp only [and_fffff]
  rw [show v / 2 ^ 32 * 2 ^ 32 + v % 2 ^ 32 = v by omega]
  rw [if_neg (by omega), if_neg (by omega)]
  have hEb : 0 ≤ 4 * (((w0 / 2 ^ 24 % 128 : Nat) : Int) - 64) - j + 1023 ∧
      4 * (((w0 / 2 ^ 24 % 128 : Nat) : Int) - 64) - j + 1023 ≤ 2046 := by omega
  generalize (4 * (((w0 / 2 ^ 24 % 128 : Nat) : Int) - 64) - (j : Int) + 1023) = E at *
  have hlt : v / 2 ^ 4 / 2 ^ 32 % 2 ^ 20 < 2 ^ 20 := Nat.mod_lt _ (by norm_num)
  have hE : E.toNat ≤ 2046 := by omega
  have hm := Nat.mul_le_mul_right (2 ^ 20) hE
  rw [Nat.shiftLeft_eq, Nat.or_assoc, or_add 20 hlt, or_add 31 (by omega)]
  simp only
  generalize E.toNat = n at *
  generalize w0 / 2 ^ 31 % 2 = s at *
  omega

/-- The value of an IBM number in terms of its normalised fraction. -/
theorem ibm8_norm (w v j E : Nat) (hv : v = w % 2 ^ 56 * 2 ^ j)
    (hE : (E : Int) = 4 * (((w / 2 ^ 56 % 128 : Nat) : Int) - 64) - j + 1023) :
    ibm8 w = sgn 63 w * v * (2 : ℚ) ^ ((E : ℤ) - 1079) := by
  unfold ibm8
  rw [zpow16, hv, hE]
  generalize w / 2 ^ 56 % 128 = c
  generalize w % 2 ^ 56 = F
  push_cast
  rw [show (4 * ((c : Int) - 64) - j + 1023 - 1079) = 4 * ((c : Int) - 64) - j - 56 by ring, zpow_sub₀ (by norm_num), zpow_sub₀ (by norm_num)]
  have : (2 : ℚ) ^ (j : ℤ) = 2 ^ j := zpow_natCast 2 j
  rw [this]
  have h2 : (2 : ℚ) ^ (56 : ℤ) = 2 ^ 56 := by norm_num
  rw [h2]
  field_simp

theorem split_fields (w : Nat) : w / 2 ^ 32 % 2 ^ 24 * 2 ^ 32 + w % 2 ^ 32 = w % 2 ^ 56 ∧
    w / 2 ^ 32 / 2 ^ 24 % 128 = w / 2 ^ 56 % 128 ∧ w / 2 ^ 32 / 2 ^ 31 % 2 = w / 2 ^ 63 % 2 := by
  refine ⟨?_, ?_, ?_⟩ <;> omega

theorem ieee8_fields (s E t w : Nat) (hs : s = w / 2 ^ 63 % 2) (h0 : 0 < E) (h1 : E < 2047) (h2 : 2 ^ 52 ≤ t)
    (h3 : t < 2 ^ 53) : ieee8 (s * 2 ^ 63 + E * 2 ^ 52 + (t - 2 ^ 52))
      = some (sgn 63 w * t * (2 : ℚ) ^ ((E : ℤ) - 1075)) := by
  have hs2 : s < 2 := by rw [hs]; exact Nat.mod_lt _ (by norm_num)
  obtain ⟨m, rfl⟩ : ∃ m, t = 2 ^ 52 + m := ⟨t - 2 ^ 52, by omega⟩
  have hm : m < 2 ^ 52 := by omega
  rw [Nat.add_sub_cancel_left]
  have hS : sgn 63 (s * 2 ^ 63 + E * 2 ^ 52 + m) = sgn 63 w := by
    unfold sgn
    have : (s * 2 ^ 63 + E * 2 ^ 52 + m) / 2 ^ 63 % 2 = w / 2 ^ 63 % 2 := by omega
    rw [this]
  unfold ieee8
  simp only
  rw [show (s * 2 ^ 63 + E * 2 ^ 52 + m) / 2 ^ 52 % 2048 = E by omega,
    show (s * 2 ^ 63 + E * 2 ^ 52 + m) % 2 ^ 52 = m by omega, if_neg (by omega), if_neg (by omega), hS]

theorem r8_value (w : Nat) (hF : w / 2 ^ 32 % 2 ^ 24 ≠ 0) :
    ∃ v E : Nat, 2 ^ 56 ≤ v ∧ v < 2 ^ 57 ∧ 0 < E ∧ E < 2047 ∧ 600 < E ∧
      ibm8 w = sgn 63 w * v * (2 : ℚ) ^ ((E : ℤ) - 1079) ∧
      ieee8 ((r8Bits (w / 2 ^ 32) (w % 2 ^ 32)).1 * 2 ^ 32 + (r8Bits (w / 2 ^ 32) (w % 2 ^ 32)).2)
        = some (sgn 63 w * (v / 16 : Nat) * (2 : ℚ) ^ ((E : ℤ) - 1075)) := by
  obtain ⟨v, j, e0, e2, e3, hj, E, hE, hE0, hE1, hr⟩ := r8Bits_eq (w / 2 ^ 32) (w % 2 ^ 32) hF (Nat.mod_lt _ (by norm_num))
  obtain ⟨hfr, hex, hsg⟩ := split_fields w
  rw [hfr] at e0
  rw [hex] at hE
  rw [hsg] at hr
  rw [hr]
  clear hr
  have hc : w / 2 ^ 56 % 128 < 128 := Nat.mod_lt _ (by norm_num)
  have h6 : 600 < E := by
    clear e0 hfr
    omega
  refine ⟨v, E, e2, e3, hE0, hE1, h6, ibm8_norm w v j E e0 hE, ?_⟩
  clear e0 hfr hE
  exact ieee8_fields _ E (v / 16) w rfl hE0 hE1 (by omega) (by omega)

/-- The double made from the 64 bits of an IBM number. -/
def r8Of (w : Nat) : Nat := (r8Bits (w / 2 ^ 32) (w % 2 ^ 32)).1 * 2 ^ 32 + (r8Bits (w / 2 ^ 32) (w % 2 ^ 32)).2

/-- An IBM number of 64 bits whose leading 24 bits of fraction are not all zero is rounded towards zero to the
precision of an IEEE number: the error is less than one unit in the last place. -/
theorem C34_double_partial (w : Nat) (hF : w / 2 ^ 32 % 2 ^ 24 ≠ 0) :
    ∃ d, ieee8 (r8Of w) = some d ∧ |d| ≤ |ibm8 w| ∧ |ibm8 w| - |d| < |d| / 2 ^ 52 ∧ 0 ≤ d * ibm8 w := by
  obtain ⟨v, E, e2, e3, _, _, _, hv, hr⟩ := r8_value w hF
  refine ⟨_, hr, ?_⟩
  have hp : (0 : ℚ) < 2 ^ ((E : ℤ) - 1079) := by positivity
  have e75 : (2 : ℚ) ^ ((E : ℤ) - 1075) = 16 * 2 ^ ((E : ℤ) - 1079) := by
    rw [show (E : ℤ) - 1075 = 4 + (E - 1079) by ring, zpow_add₀ (by norm_num)]; norm_num
  have h16 : ((v / 16 : Nat) : ℚ) * 16 ≤ v := by exact_mod_cast Nat.div_mul_le_self v 16
  have h17 : (v : ℚ) < (v / 16 : Nat) * 16 + 16 := by exact_mod_cast (by omega : v < v / 16 * 16 + 16)
  have h52 : (2 : ℚ) ^ 52 ≤ (v / 16 : Nat) := by exact_mod_cast (by omega : 2 ^ 52 ≤ v / 16)
  rw [hv, e75]
  generalize (2 : ℚ) ^ ((E : ℤ) - 1079) = p at *
  generalize ((v / 16 : Nat) : ℚ) = t at *
  have ht : (0 : ℚ) ≤ t := by linarith [show (0 : ℚ) ≤ 2 ^ 52 by positivity]
  have hvv : (0 : ℚ) ≤ v := by positivity
  have ha1 : |sgn 63 w * t * (16 * p)| = t * (16 * p) := by
    rw [abs_mul, abs_mul, sgn_abs, one_mul, abs_of_nonneg ht, abs_of_nonneg (by positivity)]
  have ha2 : |sgn 63 w * v * p| = v * p := by
    rw [abs_mul, abs_mul, sgn_abs, one_mul, abs_of_nonneg hvv, abs_of_nonneg hp.le]
  rw [ha1, ha2]
  refine ⟨?_, ?_, ?_⟩
  · have := mul_le_mul_of_nonneg_right h16 hp.le
    linarith
  · rw [lt_div_iff₀ (by positivity)]
    have h1 : (v : ℚ) * p - t * (16 * p) < 16 * p := by
      have := mul_lt_mul_of_pos_right h17 hp
      linarith
    have h2 : (2 : ℚ) ^ 52 * (16 * p) ≤ t * (16 * p) := mul_le_mul_of_nonneg_right h52 (by positivity)
    have h3 := mul_lt_mul_of_pos_right h1 (show (0 : ℚ) < 2 ^ 52 by positivity)
    linarith
  · have hss : sgn 63 w * sgn 63 w = 1 := by unfold sgn; split <;> norm_num
    have : sgn 63 w * t * (16 * p) * (sgn 63 w * v * p) = (sgn 63 w * sgn 63 w) * (t * (16 * p) * (v * p)) := by ring
    rw [this, hss, one_mul]
    positivity

theorem two_adic_unique {M V : Nat} {a b : ℤ} (hM : 2 ^ 52 ≤ M) (hM' : M < 2 ^ 53) (hV : 2 ^ 56 ≤ V) (hV' : V < 2 ^ 57)
    (h : (M : ℚ) * 2 ^ a = V * 2 ^ b) : a = b + 4 := by
  have pa : (0 : ℚ) < 2 ^ a := by positivity
  have pb : (0 : ℚ) < 2 ^ b := by positivity
  have q1 : (2 : ℚ) ^ 52 ≤ M := by exact_mod_cast hM
  have q2 : (M : ℚ) < 2 ^ 53 := by exact_mod_cast hM'
  have q3 : (2 : ℚ) ^ 56 ≤ V := by exact_mod_cast hV
  have q4 : (V : ℚ) < 2 ^ 57 := by exact_mod_cast hV'
  have l1 : (2 : ℚ) ^ (52 + a) < 2 ^ (57 + b) := by
    rw [zpow_add₀ (by norm_num), zpow_add₀ (by norm_num)]
    have := mul_le_mul_of_nonneg_right q1 pa.le
    have := mul_lt_mul_of_pos_right q4 pb
    norm_num at *
    linarith
  have l2 : (2 : ℚ) ^ (56 + b) < 2 ^ (53 + a) := by
    rw [zpow_add₀ (by norm_num), zpow_add₀ (by norm_num)]
    have := mul_lt_mul_of_pos_right q2 pa
    have := mul_le_mul_of_nonneg_right q3 pb.le
    norm_num at *
    linarith
  rw [zpow_lt_iff] at l1 l2
  omega

/-- And it is converted exactly whenever an IEEE number with its value exists. -/
theorem C34_double_exact_partial (w : Nat) (hF : w / 2 ^ 32 % 2 ^ 24 ≠ 0)
    (hrep : ∃ b, ieee8 b = some (ibm8 w)) : ieee8 (r8Of w) = some (ibm8 w) := by
  obtain ⟨v, E, e2, e3, hE0, hE1, hE6, hv, hr⟩ := r8_value w hF
  have hp : (0 : ℚ) < 2 ^ ((E : ℤ) - 1079) := by positivity
  have habs : |ibm8 w| = v * 2 ^ ((E : ℤ) - 1079) := by
    rw [hv, abs_mul, abs_mul, sgn_abs, one_mul, abs_of_nonneg (by positivity), abs_of_nonneg hp.le]
  suffices hd : v % 16 = 0 by
    show ieee8 _ = _
    unfold r8Of
    rw [hr, hv]
    have e75 : (2 : ℚ) ^ ((E : ℤ) - 1075) = 16 * 2 ^ ((E : ℤ) - 1079) := by
      rw [show (E : ℤ) - 1075 = 4 + (E - 1079) by ring, zpow_add₀ (by norm_num)]; norm_num
    have : (v : ℚ) = (v / 16 : Nat) * 16 := by exact_mod_cast (by omega : v = v / 16 * 16)
    rw [e75, this]
    congr 1
    ring
  obtain ⟨b, hb⟩ := hrep
  unfold ieee8 at hb
  simp only at hb
  split at hb
  · cases hb
  · split at hb
    · -- a denormalised number is too small
      exfalso
      rename_i h0
      have hm : b % 2 ^ 52 < 2 ^ 52 := Nat.mod_lt _ (by norm_num)
      have hx : |ibm8 w| = (b % 2 ^ 52 : Nat) * 2 ^ (-1074 : ℤ) := by
        rw [← Option.some.inj hb, abs_mul, abs_mul, sgn_abs, one_mul, abs_of_nonneg (by positivity),
          abs_of_nonneg (by positivity)]
      rw [habs] at hx
      have q1 : (2 : ℚ) ^ 56 ≤ v := by exact_mod_cast e2
      have q2 : ((b % 2 ^ 52 : Nat) : ℚ) < 2 ^ 52 := by exact_mod_cast hm
      have pz : (0 : ℚ) < 2 ^ (-1074 : ℤ) := by positivity
      have l : (2 : ℚ) ^ (56 + ((E : ℤ) - 1079)) < 2 ^ (52 + (-1074 : ℤ)) := by
        rw [zpow_add₀ (by norm_num), zpow_add₀ (by norm_num)]
        have := mul_le_mul_of_nonneg_right q1 hp.le
        have := mul_lt_mul_of_pos_right q2 pz
        have e1 : (2 : ℚ) ^ (56 : ℤ) = 2 ^ 56 := by norm_num
        have e2 : (2 : ℚ) ^ (52 : ℤ) = 2 ^ 52 := by norm_num
        rw [e1, e2]
        linarith
      rw [zpow_lt_iff] at l
      omega
    · have hm : b % 2 ^ 52 < 2 ^ 52 := Nat.mod_lt _ (by norm_num)
      have hx : |ibm8 w| = ((2 ^ 52 + b % 2 ^ 52 : Nat) : ℚ) * 2 ^ (((b / 2 ^ 52 % 2048 : Nat) : ℤ) - 1075) := by
        rw [← Option.some.inj hb, abs_mul, abs_mul, sgn_abs, one_mul, abs_of_nonneg (by positivity),
          abs_of_nonneg (by positivity)]
      rw [habs] at hx
      have hu := two_adic_unique (by omega : 2 ^ 52 ≤ 2 ^ 52 + b % 2 ^ 52) (by omega) e2 e3 hx.symm
      rw [hu, zpow_add₀ (by norm_num)] at hx
      have h16 : (v : ℚ) = (2 ^ 52 + b % 2 ^ 52 : Nat) * 16 := by
        have : (2 : ℚ) ^ (4 : ℤ) = 16 := by norm_num
        rw [this] at hx
        have hx' : (v : ℚ) * 2 ^ ((E : ℤ) - 1079) = ((2 ^ 52 + b % 2 ^ 52 : Nat) * 16) * 2 ^ ((E : ℤ) - 1079) := by
          rw [hx]; ring
        exact mul_right_cancel₀ hp.ne' hx'
      have : v = (2 ^ 52 + b % 2 ^ 52) * 16 := by exact_mod_cast h16
      omega

/-- The number read is the one in the file, on machines where a `long` has four bytes, of either byte order. -/
theorem C34_double_read_partial (machine : Bool) (w : Nat) (hw : w < 2 ^ 64) (rest : Bytes) :
    r8FromBuff 4 machine (bytes4 (w / 2 ^ 32) ++ (bytes4 (w % 2 ^ 32) ++ rest)) = .ok (r8Of w) := by
  have hn : ∀ x : Nat, (UInt8.ofNat x).toNat = x % 256 := by intro x; simp
  have hd : detectBig machine = machine := by cases machine <;> decide
  have hl : ∀ x : Nat, x < 2 ^ 32 →
      (((0 * 256 + x / 2 ^ 24 % 256) * 256 + x / 2 ^ 16 % 256) * 256 + x / 2 ^ 8 % 256) * 256 + x % 256 = x := by
    intro x hx; omega
  unfold r8FromBuff bytes4 r8Of
  simp only [List.cons_append, List.nil_append, hd]
  have h1 : w / 2 ^ 32 < 2 ^ 32 := by omega
  have h2 : w % 2 ^ 32 < 2 ^ 32 := by omega
  generalize w / 2 ^ 32 = a at *
  generalize w % 2 ^ 32 = b at *
  cases machine
  · simp only [Bool.false_eq_true, if_false, if_true, load, List.reverse_cons, List.reverse_nil,
      List.nil_append, List.cons_append, List.foldl_cons, List.foldl_nil, hn]
    rw [hl a h1, hl b h2]
  · simp only [if_true, load, List.foldl_cons, List.foldl_nil, hn]
    rw [hl a h1, hl b h2]

/-- A number whose leading 24 bits of fraction are zero is not converted to its value: the value of
0x4E00000000000001 is 1, the result is 2 to the power 56. -/
theorem C34_violated_double_unnormalised :
    ibm8 0x4E00000000000001 = 1 ∧ ieee8 0x3FF0000000000000 = some 1 ∧
    ieee8 (r8Of 0x4E00000000000001) = some (2 ^ 56) := by
  refine ⟨?_, ?_, ?_⟩
  · unfold ibm8 sgn; norm_num
  · unfold ieee8 sgn; norm_num
  · have : r8Of 0x4E00000000000001 = 0x4370000000000000 := by decide +kernel
    rw [this]
    unfold ieee8 sgn
    norm_num

/-- 42164.17 km, the radius of the orbit, rounded. -/
example : 0x44A4B42B851EB851 / 2 ^ 32 % 2 ^ 24 ≠ 0 := by decide

end Msat.Props
