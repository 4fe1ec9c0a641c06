import Verif.Spec.Bytes
import Verif.Model.Machine

namespace Msat
open Spec

theorem beVal_append (a b : List UInt8) : beVal (a ++ b) = beVal a * 256 ^ b.length + beVal b := by
  induction a with
  | nil => simp [beVal]
  | cons x xs ih =>
    simp only [List.cons_append, beVal, ih, List.length_append, Nat.pow_add]
    rw [Nat.add_mul, Nat.mul_assoc, Nat.add_assoc]

theorem beVal_lt (bs : List UInt8) : beVal bs < 256 ^ bs.length := by
  induction bs with
  | nil => simp [beVal]
  | cons b bs ih =>
    simp only [beVal, List.length_cons, Nat.pow_succ]
    have hb : b.toNat ≤ 255 := by have := b.toNat_lt; omega
    have := Nat.mul_le_mul_right (256 ^ bs.length) hb
    omega

@[simp] theorem encBE_length (n v : Nat) : (encBE n v).length = n := by
  induction n with
  | zero => rfl
  | succ n ih => simp [encBE, ih]

theorem beVal_encBE (n v : Nat) : beVal (encBE n v) = v % 256 ^ n := by
  induction n with
  | zero => simp [encBE, beVal, Nat.mod_one]
  | succ n ih =>
    simp only [encBE, beVal, encBE_length, ih, UInt8.toNat_ofNat']
    have e : 256 ^ (n + 1) = 256 ^ n * 256 := Nat.pow_succ _ _
    rw [e, Nat.mod_mul (a := 256 ^ n) (b := 256), Nat.mul_comm, Nat.add_comm]

theorem beVal_encBE_of_lt {n v : Nat} (h : v < 256 ^ n) : beVal (encBE n v) = v := by
  rw [beVal_encBE, Nat.mod_eq_of_lt h]

theorem encBE_mod (n v : Nat) (w) (h : v % 256 ^ n = w % 256 ^ n) : encBE n v = encBE n w := by
  induction n with
  | zero => rfl
  | succ n ih =>
    simp only [encBE]
    have h1 : v % 256 ^ n = w % 256 ^ n := by
      rw [Nat.pow_succ] at h
      have := congrArg (· % 256 ^ n) h
      simpa [Nat.mod_mul_right_mod] using this
    rw [ih h1]
    congr 1
    apply UInt8.toNat_inj.1
    simp only [UInt8.toNat_ofNat']
    rw [Nat.pow_succ, Nat.mod_mul, Nat.mod_mul, h1] at h
    have hp : 0 < 256 ^ n := Nat.pow_pos (by decide)
    have := Nat.eq_of_mul_eq_mul_left hp (Nat.add_left_cancel h)
    simpa using this

theorem encBE_beVal (bs : List UInt8) : encBE bs.length (beVal bs) = bs := by
  induction bs with
  | nil => rfl
  | cons b bs ih =>
    simp only [List.length_cons, encBE, beVal]
    have hp : 0 < 256 ^ bs.length := Nat.pow_pos (by decide)
    congr 1
    · apply UInt8.toNat_inj.1
      simp only [UInt8.toNat_ofNat']
      rw [Nat.mul_comm, Nat.mul_add_div hp, Nat.div_eq_of_lt (beVal_lt bs)]
      have := b.toNat_lt
      simp only [Nat.add_zero]; omega
    · rw [encBE_mod _ _ (beVal bs) (by simp), ih]

theorem leVal_reverse (bs : List UInt8) : leVal bs.reverse = beVal bs := by
  suffices h : ∀ (a b : List UInt8), leVal (a ++ b) = leVal a + 256 ^ a.length * leVal b by
    induction bs with
    | nil => rfl
    | cons b bs ih =>
      simp only [List.reverse_cons, h, ih, beVal, leVal, List.length_reverse]
      rw [Nat.mul_comm, Nat.add_comm]; simp
  intro a b
  induction a with
  | nil => simp [leVal]
  | cons x xs ih =>
    simp only [List.cons_append, leVal, ih, List.length_cons, Nat.pow_succ]
    rw [Nat.mul_add, Nat.add_assoc, Nat.mul_comm (256 ^ xs.length) 256, Nat.mul_assoc]

theorem load_little (bs : Bytes) : Machine.load .little bs = leVal bs := by
  induction bs with
  | nil => rfl
  | cons b bs ih => simp [Machine.load, leVal, ih]

theorem load_big (bs : Bytes) : Machine.load .big bs = beVal bs := by
  induction bs with
  | nil => rfl
  | cons b bs ih => simp [Machine.load, beVal, ih]

theorem load_big_of_flag (h : Machine.Host) (bs : Bytes) :
    (if Machine.checkEndianess h then Machine.load h bs else Machine.load h bs.reverse) = beVal bs := by
  cases h
  · have : Machine.checkEndianess .little = false := by decide
    rw [this]; simp only [Bool.false_eq_true, if_false]
    rw [load_little, leVal_reverse]
  · have : Machine.checkEndianess .big = true := by decide
    rw [this]; simp only [if_true]
    rw [load_big]

theorem signed_pattern {w : Nat} (hw : 0 < w) {i : Int} (h1 : -(2 ^ (w - 1) : Int) ≤ i)
    (h2 : i < 2 ^ (w - 1)) : signed w (pattern w i) = i := by
  obtain ⟨k, rfl⟩ : ∃ k, w = k + 1 := ⟨w - 1, by omega⟩
  simp only [Nat.add_sub_cancel] at h1 h2
  simp only [signed, pattern, Nat.add_sub_cancel]
  have hk : (0 : Int) < 2 ^ k := Int.pow_pos (by decide)
  have hkn : ((2 ^ k : Nat) : Int) = (2 : Int) ^ k := by simp
  have e : (2 : Int) ^ (k + 1) = 2 * 2 ^ k := by rw [Int.pow_succ]; omega
  rw [e]
  generalize (2 : Int) ^ k = P at *
  by_cases hi : 0 ≤ i
  · have : i % (2 * P) = i := Int.emod_eq_of_lt hi (by omega)
    rw [this]
    have hlt : i.toNat < 2 ^ k := by omega
    simp only [hlt, if_true]; omega
  · have : i % (2 * P) = i + 2 * P := by
      rw [← Int.add_emod_right]
      exact Int.emod_eq_of_lt (by omega) (by omega)
    rw [this]
    have hlt : ¬ (i + 2 * P).toNat < 2 ^ k := by omega
    simp only [hlt, if_false]; omega

theorem pattern_lt (w : Nat) (i : Int) : pattern w i < 2 ^ w := by
  simp only [pattern]
  have hk : (0 : Int) < 2 ^ w := Int.pow_pos (by decide)
  have := Int.emod_lt_of_pos i hk
  have := Int.emod_nonneg i (Int.ne_of_gt hk)
  have hkn : ((2 ^ w : Nat) : Int) = (2 : Int) ^ w := by simp
  omega

end Msat
