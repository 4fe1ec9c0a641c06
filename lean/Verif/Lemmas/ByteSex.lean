import Verif.Lemmas.Bytes

namespace Msat
open Spec Machine

theorem or_shift {a b n : Nat} (h : b < 2 ^ n) : (a <<< n) ||| b = a * 2 ^ n + b := by
  rw [← Nat.shiftLeft_add_eq_or_of_lt h, Nat.shiftLeft_eq]

theorem toNat_ofInt_byte (w : Nat) (hw : 8 ≤ w) (b : UInt8) :
    (BitVec.ofInt w (b.toNat : Int)).toNat = b.toNat := by
  rw [BitVec.ofInt_natCast, BitVec.toNat_ofNat]
  apply Nat.mod_eq_of_lt
  exact Nat.lt_of_lt_of_le b.toNat_lt (Nat.pow_le_pow_right (by decide) hw)

theorem bsBigRead2_cons (b0 b1 : UInt8) (s : Bytes) :
    bsBigRead2 (b0 :: b1 :: s) = (beVal [b0, b1], s) := by
  simp only [bsBigRead2, sget, BitVec.toNat_or, BitVec.toNat_shiftLeft,
    toNat_ofInt_byte 16 (by decide), beVal, List.length]
  have h0 := b0.toNat_lt
  have h1 := b1.toNat_lt
  congr 1
  rw [Nat.mod_eq_of_lt (by rw [Nat.shiftLeft_eq]; omega), or_shift (by omega)]
  omega

theorem bsBigRead4_cons (b0 b1 b2 b3 : UInt8) (s : Bytes) :
    bsBigRead4 (b0 :: b1 :: b2 :: b3 :: s) = (beVal [b0, b1, b2, b3], s) := by
  simp only [bsBigRead4, sget, BitVec.toNat_or, BitVec.toNat_shiftLeft,
    toNat_ofInt_byte 32 (by decide), beVal, List.length]
  have h0 := b0.toNat_lt
  have h1 := b1.toNat_lt
  have h2 := b2.toNat_lt
  have h3 := b3.toNat_lt
  congr 1
  rw [Nat.mod_eq_of_lt (a := b0.toNat <<< 24) (by rw [Nat.shiftLeft_eq]; omega),
    Nat.mod_eq_of_lt (a := b1.toNat <<< 16) (by rw [Nat.shiftLeft_eq]; omega),
    Nat.mod_eq_of_lt (a := b2.toNat <<< 8) (by rw [Nat.shiftLeft_eq]; omega)]
  rw [Nat.or_assoc, Nat.or_assoc, or_shift (n := 8) (by omega), or_shift (n := 16) (by omega),
    or_shift (n := 24) (by omega)]
  omega

theorem bsLittleRead2_cons (b0 b1 : UInt8) (s : Bytes) :
    bsLittleRead2 (b0 :: b1 :: s) = (leVal [b0, b1], s) := by
  simp only [bsLittleRead2, sget, BitVec.toNat_or, BitVec.toNat_shiftLeft,
    toNat_ofInt_byte 16 (by decide), leVal]
  have h0 := b0.toNat_lt
  have h1 := b1.toNat_lt
  congr 1
  rw [Nat.or_comm, Nat.mod_eq_of_lt (by rw [Nat.shiftLeft_eq]; omega), or_shift (by omega)]
  omega

theorem bsLittleRead4_cons (b0 b1 b2 b3 : UInt8) (s : Bytes) :
    bsLittleRead4 (b0 :: b1 :: b2 :: b3 :: s) = (leVal [b0, b1, b2, b3], s) := by
  simp only [bsLittleRead4, sget, BitVec.toNat_or, BitVec.toNat_shiftLeft,
    toNat_ofInt_byte 32 (by decide), leVal]
  have h0 := b0.toNat_lt
  have h1 := b1.toNat_lt
  have h2 := b2.toNat_lt
  have h3 := b3.toNat_lt
  congr 1
  rw [Nat.mod_eq_of_lt (a := b3.toNat <<< 24) (by rw [Nat.shiftLeft_eq]; omega),
    Nat.mod_eq_of_lt (a := b2.toNat <<< 16) (by rw [Nat.shiftLeft_eq]; omega),
    Nat.mod_eq_of_lt (a := b1.toNat <<< 8) (by rw [Nat.shiftLeft_eq]; omega)]
  rw [Nat.or_comm b0.toNat, or_shift (n := 8) (by omega), Nat.or_comm _ (b2.toNat <<< 16),
    or_shift (n := 16) (by omega), Nat.or_comm _ (b3.toNat <<< 24), or_shift (n := 24) (by omega)]
  omega

theorem toNat_ofInt_pattern (w : Nat) (v : Int) : (BitVec.ofInt w v).toNat = pattern w v := by
  rw [BitVec.toNat_ofInt]; simp [pattern]

theorem bsBigWrite2_eq (v : Int) : bsBigWrite2 v = encBE 2 (pattern 16 v) := by
  have h := pattern_lt 16 v
  simp only [bsBigWrite2, encBE, BitVec.toNat_and, BitVec.toNat_ushiftRight, toNat_ofInt_pattern]
  generalize pattern 16 v = n at *
  simp only [BitVec.toNat_ofNat, Nat.shiftRight_eq_div_pow]
  congr 1
  · congr 1
    rw [show (255 % 2 ^ 16) = 2 ^ 8 - 1 by decide, Nat.and_two_pow_sub_one_eq_mod]
    omega
  · congr 1
    apply UInt8.toNat_inj.1
    rw [show (255 % 2 ^ 16) = 2 ^ 8 - 1 by decide, Nat.and_two_pow_sub_one_eq_mod]
    simp

theorem bsBigWrite4_eq (v : Int) : bsBigWrite4 v = encBE 4 (pattern 32 v) := by
  have h := pattern_lt 32 v
  simp only [bsBigWrite4, encBE, BitVec.toNat_and, BitVec.toNat_ushiftRight, toNat_ofInt_pattern]
  generalize pattern 32 v = n at *
  simp only [BitVec.toNat_ofNat, Nat.shiftRight_eq_div_pow]
  rw [show (255 % 2 ^ 32) = 2 ^ 8 - 1 by decide]
  simp only [Nat.and_two_pow_sub_one_eq_mod]
  simp only [List.cons.injEq, and_true, ← UInt8.toNat_inj, UInt8.toNat_ofNat']
  refine ⟨?_, ?_, ?_, ?_⟩ <;> omega

theorem bsLittleWrite2_eq (v : Int) : bsLittleWrite2 v = encLE 2 (pattern 16 v) := by
  have e : bsLittleWrite2 v = (bsBigWrite2 v).reverse := rfl
  rw [e, bsBigWrite2_eq]; rfl

theorem bsLittleWrite4_eq (v : Int) : bsLittleWrite4 v = encLE 4 (pattern 32 v) := by
  have e : bsLittleWrite4 v = (bsBigWrite4 v).reverse := rfl
  rw [e, bsBigWrite4_eq]; rfl

end Msat
