import Verif.Lemmas.ByteSex
import Verif.Model.Time

namespace Msat
open Spec Machine Time

theorem drop_prefix {α} (pre l : List α) : (pre ++ l).drop pre.length = l := by simp

theorem ui1_at (pre : Bytes) (v : Nat) (post : Bytes) (h : v < 2 ^ 8) :
    ui1 (pre ++ encBE 1 v ++ post) pre.length = .ok v := by
  simp only [ui1, List.append_assoc, List.drop_left, encBE, List.cons_append]
  simp only [getUI1, load, UInt8.toNat_ofNat']
  congr 1; omega

theorem getUI2_eq (h : Host) (b0 b1 : UInt8) :
    getUI2 h (checkEndianess h) b0 b1 = beVal [b0, b1] := load_big_of_flag h [b0, b1]

theorem getUI4_eq (h : Host) (b0 b1 b2 b3 : UInt8) :
    getUI4 h (checkEndianess h) b0 b1 b2 b3 = beVal [b0, b1, b2, b3] :=
  load_big_of_flag h [b0, b1, b2, b3]

theorem getUI8_eq (h : Host) (b0 b1 b2 b3 b4 b5 b6 b7 : UInt8) :
    getUI8 h (checkEndianess h) b0 b1 b2 b3 b4 b5 b6 b7
      = beVal [b0, b1, b2, b3, b4, b5, b6, b7] :=
  load_big_of_flag h [b0, b1, b2, b3, b4, b5, b6, b7]

theorem getUI1_eq (h : Host) (b0 : UInt8) : getUI1 h b0 = beVal [b0] := by
  cases h <;> simp [getUI1, load, beVal]

theorem loadS_eq (h : Host) (w : Nat) (bs : Bytes) : loadS h w bs = signed w (load h bs) := rfl

theorem signed_of_flag (h : Host) (w : Nat) (bs : Bytes) :
    (if checkEndianess h then loadS h w bs else loadS h w bs.reverse) = signed w (beVal bs) := by
  rw [← load_big_of_flag h bs]
  cases checkEndianess h <;> rfl

theorem getI2_eq (h : Host) (b0 b1 : UInt8) :
    getI2 h (checkEndianess h) b0 b1 = signed 16 (beVal [b0, b1]) := signed_of_flag h 16 [b0, b1]

theorem getI4_eq (h : Host) (b0 b1 b2 b3 : UInt8) :
    getI4 h (checkEndianess h) b0 b1 b2 b3 = signed 32 (beVal [b0, b1, b2, b3]) :=
  signed_of_flag h 32 [b0, b1, b2, b3]

theorem getI8_eq (h : Host) (b0 b1 b2 b3 b4 b5 b6 b7 : UInt8) :
    getI8 h (checkEndianess h) b0 b1 b2 b3 b4 b5 b6 b7
      = signed 64 (beVal [b0, b1, b2, b3, b4, b5, b6, b7]) :=
  signed_of_flag h 64 [b0, b1, b2, b3, b4, b5, b6, b7]

theorem getI1_eq (h : Host) (b0 : UInt8) : getI1 h b0 = signed 8 (beVal [b0]) := by
  cases h <;> simp [getI1, loadS, load, beVal, signed] <;> rfl

theorem chk_little : checkEndianess .little = false := by decide

theorem ui2_at (pre : Bytes) (v : Nat) (post : Bytes) (h : v < 2 ^ 16) :
    ui2 (pre ++ encBE 2 v ++ post) pre.length = .ok v := by
  have e : beVal (encBE 2 v) = v := beVal_encBE_of_lt h
  simp only [encBE] at e
  simp only [ui2, List.append_assoc, List.drop_left, encBE, List.cons_append]
  rw [← chk_little, getUI2_eq, e]

theorem ui4_at (pre : Bytes) (v : Nat) (post : Bytes) (h : v < 2 ^ 32) :
    ui4 (pre ++ encBE 4 v ++ post) pre.length = .ok v := by
  have e : beVal (encBE 4 v) = v := beVal_encBE_of_lt h
  simp only [encBE] at e
  simp only [ui4, List.append_assoc, List.drop_left, encBE, List.cons_append]
  rw [← chk_little, getUI4_eq, e]

theorem ui8_at (pre : Bytes) (v : Nat) (post : Bytes) (h : v < 2 ^ 64) :
    ui8 (pre ++ encBE 8 v ++ post) pre.length = .ok v := by
  have e : beVal (encBE 8 v) = v := beVal_encBE_of_lt h
  simp only [encBE] at e
  simp only [ui8, List.append_assoc, List.drop_left, encBE, List.cons_append]
  rw [← chk_little, getUI8_eq, e]

theorem i2_at (pre : Bytes) (v : Int) (post : Bytes) (h : -2 ^ 15 ≤ v) (h' : v < 2 ^ 15) :
    i2 (pre ++ encBE 2 (pattern 16 v) ++ post) pre.length = .ok v := by
  have e : beVal (encBE 2 (pattern 16 v)) = pattern 16 v :=
    beVal_encBE_of_lt (by have := pattern_lt 16 v; omega)
  have s : signed 16 (pattern 16 v) = v := signed_pattern (by decide) h h'
  simp only [encBE] at e
  simp only [i2, List.append_assoc, List.drop_left, encBE, List.cons_append]
  rw [← chk_little, getI2_eq, e, s]

theorem i4_at (pre : Bytes) (v : Int) (post : Bytes) (h : -2 ^ 31 ≤ v) (h' : v < 2 ^ 31) :
    i4 (pre ++ encBE 4 (pattern 32 v) ++ post) pre.length = .ok v := by
  have e : beVal (encBE 4 (pattern 32 v)) = pattern 32 v :=
    beVal_encBE_of_lt (by have := pattern_lt 32 v; omega)
  have s : signed 32 (pattern 32 v) = v := signed_pattern (by decide) h h'
  simp only [encBE] at e
  simp only [i4, List.append_assoc, List.drop_left, encBE, List.cons_append]
  rw [← chk_little, getI4_eq, e, s]

theorem cdsShort_at (pre : Bytes) (day msec : Nat) (post : Bytes) (h : day < 2 ^ 16)
    (h' : msec < 2 ^ 32) :
    cdsShort (pre ++ encBE 2 day ++ encBE 4 msec ++ post) pre.length
      = .ok (cdsShortOf day msec) := by
  have e1 := ui2_at pre day (encBE 4 msec ++ post) h
  have e2 := ui4_at (pre ++ encBE 2 day) msec post h'
  simp only [List.length_append, encBE_length] at e2
  simp only [List.append_assoc] at e1 e2 ⊢
  simp only [cdsShort, e1, e2, Outcome.ok_bind, Outcome.pure_eq]

end Msat
