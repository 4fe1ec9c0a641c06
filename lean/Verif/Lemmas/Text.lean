import Verif.Model.Text
import Verif.Spec.TextNumber

/-
Numbers that are written are read back.
-/
namespace Msat.Text
open Msat TextSpec

theorem digits_length : ∀ (k n : Nat), (digits k n).length = k
  | 0, _ => rfl
  | k + 1, n => by
    show (digits k (n / 10) ++ _).length = _
    rw [List.length_append, digits_length k]
    rfl

theorem digits_zero : ∀ k : Nat, digits k 0 = List.replicate k 48
  | 0 => rfl
  | k + 1 => by
    show digits k (0 / 10) ++ [UInt8.ofNat (48 + 0 % 10)] = _
    rw [Nat.zero_div, digits_zero k, List.replicate_succ']
    rfl

theorem decimal_digits : ∀ (w n : Nat), n < 10 ^ (w + 1) →
    (decimal n).length ≤ w + 1 ∧ List.replicate (w + 1 - (decimal n).length) 48 ++ decimal n = digits (w + 1) n
  | 0, n, h => by
    rw [decimal, if_pos (by omega)]
    refine ⟨Nat.le_refl _, ?_⟩
    show [] ++ [UInt8.ofNat (48 + n)] = digits 0 (n / 10) ++ [UInt8.ofNat (48 + n % 10)]
    rw [Nat.mod_eq_of_lt (by omega)]
    rfl
  | w + 1, n, h => by
    by_cases h1 : n < 10
    · rw [decimal, if_pos h1]
      refine ⟨by simp, ?_⟩
      show _ = digits (w + 1) (n / 10) ++ [UInt8.ofNat (48 + n % 10)]
      rw [show n / 10 = 0 by omega, digits_zero, Nat.mod_eq_of_lt h1]
      rfl
    · obtain ⟨i1, i2⟩ := decimal_digits w (n / 10) (by rw [Nat.pow_succ] at h; omega)
      rw [decimal, if_neg h1, List.length_append]
      refine ⟨by simp only [List.length_cons, List.length_nil]; omega, ?_⟩
      show _ = digits (w + 1) (n / 10) ++ [UInt8.ofNat (48 + n % 10)]
      rw [← i2, List.append_assoc]
      refine congrArg (fun k => List.replicate k 48 ++ _) ?_
      simp only [List.length_cons, List.length_nil]
      omega

/-- Zero-filled numbers that fit are their digits. -/
theorem fmt0_digits {w n : Nat} (hw : 1 ≤ w) (h : n < 10 ^ w) : fmt0 w n = digits w n := by
  obtain ⟨w, rfl⟩ : ∃ v, w = v + 1 := ⟨w - 1, by omega⟩
  unfold fmt0
  rw [if_neg (by omega), Int.natAbs_natCast, (decimal_digits w n h).2]

theorem digit_isDigit (n : Nat) : isDigit (UInt8.ofNat (48 + n % 10)) = true := by
  have : n % 10 < 10 := Nat.mod_lt _ (by omega)
  generalize n % 10 = k at this
  have : k = 0 ∨ k = 1 ∨ k = 2 ∨ k = 3 ∨ k = 4 ∨ k = 5 ∨ k = 6 ∨ k = 7 ∨ k = 8 ∨ k = 9 := by omega
  rcases this with rfl | rfl | rfl | rfl | rfl | rfl | rfl | rfl | rfl | rfl <;> rfl

theorem digits_all : ∀ (k n : Nat), ∀ c ∈ digits k n, isDigit c = true
  | 0, _, c, h => by cases h
  | k + 1, n, c, h => by
    have h : c ∈ digits k (n / 10) ++ [UInt8.ofNat (48 + n % 10)] := h
    rw [List.mem_append] at h
    rcases h with h | h
    · exact digits_all k _ c h
    · rw [List.mem_singleton.1 h]
      exact digit_isDigit n

theorem ofDigits_append (a : Bytes) (c : UInt8) : ofDigits (a ++ [c]) = 10 * ofDigits a + (c.toNat - 48) := by
  unfold ofDigits
  rw [List.foldl_append]
  rfl

theorem ofDigits_digits : ∀ (k n : Nat), n < 10 ^ k → ofDigits (digits k n) = n
  | 0, n, h => by
    have : n = 0 := by simpa using h
    subst this
    rfl
  | k + 1, n, h => by
    show ofDigits (digits k (n / 10) ++ [UInt8.ofNat (48 + n % 10)]) = n
    rw [ofDigits_append, ofDigits_digits k _ (by rw [Nat.pow_succ] at h; omega)]
    have : (UInt8.ofNat (48 + n % 10)).toNat = 48 + n % 10 := by
      rw [UInt8.toNat_ofNat']
      omega
    rw [this]
    omega

theorem isDigit_not {c : UInt8} (h : isDigit c = true) : c ≠ 45 ∧ c ≠ 43 ∧ isSpace c = false := by
  refine ⟨?_, ?_, ?_⟩
  · rintro rfl; exact absurd h (by decide)
  · rintro rfl; exact absurd h (by decide)
  · unfold isDigit at h
    unfold isSpace
    simp only [Bool.and_eq_true, decide_eq_true_eq] at h
    have h1 : 48 ≤ c.toNat := h.1
    have h2 : ¬ c ≤ 13 := by
      intro (h3 : c.toNat ≤ 13)
      omega
    have h3 : (c == 32) = false := by
      rw [beq_eq_false_iff_ne]
      rintro rfl
      exact absurd h1 (by decide)
    simp [h2, h3]

theorem takeWhile_digits (k n : Nat) (rest : Bytes) (h : rest.takeWhile isDigit = []) :
    (digits k n ++ rest).takeWhile isDigit = digits k n := by
  rw [List.takeWhile_append_of_pos (digits_all k n), h, List.append_nil]

/-- A number that is written with `k` digits is read by a directive without width, if no digit follows, or with the
width `k`. -/
theorem scanf_int (fs : List Directive) (w : Option Nat) (k n : Nat) (rest : Bytes) (hk : 1 ≤ k) (hn : n < 10 ^ k)
    (h : (w = none ∧ rest.takeWhile isDigit = []) ∨ w = some k) :
    scanf (.int w :: fs) (digits k n ++ rest) = (n : Int) :: scanf fs rest := by
  have hl := digits_length k n
  have ha := digits_all k n
  have ho := ofDigits_digits k n hn
  have ht := takeWhile_digits k n
  generalize digits k n = ds at *
  have hd : (ds ++ rest).dropWhile isSpace = ds ++ rest := by
    cases ds with
    | nil => simp at hl; omega
    | cons c cs =>
      rw [List.cons_append, List.dropWhile_cons_of_neg]
      rw [(isDigit_not (ha c (by simp))).2.2]
      decide
  have hw : ∃ r, within w (ds ++ rest) = ds ++ r ∧ r.takeWhile isDigit = [] := by
    rcases h with ⟨rfl, h⟩ | rfl
    · exact ⟨rest, rfl, h⟩
    · refine ⟨[], ?_, rfl⟩
      show (ds ++ rest).take k = ds ++ []
      rw [List.take_left' hl, List.append_nil]
  obtain ⟨r, hw, hr⟩ := hw
  have hs : scanSigned w (ds ++ rest) = some ((n : Int), k) := by
    unfold scanSigned
    rw [hw]
    have ht := ht r hr
    cases ds with
    | nil => simp at hl; omega
    | cons c cs =>
      obtain ⟨d1, d2, _⟩ := isDigit_not (ha c (by simp))
      rw [List.cons_append] at ht ⊢
      dsimp only
      rw [if_neg d1, if_neg d2, ht, if_neg (by simp), ho, hl]
  show (match scanSigned w ((ds ++ rest).dropWhile isSpace) with
    | some (v, m) => v :: scanf fs (((ds ++ rest).dropWhile isSpace).drop m)
    | none => []) = _
  rw [hd, hs]
  dsimp only
  rw [List.drop_left' hl]

theorem scanf_lit (fs : List Directive) (c : UInt8) (rest : Bytes) : scanf (.lit c :: fs) ([c] ++ rest) = scanf fs rest := by
  show (if c = c then scanf fs rest else []) = _
  rw [if_pos rfl]

/-- A blank, if what follows does not begin with one. -/
theorem scanf_blank (fs : List Directive) (c : UInt8) (rest : Bytes) (hc : isSpace c = true)
    (h : rest.dropWhile isSpace = rest) : scanf (.blank :: fs) ([c] ++ rest) = scanf fs rest := by
  show scanf fs ((c :: rest).dropWhile isSpace) = _
  rw [List.dropWhile_cons_of_pos hc, h]

theorem dropWhile_digits (k n : Nat) (hk : 1 ≤ k) (rest : Bytes) :
    (digits k n ++ rest).dropWhile isSpace = digits k n ++ rest := by
  have hl := digits_length k n
  have ha := digits_all k n
  generalize digits k n = ds at *
  cases ds with
  | nil => simp at hl; omega
  | cons c cs =>
    rw [List.cons_append, List.dropWhile_cons_of_neg]
    rw [(isDigit_not (ha c (by simp))).2.2]
    decide

end Msat.Text
