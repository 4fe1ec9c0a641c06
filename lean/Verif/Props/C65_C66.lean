import Verif.Lemmas.OpenMTP
import Verif.Model.HriMachine
import Verif.Spec.TextNumber
import Verif.Lemmas.Text
import Mathlib.Tactic.NormNum
import Mathlib.Tactic.Ring
import Mathlib.Tactic.FieldSimp
import Mathlib.Tactic.IntervalCases

/-
C65 OpenMTP dates.
C66 Numbers in text.
-/
namespace Msat.Props
open Msat Mtp MtpSpec Spec TextSpec
open Msat.Text (fmt0 fmt0_digits)

/-! ## C65 -/

/-- A header tells a date and time: the year, the date as a number that ends in month and day (whatever comes
before), and the time as hours and minutes. -/
structure TellsTime (header : Bytes) (year before month day hour minute : Nat) : Prop where
  size : header.length = 192999
  year : field header 8 = year
  date : field header 24 = before * 10000 + month * 100 + day
  time : field header 28 = hour * 100 + minute
  month : 1 ≤ month ∧ month ≤ 12
  day : 1 ≤ day ∧ day ≤ 31
  hour : hour ≤ 23
  minute : minute ≤ 59

/-- `get_datetime` gives the date and the time of the header. -/
theorem C65_datetime (header : Bytes) (y b m d h mi : Nat) (t : TellsTime header y b m d h mi) :
    getDatetime header = ⟨(y : Int) - 1900, (m : Int) - 1, d, h, mi⟩ := by
  have h1 : int4 header 8 = field header 8 := int4_field (by rw [t.size]; decide)
  have h2 : int4 header 24 = field header 24 := int4_field (by rw [t.size]; decide)
  have h3 : int4 header 28 = field header 28 := int4_field (by rw [t.size]; decide)
  have := t.month; have := t.day; have := t.hour; have := t.minute
  unfold getDatetime year date time
  rw [h1, h2, h3, t.year, t.date, t.time]
  have e1 : ((b : Int) * 10000 + m * 100 + d).tdiv 10000 = b := by
    rw [Int.tdiv_eq_ediv_of_nonneg (by omega)]; omega
  have e2 : ((b : Int) * 10000 + m * 100 + d - b * 10000).tdiv 100 = m := by
    rw [Int.tdiv_eq_ediv_of_nonneg (by omega)]; omega
  have e3 : ((h : Int) * 100 + mi).tdiv 100 = h := by
    rw [Int.tdiv_eq_ediv_of_nonneg (by omega)]; omega
  dsimp only
  rw [e1, e2, e3]
  congr 1 <;> omega

/-- `get_timestr` writes year, month, day, an underscore, hour and minute. -/
theorem C65_timestr (header : Bytes) (y b m d h mi : Nat) (t : TellsTime header y b m d h mi) (hy : y ≤ 9999) :
    getTimestr header = digits 4 y ++ digits 2 m ++ digits 2 d ++ [95] ++ digits 2 h ++ digits 2 mi := by
  have h1 : int4 header 8 = field header 8 := int4_field (by rw [t.size]; decide)
  have h2 : int4 header 24 = field header 24 := int4_field (by rw [t.size]; decide)
  have h3 : int4 header 28 = field header 28 := int4_field (by rw [t.size]; decide)
  have := t.month; have := t.day; have := t.hour; have := t.minute
  unfold getTimestr year date time
  rw [h1, h2, h3, t.year, t.date, t.time]
  have e1 : ((b : Int) * 10000 + m * 100 + d).tdiv 10000 = b := by
    rw [Int.tdiv_eq_ediv_of_nonneg (by omega)]; omega
  dsimp only
  rw [e1, show (b : Int) * 10000 + m * 100 + d - b * 10000 = (m * 100 + d : Nat) by omega,
    show (h : Int) * 100 + mi = (h * 100 + mi : Nat) by omega, fmt0_digits (by omega) (show y < 10 ^ 4 by omega),
    fmt0_digits (by omega) (by omega), fmt0_digits (by omega) (by omega)]
  have hd : ∀ n, digits 4 n = [UInt8.ofNat (48 + n / 10 / 10 / 10 % 10), UInt8.ofNat (48 + n / 10 / 10 % 10),
    UInt8.ofNat (48 + n / 10 % 10), UInt8.ofNat (48 + n % 10)] := fun _ => rfl
  have hd2 : ∀ n, digits 2 n = [UInt8.ofNat (48 + n / 10 % 10), UInt8.ofNat (48 + n % 10)] := fun _ => rfl
  rw [hd, hd, hd, hd2, hd2, hd2, hd2,
    show (m * 100 + d) / 10 / 10 / 10 % 10 = m / 10 % 10 by omega, show (m * 100 + d) / 10 / 10 % 10 = m % 10 by omega,
    show (m * 100 + d) / 10 % 10 = d / 10 % 10 by omega, show (m * 100 + d) % 10 = d % 10 by omega,
    show (h * 100 + mi) / 10 / 10 / 10 % 10 = h / 10 % 10 by omega, show (h * 100 + mi) / 10 / 10 % 10 = h % 10 by omega,
    show (h * 100 + mi) / 10 % 10 = mi / 10 % 10 by omega, show (h * 100 + mi) % 10 = mi % 10 by omega]
  rfl

/-- A header of 2 July 2005, 9:30; the date is written with the last two digits of the year. -/
def timeHeader : Bytes :=
  List.replicate 8 0 ++ encBE 4 2005 ++ List.replicate 12 0 ++ encBE 4 50702 ++ encBE 4 930 ++
    List.replicate (192999 - 32) 0

example : TellsTime timeHeader 2005 5 7 2 9 30 ∧ getTimestr timeHeader = str "20050702_0930" := by
  have t : TellsTime timeHeader 2005 5 7 2 9 30 := by
    refine ⟨?_, by decide +kernel, by decide +kernel, by decide +kernel, by omega, by omega, by omega, by omega⟩
    unfold timeHeader
    simp only [List.length_append, List.length_replicate, encBE_length]
  refine ⟨t, ?_⟩
  rw [C65_timestr timeHeader 2005 5 7 2 9 30 t (by omega)]
  decide +kernel

/-! ## C66 -/

theorem mtpDigit {c : UInt8} (h : c = 32 ∨ (48 ≤ c ∧ c ≤ 57)) :
    Mtp.digit c = digitValue c ∧ digitValue c ≤ 9 := by
  unfold Mtp.digit digitValue
  rcases h with rfl | ⟨h1, h2⟩
  · decide
  · have h1 : 48 ≤ c.toNat := h1
    have h2 : c.toNat ≤ 57 := h2
    have h3 : c ≠ 32 := by
      intro h
      rw [h] at h1
      exact absurd h1 (by decide)
    rw [if_neg h3, if_neg h3]
    omega

theorem hriDigit {c : UInt8} (h : c = 32 ∨ (48 ≤ c ∧ c ≤ 57)) : Hri.digit c = digitValue c := by
  unfold Hri.digit digitValue
  rcases h with rfl | ⟨h1, h2⟩
  · decide
  · have h1 : 48 ≤ c.toNat := h1
    have h2 : c.toNat ≤ 57 := h2
    have h3 : c ≠ 32 := by
      intro h
      rw [h] at h1
      exact absurd h1 (by decide)
    rw [if_neg h3, if_neg h3, if_pos (by omega)]
    omega

theorem numeral_split {text : Bytes} {n : Nat} (h : text.length = n + 1) (hn : Numeral text) :
    ∃ c cs, text = c :: cs ∧ cs.length = n ∧ (c = 32 ∨ (48 ≤ c ∧ c ≤ 57)) ∧ Numeral cs := by
  match text, h with
  | c :: cs, h =>
    exact ⟨c, cs, rfl, by simpa using h, hn c (by simp), fun x hx => hn x (by simp [hx])⟩

theorem short_ok {a b : Int} (h1 : -2 ^ 15 ≤ a + b) (h2 : a + b < 2 ^ 15) : addShort a b = a + b := by
  unfold addShort
  rw [BitVec.toInt_ofInt]
  generalize a + b = c at *
  rw [Int.bmod_def]
  omega

/-- Numbers in OpenMTP headers: a numeral of the right width is read as the number it shows, with the decimal point at
its place (five characters: all of them after the point; three: one of them), whole numbers without. -/
theorem C66_openmtp (text rest : Bytes) (hn : Numeral text) :
    (text.length = 5 → Mtp.r4FromChar5 (text ++ rest) = .ok (value text / 100000)) ∧
    (text.length = 3 → Mtp.r4FromChar3 (text ++ rest) = .ok (value text / 10)) ∧
    (text.length = 3 → Mtp.int4FromChar3 (text ++ rest) = .ok (value text)) ∧
    (text.length = 2 → Mtp.int4FromChar2 (text ++ rest) = .ok (value text)) := by
  refine ⟨fun h => ?_, fun h => ?_, fun h => ?_, fun h => ?_⟩
  · obtain ⟨c0, t0, rfl, h, d0, hn⟩ := numeral_split h hn
    obtain ⟨c1, t1, rfl, h, d1, hn⟩ := numeral_split h hn
    obtain ⟨c2, t2, rfl, h, d2, hn⟩ := numeral_split h hn
    obtain ⟨c3, t3, rfl, h, d3, hn⟩ := numeral_split h hn
    obtain ⟨c4, t4, rfl, h, d4, hn⟩ := numeral_split h hn
    obtain rfl := List.length_eq_zero_iff.1 h
    simp only [Mtp.r4FromChar5, Mtp.weighted, List.cons_append, Outcome.ok_bind, Outcome.pure_eq,
      (mtpDigit d0).1, (mtpDigit d1).1, (mtpDigit d2).1, (mtpDigit d3).1, (mtpDigit d4).1, value, List.foldl]
    congr 1
    push_cast
    ring
  · obtain ⟨c0, t0, rfl, h, d0, hn⟩ := numeral_split h hn
    obtain ⟨c1, t1, rfl, h, d1, hn⟩ := numeral_split h hn
    obtain ⟨c2, t2, rfl, h, d2, hn⟩ := numeral_split h hn
    obtain rfl := List.length_eq_zero_iff.1 h
    simp only [Mtp.r4FromChar3, Mtp.weighted, List.cons_append, Outcome.ok_bind, Outcome.pure_eq,
      (mtpDigit d0).1, (mtpDigit d1).1, (mtpDigit d2).1, value, List.foldl]
    congr 1
    push_cast
    ring
  · obtain ⟨c0, t0, rfl, h, d0, hn⟩ := numeral_split h hn
    obtain ⟨c1, t1, rfl, h, d1, hn⟩ := numeral_split h hn
    obtain ⟨c2, t2, rfl, h, d2, hn⟩ := numeral_split h hn
    obtain rfl := List.length_eq_zero_iff.1 h
    simp only [Mtp.int4FromChar3, List.cons_append, (mtpDigit d0).1, (mtpDigit d1).1, (mtpDigit d2).1, value, List.foldl]
    have b0 := (mtpDigit d0).2
    have b1 := (mtpDigit d1).2
    have b2 := (mtpDigit d2).2
    rw [short_ok (a := 0) (by omega) (by omega), short_ok (b := _ * 10) (by omega) (by omega), short_ok (by omega) (by omega)]
    congr 1
    push_cast
    ring
  · obtain ⟨c0, t0, rfl, h, d0, hn⟩ := numeral_split h hn
    obtain ⟨c1, t1, rfl, h, d1, hn⟩ := numeral_split h hn
    obtain rfl := List.length_eq_zero_iff.1 h
    simp only [Mtp.int4FromChar2, List.cons_append, (mtpDigit d0).1, (mtpDigit d1).1, value, List.foldl]
    have b0 := (mtpDigit d0).2
    have b1 := (mtpDigit d1).2
    rw [short_ok (a := 0) (by omega) (by omega), short_ok (by omega) (by omega)]
    congr 1
    push_cast
    ring

/-- A space count of 4.8 and a calibration coefficient of 0.08012. -/
example : Numeral (str " 48") ∧ Mtp.r4FromChar3 (str " 48" ++ [0]) = .ok (48 / 10) ∧
    Mtp.r4FromChar5 (str "08012") = .ok (8012 / 100000) := by
  refine ⟨by unfold Numeral; decide, ?_, ?_⟩
  · exact (C66_openmtp (str " 48") [0] (by unfold Numeral; decide)).2.1 (by decide)
  · exact (C66_openmtp (str "08012") [] (by unfold Numeral; decide)).1 (by decide)

/-- Numbers in HRI subframes: a numeral of the right width is read as the number it shows, with three, two, one, two,
no, no and five digits after the point. -/
theorem C66_hri (text rest : Bytes) (hn : Numeral text) :
    (text.length = 6 → Hri.r4FromChar6 (text ++ rest) = .ok (value text / 1000)) ∧
    (text.length = 3 → Hri.r4FromChar3 (text ++ rest) = .ok (value text / 100)) ∧
    (text.length = 3 → Hri.r4fFromChar3 (text ++ rest) = .ok (value text / 10)) ∧
    (text.length = 5 → Hri.r4FromChar5 (text ++ rest) = .ok (value text / 100)) ∧
    (text.length = 3 → Hri.i2FromChar3 (text ++ rest) = .ok (value text)) ∧
    (text.length = 2 → Hri.i2FromChar2 (text ++ rest) = .ok (value text)) ∧
    (text.length = 5 → Hri.r4fFromChar5 (text ++ rest) = .ok (value text / 100000)) := by
  refine ⟨fun h => ?_, fun h => ?_, fun h => ?_, fun h => ?_, fun h => ?_, fun h => ?_, fun h => ?_⟩
  · obtain ⟨c0, t0, rfl, h, d0, hn⟩ := numeral_split h hn
    obtain ⟨c1, t1, rfl, h, d1, hn⟩ := numeral_split h hn
    obtain ⟨c2, t2, rfl, h, d2, hn⟩ := numeral_split h hn
    obtain ⟨c3, t3, rfl, h, d3, hn⟩ := numeral_split h hn
    obtain ⟨c4, t4, rfl, h, d4, hn⟩ := numeral_split h hn
    obtain ⟨c5, t5, rfl, h, d5, hn⟩ := numeral_split h hn
    obtain rfl := List.length_eq_zero_iff.1 h
    simp only [Hri.r4FromChar6, Hri.weighted, List.cons_append, Outcome.ok_bind, Outcome.pure_eq,
      hriDigit d0, hriDigit d1, hriDigit d2, hriDigit d3, hriDigit d4, hriDigit d5, value, List.foldl]
    congr 1
    push_cast
    ring
  · obtain ⟨c0, t0, rfl, h, d0, hn⟩ := numeral_split h hn
    obtain ⟨c1, t1, rfl, h, d1, hn⟩ := numeral_split h hn
    obtain ⟨c2, t2, rfl, h, d2, hn⟩ := numeral_split h hn
    obtain rfl := List.length_eq_zero_iff.1 h
    simp only [Hri.r4FromChar3, Hri.weighted, List.cons_append, Outcome.ok_bind, Outcome.pure_eq,
      hriDigit d0, hriDigit d1, hriDigit d2, value, List.foldl]
    congr 1
    push_cast
    ring
  · obtain ⟨c0, t0, rfl, h, d0, hn⟩ := numeral_split h hn
    obtain ⟨c1, t1, rfl, h, d1, hn⟩ := numeral_split h hn
    obtain ⟨c2, t2, rfl, h, d2, hn⟩ := numeral_split h hn
    obtain rfl := List.length_eq_zero_iff.1 h
    simp only [Hri.r4fFromChar3, Hri.weighted, List.cons_append, Outcome.ok_bind, Outcome.pure_eq,
      hriDigit d0, hriDigit d1, hriDigit d2, value, List.foldl]
    congr 1
    push_cast
    ring
  · obtain ⟨c0, t0, rfl, h, d0, hn⟩ := numeral_split h hn
    obtain ⟨c1, t1, rfl, h, d1, hn⟩ := numeral_split h hn
    obtain ⟨c2, t2, rfl, h, d2, hn⟩ := numeral_split h hn
    obtain ⟨c3, t3, rfl, h, d3, hn⟩ := numeral_split h hn
    obtain ⟨c4, t4, rfl, h, d4, hn⟩ := numeral_split h hn
    obtain rfl := List.length_eq_zero_iff.1 h
    simp only [Hri.r4FromChar5, Hri.weighted, List.cons_append, Outcome.ok_bind, Outcome.pure_eq,
      hriDigit d0, hriDigit d1, hriDigit d2, hriDigit d3, hriDigit d4, value, List.foldl]
    congr 1
    push_cast
    ring
  · obtain ⟨c0, t0, rfl, h, d0, hn⟩ := numeral_split h hn
    obtain ⟨c1, t1, rfl, h, d1, hn⟩ := numeral_split h hn
    obtain ⟨c2, t2, rfl, h, d2, hn⟩ := numeral_split h hn
    obtain rfl := List.length_eq_zero_iff.1 h
    simp only [Hri.i2FromChar3, Hri.weighted, List.cons_append, Outcome.ok_bind, Outcome.pure_eq,
      hriDigit d0, hriDigit d1, hriDigit d2, value, List.foldl]
    congr 1
    push_cast
    ring
  · obtain ⟨c0, t0, rfl, h, d0, hn⟩ := numeral_split h hn
    obtain ⟨c1, t1, rfl, h, d1, hn⟩ := numeral_split h hn
    obtain rfl := List.length_eq_zero_iff.1 h
    simp only [Hri.i2FromChar2, Hri.weighted, List.cons_append, Outcome.ok_bind, Outcome.pure_eq,
      hriDigit d0, hriDigit d1, value, List.foldl]
    congr 1
    push_cast
    ring
  · obtain ⟨c0, t0, rfl, h, d0, hn⟩ := numeral_split h hn
    obtain ⟨c1, t1, rfl, h, d1, hn⟩ := numeral_split h hn
    obtain ⟨c2, t2, rfl, h, d2, hn⟩ := numeral_split h hn
    obtain ⟨c3, t3, rfl, h, d3, hn⟩ := numeral_split h hn
    obtain ⟨c4, t4, rfl, h, d4, hn⟩ := numeral_split h hn
    obtain rfl := List.length_eq_zero_iff.1 h
    simp only [Hri.r4fFromChar5, Hri.weighted, List.cons_append, Outcome.ok_bind, Outcome.pure_eq,
      hriDigit d0, hriDigit d1, hriDigit d2, hriDigit d3, hriDigit d4, value, List.foldl]
    congr 1
    push_cast
    ring

example : Hri.r4FromChar6 (str " 12345") = .ok (12345 / 1000) :=
  (C66_hri (str " 12345") [] (by unfold Numeral; decide)).1 (by decide)

end Msat.Props
