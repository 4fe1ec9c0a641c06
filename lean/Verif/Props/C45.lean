import Verif.Model.Datetime
import Verif.Spec.Datetime
import Verif.Lemmas.Text
import Verif.Props.C13_C16

/-
C45 GRIB dates round-trip.
C67 NetCDF times.
-/
namespace Msat.Props
open Msat Text Datetime TextSpec DatetimeSpec Spec

theorem scan_stamp {y mo d h mi s : Nat} (f : Fits y mo d h mi s) :
    scanf stampFormat (stamp y mo d h mi s) = [(y : Int), mo, d, h, mi, s] := by
  obtain ⟨f1, f2, f3, f4, f5, f6⟩ := f
  unfold stampFormat stamp
  simp only [List.append_assoc]
  rw [scanf_int _ none 4 y _ (by omega) (by omega) (.inl ⟨rfl, rfl⟩), scanf_lit,
    scanf_int _ none 2 mo _ (by omega) (by omega) (.inl ⟨rfl, rfl⟩), scanf_lit,
    scanf_int _ none 2 d _ (by omega) (by omega) (.inl ⟨rfl, rfl⟩), scanf_blank _ 32 _ rfl (dropWhile_digits 2 h (by omega) _),
    scanf_int _ none 2 h _ (by omega) (by omega) (.inl ⟨rfl, rfl⟩), scanf_lit,
    scanf_int _ none 2 mi _ (by omega) (by omega) (.inl ⟨rfl, rfl⟩), scanf_lit,
    ← List.append_nil (digits 2 s), scanf_int _ none 2 s _ (by omega) (by omega) (.inl ⟨rfl, rfl⟩)]
  rfl

theorem scan_netcdf {y mo d h mi s : Nat} (f : Fits y mo d h mi s) :
    scanf netcdfFormat (stamp y mo d h mi s ++ str " UTC") = [(y : Int), mo, d, h, mi, s] := by
  obtain ⟨f1, f2, f3, f4, f5, f6⟩ := f
  unfold netcdfFormat stamp
  simp only [List.append_assoc]
  rw [scanf_int _ _ 4 y _ (by omega) (by omega) (.inr rfl), scanf_lit,
    scanf_int _ _ 2 mo _ (by omega) (by omega) (.inr rfl), scanf_lit,
    scanf_int _ _ 2 d _ (by omega) (by omega) (.inr rfl), scanf_blank _ 32 _ rfl (dropWhile_digits 2 h (by omega) _),
    scanf_int _ _ 2 h _ (by omega) (by omega) (.inr rfl), scanf_lit,
    scanf_int _ _ 2 mi _ (by omega) (by omega) (.inr rfl), scanf_lit,
    scanf_int _ _ 2 s _ (by omega) (by omega) (.inr rfl)]
  rfl

theorem format_stamp {y mo d h mi s : Nat} (f : Fits y mo d h mi s) : formatStamp y mo d h mi s = stamp y mo d h mi s := by
  obtain ⟨f1, f2, f3, f4, f5, f6⟩ := f
  unfold formatStamp
  rw [fmt0_digits (by omega) (by omega), fmt0_digits (by omega) (by omega), fmt0_digits (by omega) (by omega),
    fmt0_digits (by omega) (by omega), fmt0_digits (by omega) (by omega), fmt0_digits (by omega) (by omega)]
  show (stamp y mo d h mi s).take 19 = _
  rw [List.take_of_length_le]
  unfold stamp
  simp only [List.length_append, digits_length, List.length_cons, List.length_nil]
  omega

/-! ## C45 -/

/-- A date and time that is set in a message of edition 1 or 2 reads back as the same text; in edition 1 only if the
seconds are zero, because there is no place for them.  Missing for the full property: other seconds in edition 1. -/
theorem C45_round_trip_partial (g : Message) (y mo d h mi s : Nat) (f : Fits y mo d h mi s)
    (he : g.edition = 2 ∨ (g.edition = 1 ∧ s = 0)) :
    ∃ g', setTime g (stamp y mo d h mi s) = .ok g' ∧ formatTime g' = .ok (stamp y mo d h mi s) := by
  unfold setTime
  rw [scan_stamp f]
  dsimp only
  rcases he with he | ⟨he, rfl⟩
  · rw [if_neg (by omega), if_pos he]
    refine ⟨_, rfl, ?_⟩
    unfold formatTime Message.setSecond Message.getSecond
    simp only [he, if_true]
    rw [if_neg (by omega), format_stamp f]
  · rw [if_pos he]
    refine ⟨_, rfl, ?_⟩
    unfold formatTime Message.setSecond Message.getSecond
    simp only [he, if_true, show ¬ ((1 : Int) = 2) by omega, if_false]
    have : (((y : Int).tdiv 100 + 1) - 1) * 100 + (y : Int).tmod 100 = y := by
      rw [Int.tdiv_eq_ediv_of_nonneg (by omega), Int.tmod_eq_emod_of_nonneg (by omega)]
      omega
    rw [this]
    rw [show (0 : Int) = ((0 : Nat) : Int) by rfl, format_stamp f]

/-- In edition 2 the fields of the message are the parts of the date, in edition 1 the year is given by its century, from
1 for the years up to 99, and the year in it; hours and so on are the same. -/
theorem C45_fields (g : Message) (y mo d h mi s : Nat) (f : Fits y mo d h mi s) (he : g.edition = 1 ∨ g.edition = 2) :
    ∃ g', setTime g (stamp y mo d h mi s) = .ok g' ∧ g'.edition = g.edition ∧
      (g.edition = 2 → g'.year = y ∧ g'.second = s) ∧
      (g.edition = 1 → g'.century = y / 100 + 1 ∧ g'.yearOfCentury = y % 100) ∧
      g'.month = mo ∧ g'.day = d ∧ g'.hour = h ∧ g'.minute = mi := by
  unfold setTime
  rw [scan_stamp f]
  dsimp only
  rcases he with he | he
  · rw [if_pos he]
    refine ⟨_, rfl, ?_⟩
    unfold Message.setSecond
    simp only [he, show ¬ ((1 : Int) = 2) by omega, if_false]
    refine ⟨trivial, fun h => h.elim, fun _ => ⟨?_, ?_⟩, trivial, trivial, trivial, trivial⟩
    · rw [Int.tdiv_eq_ediv_of_nonneg (by omega)]
    · rw [Int.tmod_eq_emod_of_nonneg (by omega)]
  · rw [if_neg (by omega), if_pos he]
    refine ⟨_, rfl, ?_⟩
    unfold Message.setSecond
    simp only [he, if_true]
    exact ⟨trivial, fun _ => ⟨trivial, trivial⟩, fun h => absurd h (by decide), trivial, trivial, trivial, trivial⟩

/-- Other editions are refused, and so is a text without six numbers. -/
theorem C45_refused (g : Message) (buf : Bytes) (h : (g.edition ≠ 1 ∧ g.edition ≠ 2) ∨ (scanf stampFormat buf).length < 6) :
    (setTime g buf).Throws := by
  unfold setTime
  split
  · rename_i hs
    rcases h with h | h
    · rw [if_neg h.1, if_neg h.2]
      trivial
    · rw [hs] at h
      exact absurd h (by simp)
  · trivial

/-- GRIB: edition 1 has no seconds, and the failure to set them is not checked: they are lost without notice. -/
theorem C45_violated_seconds (g : Message) (y mo d h mi s : Nat) (f : Fits y mo d h mi s) (he : g.edition = 1) (hs : s ≠ 0) :
    ∃ g', setTime g (stamp y mo d h mi s) = .ok g' ∧ formatTime g' = .ok (stamp y mo d h mi 0) ∧
      stamp y mo d h mi 0 ≠ stamp y mo d h mi s := by
  have f0 : Fits y mo d h mi 0 := by
    obtain ⟨f1, f2, f3, f4, f5, f6⟩ := f
    exact ⟨f1, f2, f3, f4, f5, by omega⟩
  unfold setTime
  rw [scan_stamp f]
  dsimp only
  rw [if_pos he]
  refine ⟨_, rfl, ?_, ?_⟩
  · unfold formatTime Message.setSecond Message.getSecond
    simp only [he, if_true, show ¬ ((1 : Int) = 2) by omega, if_false]
    have : (((y : Int).tdiv 100 + 1) - 1) * 100 + (y : Int).tmod 100 = y := by
      rw [Int.tdiv_eq_ediv_of_nonneg (by omega), Int.tmod_eq_emod_of_nonneg (by omega)]
      omega
    rw [this]
    rw [show (0 : Int) = ((0 : Nat) : Int) by rfl, format_stamp f0]
  · intro e
    unfold stamp at e
    have e := List.append_cancel_left e
    have e := congrArg ofDigits e
    obtain ⟨f1, f2, f3, f4, f5, f6⟩ := f
    rw [ofDigits_digits 2 0 (by omega), ofDigits_digits 2 s (by omega)] at e
    omega

/-- An observation of 2 July 2005 in messages of both editions. -/
example : Fits 2005 7 2 9 30 0 ∧ Fits 2005 7 2 9 30 17 ∧ stamp 2005 7 2 9 30 17 = str "2005-07-02 09:30:17" ∧
    (∃ g : Message, g.edition = 1) ∧ (∃ g : Message, g.edition = 2) := by
  refine ⟨?_, ?_, by decide, ⟨⟨1, 0, 0, 0, 0, 0, 0, 0, 0⟩, rfl⟩, ⟨⟨2, 0, 0, 0, 0, 0, 0, 0, 0⟩, rfl⟩⟩ <;>
    unfold Fits <;> decide

/-! ## C67 -/

/-- The time of an image that is written to a NetCDF file is read back from it. -/
theorem C67_round_trip (y mo d h mi s : Nat) (f : Fits y mo d h mi s) :
    netcdfReadTime (netcdfTime (stamp y mo d h mi s)) = some (stamp y mo d h mi s) := by
  unfold netcdfReadTime netcdfTime
  rw [scan_netcdf f]
  dsimp only
  rw [format_stamp f]

theorem years_closed : ∀ k : Nat, daysBetweenYears 2000 (2000 + k) + 484 =
    365 * k + (1999 + k) / 4 + (1999 + k) / 400 - (1999 + k) / 100
  | 0 => by decide
  | k + 1 => by
    have ih := years_closed k
    have e : daysBetweenYears 2000 (2000 + (k + 1)) = daysBetweenYears 2000 (2000 + k) + yearLen (2000 + k) := by
      unfold daysBetweenYears
      rw [show 2000 + (k + 1) - 2000 = k + 1 by omega, show 2000 + k - 2000 = k by omega, List.range_succ,
        List.map_append, List.sum_append]
      simp
    rw [e]
    have l : yearLen (2000 + k) = 365 + (if ((2000 + k) % 4 = 0 ∧ (2000 + k) % 100 ≠ 0) ∨ (2000 + k) % 400 = 0 then 1 else 0) := by
      unfold yearLen isLeap
      simp only [Bool.or_eq_true, Bool.and_eq_true, beq_iff_eq, bne_iff_ne]
      split <;> rfl
    rw [l]
    split <;> omega

/-- The forecast reference time of a NetCDF file is the number of seconds from the beginning of 2000, for a date of the
calendar, when the seconds are zero.  Missing for the full property: other seconds. -/
theorem C67_reference_time_partial (y mo d h mi : Nat) (hy : 2000 ≤ y ∧ y ≤ 9999) (hd : ValidDate y mo d) (hh : h ≤ 23)
    (hm : mi ≤ 59) : forecastSeconds2000 (stamp y mo d h mi 0) = since2000 y mo d h mi 0 := by
  obtain ⟨v1, v2, v3, v4⟩ := hd
  have v5 : daysInMonth y mo ≤ 31 := by
    unfold daysInMonth
    split <;> (try split) <;> decide
  have f : Fits y mo d h mi 0 := ⟨hy.2, by omega, by omega, by omega, by omega, by omega⟩
  unfold forecastSeconds2000
  rw [scan_stamp f]
  dsimp only
  obtain ⟨k, rfl⟩ : ∃ k, y = 2000 + k := ⟨y - 2000, by omega⟩
  have hk := years_closed k
  have hc : cumulative mo + (if ((((2000 + k : Nat) : Int) % 4 = 0 ∧ ((2000 + k : Nat) : Int) % 100 ≠ 0) ∨
      ((2000 + k : Nat) : Int) % 400 = 0) ∧ 2 < (mo : Int) then 1 else 0) = daysBeforeMonth (2000 + k) mo := by
    have hl : ((((2000 + k : Nat) : Int) % 4 = 0 ∧ ((2000 + k : Nat) : Int) % 100 ≠ 0) ∨
      ((2000 + k : Nat) : Int) % 400 = 0) ↔ isLeap (2000 + k) = true := by
      unfold isLeap
      simp only [Bool.or_eq_true, Bool.and_eq_true, beq_iff_eq, bne_iff_ne]
      omega
    simp only [hl]
    clear hl hk f v4 v5 hy
    generalize 2000 + k = y
    obtain ⟨e1, e2, e3, e4, e5, e6, e7, e8, e9, e10, e11, e12⟩ := daysBefore_eq y
    have hm' : mo = 1 ∨ mo = 2 ∨ mo = 3 ∨ mo = 4 ∨ mo = 5 ∨ mo = 6 ∨ mo = 7 ∨ mo = 8 ∨ mo = 9 ∨ mo = 10 ∨
      mo = 11 ∨ mo = 12 := by omega
    cases hl : Spec.isLeap y <;> rw [hl] at e3 e4 e5 e6 e7 e8 e9 e10 e11 e12 <;>
    rcases hm' with rfl | rfl | rfl | rfl | rfl | rfl | rfl | rfl | rfl | rfl | rfl | rfl <;> simp_all [cumulative]
  unfold mktimeUTC since2000
  dsimp only
  rw [hc]
  omega

/-- NetCDF: the seconds of the time are not part of the forecast reference time. -/
theorem C67_violated_seconds (y mo d h mi s : Nat) (hy : 2000 ≤ y ∧ y ≤ 9999) (hd : ValidDate y mo d) (hh : h ≤ 23)
    (hm : mi ≤ 59) (hs : 1 ≤ s ∧ s ≤ 59) :
    forecastSeconds2000 (stamp y mo d h mi s) = (since2000 y mo d h mi s : Int) - s := by
  have f : Fits y mo d h mi s := by
    obtain ⟨v1, v2, v3, v4⟩ := hd
    have v5 : daysInMonth y mo ≤ 31 := by
      unfold daysInMonth
      split <;> (try split) <;> decide
    exact ⟨hy.2, by omega, by omega, by omega, by omega, by omega⟩
  have f0 : Fits y mo d h mi 0 := ⟨f.1, f.2.1, f.2.2.1, f.2.2.2.1, f.2.2.2.2.1, by omega⟩
  have h0 := C67_reference_time_partial y mo d h mi hy hd hh hm
  unfold forecastSeconds2000 at h0 ⊢
  rw [scan_stamp f0] at h0
  rw [scan_stamp f]
  dsimp only at h0 ⊢
  rw [h0]
  unfold since2000
  omega

example : ValidDate 2005 7 2 ∧ since2000 2005 7 2 9 30 17 = 173611817 := by
  refine ⟨?_, by decide⟩
  unfold ValidDate
  decide

end Msat.Props
