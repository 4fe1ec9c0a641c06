import Verif.Lemmas.HriIdent

/-
C74: the identification of an HRI file.
-/
namespace Msat.Props
open Msat Msat.Hri Msat.HriSpec Msat.Spec

/-! ### The satellite -/

theorem satelliteOf_name (b0 b1 : UInt8) : (∃ p, satelliteOf b0 b1 = .ok p ∧ satelliteName b0.toNat b1.toNat = some (String.ofList p.1)) ∨
    (satelliteOf b0 b1 = .terminate ∧ satelliteName b0.toNat b1.toNat = none) := by
  by_cases h0 : b0 = 212
  · subst h0
    have : ∀ n : Fin 256, ∃ p, satelliteOf 212 (UInt8.ofNat n) = .ok p ∧ satelliteName 212 n = some (String.ofList p.1) := by
      intro n
      by_cases h : n.val ≤ 240
      · have hn : ¬ (240 : UInt8) < UInt8.ofNat n := by
          rw [UInt8.lt_iff_toNat_lt, UInt8.toNat_ofNat']
          show ¬ 240 < n.val % 256
          omega
        refine ⟨("METEOSAT".toList, 1), ?_, ?_⟩
        · unfold satelliteOf
          rw [if_pos rfl, if_neg hn]
        · unfold satelliteName
          rw [if_pos rfl, if_pos h]
          rfl
      · have hk : ∀ k : Fin 15, ∃ p, satelliteOf 212 (UInt8.ofNat (k + 241)) = .ok p ∧ satelliteName 212 (k + 241) = some (String.ofList p.1) := by
          intro k
          refine ⟨(match satelliteOf 212 (UInt8.ofNat (k + 241)) with | .ok p => p | _ => ([], 0)), ?_⟩
          revert k
          decide +kernel
        have := hk ⟨n.val - 241, by omega⟩
        simp only at this
        rwa [Nat.sub_add_cancel (by omega)] at this
    obtain ⟨p, h1, h2⟩ := this ⟨b1.toNat, b1.toNat_lt⟩
    rw [UInt8.ofNat_toNat] at h1
    exact Or.inl ⟨p, h1, h2⟩
  · have n0 : b0.toNat ≠ 212 := fun h => h0 (UInt8.toNat_inj.mp h)
    by_cases hz : b0 = 0
    · subst hz
      have c : ∀ k : UInt8, b1 ≠ k → b1.toNat ≠ k.toNat := fun k h e => h (UInt8.toNat_inj.mp e)
      by_cases e0 : b1 = 0
      · subst e0; exact Or.inl ⟨_, rfl, rfl⟩
      by_cases e1 : b1 = 1
      · subst e1; exact Or.inl ⟨_, rfl, rfl⟩
      by_cases e2 : b1 = 2
      · subst e2; exact Or.inl ⟨_, rfl, rfl⟩
      by_cases e3 : b1 = 3
      · subst e3; exact Or.inl ⟨_, rfl, rfl⟩
      have c0 : b1.toNat ≠ 0 := c 0 e0
      have c1 : b1.toNat ≠ 1 := c 1 e1
      have c2 : b1.toNat ≠ 2 := c 2 e2
      have c3 : b1.toNat ≠ 3 := c 3 e3
      refine Or.inr ⟨?_, ?_⟩
      · unfold satelliteOf
        rw [if_neg h0, if_pos rfl, if_neg e0, if_neg e1, if_neg e2, if_neg e3]
      · unfold satelliteName
        rw [if_neg n0, if_pos (show UInt8.toNat 0 = 0 from rfl)]
        exact List.getElem?_eq_none (by show 4 ≤ _; omega)
    · have nz : b0.toNat ≠ 0 := fun h => hz (UInt8.toNat_inj.mp h)
      refine Or.inr ⟨?_, ?_⟩
      · unfold satelliteOf
        rw [if_neg h0, if_neg hz]
      · unfold satelliteName
        rw [if_neg n0, if_neg nz]

/-! ### The date -/

/-- Day `q` after the first of January of 1970 at noon, with a clock `utcoff` seconds ahead. -/
theorem gmtime_day (k n m d : Nat) (hd : dayOfYear (1970 + k) n m d) (r : Int) (h0 : 0 ≤ r) (h1 : r < 86400) :
    gmtimeDate (86400 * (daysBetweenYears 1970 (1970 + k) + (n - 1) : Nat) + r) = (1970 + k, m, d) := by
  obtain ⟨hv, hn⟩ := hd
  have hlen : n - 1 < yearLen (1970 + k) := by
    have := hv
    obtain ⟨v1, v2, v3, v4⟩ := hv
    have hmono : daysBeforeMonth (1970 + k) m + daysInMonth (1970 + k) m ≤ yearLen (1970 + k) := by
      have hm : m = 1 ∨ m = 2 ∨ m = 3 ∨ m = 4 ∨ m = 5 ∨ m = 6 ∨ m = 7 ∨ m = 8 ∨ m = 9 ∨ m = 10 ∨ m = 11 ∨ m = 12 := by omega
      unfold yearLen
      rcases hm with rfl | rfl | rfl | rfl | rfl | rfl | rfl | rfl | rfl | rfl | rfl | rfl <;>
        simp only [daysBeforeMonth, List.range_succ, List.range_zero, List.map_cons, List.map_nil, List.nil_append, List.cons_append,
          List.sum_cons, List.sum_nil, daysInMonth, Nat.reduceAdd, Nat.reduceSub] <;> split <;> omega
    omega
  unfold gmtimeDate
  have e : (86400 * ((daysBetweenYears 1970 (1970 + k) + (n - 1) : Nat) : Int) + r) / 86400 =
      ((daysBetweenYears 1970 (1970 + k) + (n - 1) : Nat) : Int) := by omega
  rw [e, Int.toNat_natCast, yearOf_days k 1970 (n - 1) hlen]
  dsimp only
  rw [← hn, monthOf_days _ _ _ hv]

theorem monthDayOf_day (utcoff : Int) (k n n' m d : Nat) (hd : dayOfYear (1970 + k) n' m d) (h1 : 1 ≤ n) (h3 : n ≤ 366) (h1' : 1 ≤ n')
    (h0 : 0 ≤ 43200 - utcoff + 86400 * ((n : Int) - n')) (hlt : 43200 - utcoff + 86400 * ((n : Int) - n') < 86400) :
    monthDayOf utcoff ((1970 + k : Nat) : Int) n = .ok (m, d) := by
  unfold monthDayOf
  dsimp only
  rw [if_pos (by omega), newYear]
  have := gmtime_day k n' m d hd _ h0 hlt
  have e : (86400 * (daysBetweenYears 1970 (1970 + k) : Int) + 43200 - utcoff + ((n : Int) - 1) * 24 * 60 * 60) =
      86400 * ((daysBetweenYears 1970 (1970 + k) + (n' - 1) : Nat) : Int) + (43200 - utcoff + 86400 * ((n : Int) - n')) := by omega
  rw [e, this]

theorem i2_word (s : Bytes) (n : Nat) (h : n + 2 ≤ s.length) :
    ∃ v, i2FromBuff false (s.drop n) = .ok v ∧ toUshort v = word s n ∧ (word s n < 32768 → v = word s n) ∧
      v = if word s n < 32768 then (word s n : Int) else word s n - 65536 := by
  obtain ⟨v, e, u⟩ := i2_at s n h
  refine ⟨v, e, u, ?_⟩
  have hw : word s n < 65536 := by
    unfold word
    have := (s.getD n 0).toNat_lt
    have := (s.getD (n + 1) 0).toNat_lt
    omega
  have hb : -32768 ≤ v ∧ v < 32768 := by
    have e' : s.drop n = s[n] :: s[n + 1] :: s.drop (n + 2) := by
      rw [List.drop_eq_getElem_cons (by omega), List.drop_eq_getElem_cons (by omega)]
    rw [e'] at e
    unfold i2FromBuff at e
    have hdet : detectBig false = false := by decide
    simp only [hdet, Bool.false_eq_true, if_false] at e
    injection e with e
    have l : load false [s[n + 1], s[n]] < 65536 := by
      have h0 := (s[n]).toNat_lt
      have h1 := (s[n + 1]).toNat_lt
      simp [load]
      omega
    rw [← e]
    split <;> omega
  change toUshort v = word s n at u
  unfold toUshort at u
  split <;> omega

/-- The identification of a known satellite, on the days of a year from 1970, is what its bytes say: name, year, month and day of the month
of the day of the year, hour and minute, offsets, longitude.  Missing for C74: clocks set to twelve hours or more behind UTC, or to more
than twelve hours ahead (see `C74_violated_east` and `C74_violated_west`); the day of the week of the text (see `C74_violated_weekday`). -/
theorem C74_ident_partial (utcoff : Int) (h1 : -43200 < utcoff) (h2 : utcoff ≤ 43200) (s : Bytes) (hs : s.length = 48)
    (name : String) (hname : satelliteName (s.getD 0 0).toNat (s.getD 1 0).toNat = some name)
    (hy : 1970 ≤ word s 2) (hy' : word s 2 < 32768) (m d : Nat) (hd : dayOfYear (word s 2) (word s 4) m d) :
    ∃ i, readIdent false utcoff s = .ok i ∧ String.ofList i.satellite = name ∧ i.indicator = (s.getD 0 0, s.getD 1 0) ∧
      i.year = word s 2 ∧ i.month = m ∧ i.day = d ∧ i.hour = (word s 6 / 100 : Nat) ∧ i.minute = (word s 6 % 100 : Nat) ∧
      i.julianDay = word s 4 ∧ i.nominalTime = word s 6 ∧ i.columnOffset = word s 20 ∧ i.lineOffset = word s 22 ∧
      i.longitude = (if word s 24 < 32768 then (word s 24 : Int) else word s 24 - 65536) := by
  obtain ⟨v2, e2, -, y2, -⟩ := i2_word s 2 (by omega)
  obtain ⟨v4, e4, u4, -⟩ := i2_word s 4 (by omega)
  obtain ⟨v6, e6, u6, -⟩ := i2_word s 6 (by omega)
  obtain ⟨v20, e20, u20, -⟩ := i2_word s 20 (by omega)
  obtain ⟨v22, e22, u22, -⟩ := i2_word s 22 (by omega)
  obtain ⟨v24, e24, -, -, w24⟩ := i2_word s 24 (by omega)
  replace y2 := y2 hy'
  have hn : 1 ≤ word s 4 ∧ word s 4 ≤ 366 := by
    obtain ⟨⟨v1, v2, v3, v4⟩, hn⟩ := hd
    have hm : m = 1 ∨ m = 2 ∨ m = 3 ∨ m = 4 ∨ m = 5 ∨ m = 6 ∨ m = 7 ∨ m = 8 ∨ m = 9 ∨ m = 10 ∨ m = 11 ∨ m = 12 := by omega
    refine ⟨by omega, ?_⟩
    rw [← hn]
    clear e2 e4 e6 e20 e22 e24
    rcases hm with rfl | rfl | rfl | rfl | rfl | rfl | rfl | rfl | rfl | rfl | rfl | rfl <;>
      simp only [daysBeforeMonth, List.range_succ, List.range_zero, List.map_cons, List.map_nil, List.nil_append, List.cons_append,
          List.sum_cons, List.sum_nil, daysInMonth, Nat.reduceAdd, Nat.reduceSub] at v4 ⊢ <;> (try split at v4) <;> (try split) <;> omega
  obtain ⟨k, hk⟩ : ∃ k, word s 2 = 1970 + k := ⟨word s 2 - 1970, by omega⟩
  have hmd := monthDayOf_day utcoff k (word s 4) (word s 4) m d (by rw [← hk]; exact hd) hn.1 hn.2 hn.1 (by omega) (by omega)
  have hsat := satelliteOf_name (s.getD 0 0) (s.getD 1 0)
  obtain ⟨⟨nm, num⟩, es, hp⟩ := hsat.resolve_right (fun hp => by rw [hp.2] at hname; cases hname)
  rw [hp] at hname
  injection hname with hname
  refine ⟨⟨nm, num, (s.getD 0 0, s.getD 1 0), word s 2, m, d, (word s 6 / 100 : Nat), (word s 6 - word s 6 / 100 * 100 : Nat), 0, word s 4, word s 6,
    word s 20, word s 22, v24⟩, ?_, hname, rfl, rfl, rfl, rfl, rfl, ?_, rfl, rfl, rfl, rfl, w24⟩
  · obtain ⟨b0, b1, t, rfl⟩ : ∃ b0 b1 t, s = b0 :: b1 :: t := by
      obtain ⟨b0, u, rfl, hu⟩ := cons_of_length (l := s) (n := 1) (by omega)
      obtain ⟨b1, t, rfl, _⟩ := cons_of_length (l := u) (n := 0) (by omega)
      exact ⟨b0, b1, t, rfl⟩
    unfold readIdent
    dsimp only
    rw [show satelliteOf b0 b1 = _ from es, Outcome.ok_bind]
    dsimp only
    rw [e2, Outcome.ok_bind, e4, Outcome.ok_bind]
    rw [u4, y2, hk, hmd, Outcome.ok_bind]
    dsimp only
    rw [e6, Outcome.ok_bind, e20, Outcome.ok_bind, e22, Outcome.ok_bind, e24, Outcome.ok_bind, u6, u20, u22]
    rfl
  · show ((word s 6 - word s 6 / 100 * 100 : Nat) : Int) = _
    omega

/-- METEOSAT-7 on the 60th day of 2000, the 29th of February, at 12:30. -/
example : ∃ i, readIdent false 3600 ([212, 247, 7, 208, 0, 60, 4, 206] ++ List.replicate 40 0) = .ok i ∧
    String.ofList i.satellite = "METEOSAT-7" ∧ i.year = 2000 ∧ i.month = 2 ∧ i.day = 29 ∧ i.hour = 12 ∧ i.minute = 30 := by
  obtain ⟨i, e, h1, -, h2, h3, h4, h5, h6, -⟩ := C74_ident_partial 3600 (by decide) (by decide)
    ([212, 247, 7, 208, 0, 60, 4, 206] ++ List.replicate 40 0) (by simp) "METEOSAT-7" (by decide) (by decide) (by decide) 2 29
    (by unfold dayOfYear ValidDate; decide)
  exact ⟨i, e, h1, h2, h3, h4, h5, h6⟩

/-- A file of a satellite that is not known is refused: the program ends. -/
theorem C74_refused (machine : Bool) (utcoff : Int) (s : Bytes) (hs : 2 ≤ s.length)
    (hname : satelliteName (s.getD 0 0).toNat (s.getD 1 0).toNat = none) : readIdent machine utcoff s = .terminate := by
  match s, hs with
  | b0 :: b1 :: t, _ =>
    rcases satelliteOf_name b0 b1 with ⟨p, _, hp⟩ | ⟨e, _⟩
    · rw [show satelliteName b0.toNat b1.toNat = none from hname] at hp; cases hp
    · unfold readIdent
      dsimp only
      rw [e]
      rfl

example : satelliteName 1 0 = none ∧ satelliteName 0 4 = none := by decide

/-- Exactly one of the five kinds of satellite is that of an identification that was read, and it is the one its bytes say. -/
theorem C74_kinds (machine : Bool) (utcoff : Int) (s : Bytes) (i : Ident) (h : readIdent machine utcoff s = .ok i) :
    (i.isMeteosat = true ↔ s.getD 0 0 = 212) ∧ (i.isGOES_E = true ↔ s.take 2 = [0, 0]) ∧ (i.isGOES_W = true ↔ s.take 2 = [0, 1]) ∧
      (i.isGMS = true ↔ s.take 2 = [0, 2]) ∧ (i.isGOMS = true ↔ s.take 2 = [0, 3]) ∧
      [i.isMeteosat, i.isGOES_E, i.isGOES_W, i.isGMS, i.isGOMS].count true = 1 := by
  match s, h with
  | b0 :: b1 :: t, h =>
    unfold readIdent at h
    dsimp only at h
    have hind : i.indicator = (b0, b1) ∧ ∃ p, satelliteOf b0 b1 = .ok p := by
      obtain ⟨⟨n, k⟩, e1, h⟩ := Outcome.of_bind_ok h
      dsimp only at h
      obtain ⟨_, _, h⟩ := Outcome.of_bind_ok h
      obtain ⟨_, _, h⟩ := Outcome.of_bind_ok h
      obtain ⟨_, _, h⟩ := Outcome.of_bind_ok h
      obtain ⟨_, _, h⟩ := Outcome.of_bind_ok h
      obtain ⟨_, _, h⟩ := Outcome.of_bind_ok h
      obtain ⟨_, _, h⟩ := Outcome.of_bind_ok h
      obtain ⟨_, _, h⟩ := Outcome.of_bind_ok h
      injection h with h
      exact ⟨by rw [← h], _, e1⟩
    obtain ⟨hi, p, hp⟩ := hind
    have hk : b0 = 212 ∨ (b0 = 0 ∧ (b1 = 0 ∨ b1 = 1 ∨ b1 = 2 ∨ b1 = 3)) := by
      unfold satelliteOf at hp
      split at hp
      · exact Or.inl (by assumption)
      · split at hp
        · refine Or.inr ⟨by assumption, ?_⟩
          split at hp
          · exact Or.inl (by assumption)
          · split at hp
            · exact Or.inr (Or.inl (by assumption))
            · split at hp
              · exact Or.inr (Or.inr (Or.inl (by assumption)))
              · split at hp
                · exact Or.inr (Or.inr (Or.inr (by assumption)))
                · cases hp
        · cases hp
    rcases hk with rfl | ⟨rfl, rfl | rfl | rfl | rfl⟩ <;>
      simp [Ident.isMeteosat, Ident.isGOES_E, Ident.isGOES_W, Ident.isGMS, Ident.isGOMS, hi] 

/-! ### What goes wrong -/

/-- With a clock more than twelve hours ahead of UTC (New Zealand in summer, Tonga, Kiribati), the date is that of the day before. -/
theorem C74_violated_east (utcoff : Int) (h1 : 43200 < utcoff) (h2 : utcoff ≤ 129600) (y n m d : Nat) (hy : 1970 ≤ y) (hn : n ≤ 365)
    (h1' : 1 ≤ n) (hd : dayOfYear y n m d) : monthDayOf utcoff (y : Int) (n + 1) = .ok (m, d) := by
  obtain ⟨k, rfl⟩ : ∃ k, y = 1970 + k := ⟨y - 1970, by omega⟩
  exact monthDayOf_day utcoff k (n + 1) n m d hd (by omega) (by omega) h1' (by omega) (by omega)

/-- With a clock twelve hours behind UTC or more, the date is that of the day after. -/
theorem C74_violated_west (utcoff : Int) (h1 : -129600 < utcoff) (h2 : utcoff ≤ -43200) (y n m d : Nat) (hy : 1970 ≤ y) (hn : n ≤ 366)
    (h1' : 2 ≤ n) (hd : dayOfYear y n m d) : monthDayOf utcoff (y : Int) (n - 1) = .ok (m, d) := by
  obtain ⟨k, rfl⟩ : ∃ k, y = 1970 + k := ⟨y - 1970, by omega⟩
  exact monthDayOf_day utcoff k (n - 1) n m d hd (by omega) (by omega) (by omega) (by omega) (by omega)

/-- The second of January, in Auckland and on Baker Island. -/
example : monthDayOf 46800 2002 2 = .ok (1, 1) ∧ monthDayOf (-43200) 2002 1 = .ok (1, 2) :=
  ⟨C74_violated_east 46800 (by decide) (by decide) 2002 1 1 1 (by decide) (by decide) (by decide) (by unfold dayOfYear ValidDate; decide),
    C74_violated_west (-43200) (by decide) (by decide) 2002 2 1 2 (by decide) (by decide) (by decide) (by unfold dayOfYear ValidDate; decide)⟩

/-- The text of the date always says Sunday: it is wrong on the other six days. -/
theorem C74_violated_weekday (machine : Bool) (utcoff : Int) (s : Bytes) (i : Ident) (h : readIdent machine utcoff s = .ok i) (y n : Nat)
    (hw : weekdayOf y n ≠ 0) : i.weekday ≠ weekdayOf y n := by
  match s, h with
  | b0 :: b1 :: t, h =>
    unfold readIdent at h
    dsimp only at h
    obtain ⟨⟨n, k⟩, e1, h⟩ := Outcome.of_bind_ok h
    dsimp only at h
    obtain ⟨_, _, h⟩ := Outcome.of_bind_ok h
    obtain ⟨_, _, h⟩ := Outcome.of_bind_ok h
    obtain ⟨_, _, h⟩ := Outcome.of_bind_ok h
    obtain ⟨_, _, h⟩ := Outcome.of_bind_ok h
    obtain ⟨_, _, h⟩ := Outcome.of_bind_ok h
    obtain ⟨_, _, h⟩ := Outcome.of_bind_ok h
    obtain ⟨_, _, h⟩ := Outcome.of_bind_ok h
    injection h with h
    rw [← h]
    show (0 : Int) ≠ _
    omega

/-- The first of February of 2002 was a Friday. -/
example : weekdayOf 2002 32 = 5 := by decide

/-- A day of the year above 24856 makes the product of seconds overflow. -/
theorem C74_violated_overflow (utcoff year : Int) (n : Nat) (h : 24856 < n) : monthDayOf utcoff year n = .ub := by
  unfold monthDayOf
  dsimp only
  rw [if_neg (by omega)]

/-- Day 366 of a year that has 365 is accepted, as the first of January of the same year. -/
theorem C74_violated_day366 (utcoff : Int) (h1 : -43200 < utcoff) (h2 : utcoff ≤ 43200) (y : Nat) (hy : 1970 ≤ y) (hl : isLeap y = false) :
    monthDayOf utcoff (y : Int) 366 = .ok (1, 1) := by
  obtain ⟨k, rfl⟩ : ∃ k, y = 1970 + k := ⟨y - 1970, by omega⟩
  unfold monthDayOf
  dsimp only
  rw [if_pos (by decide), newYear]
  have hd : dayOfYear (1970 + (k + 1)) 1 1 1 := ⟨⟨by omega, by omega, by omega, by simp [daysInMonth]⟩, by simp [daysBeforeMonth]⟩
  have := gmtime_day (k + 1) 1 1 1 hd (43200 - utcoff) (by omega) (by omega)
  have e := daysBetween_last 1970 k
  have l : yearLen (1970 + k) = 365 := by simp [yearLen, hl]
  rw [l] at e
  rw [e] at this
  have e2 : (86400 * (daysBetweenYears 1970 (1970 + k) : Int) + 43200 - utcoff + (((366 : Nat) : Int) - 1) * 24 * 60 * 60) =
      86400 * ((daysBetweenYears 1970 (1970 + k) + 365 + (1 - 1) : Nat) : Int) + (43200 - utcoff) := by omega
  rw [e2, this]

example : isLeap 2002 = false := by decide

end Msat.Props
