import Verif.Model.TimeTexts
import Verif.Spec.TimeTexts
import Verif.Props.C94

/-
C102: the texts of times.
-/
namespace Msat.Props
open Msat Text TextSpec DatetimeSpec TimeTexts TimeTextsSpec Spec

/-! ### Dates -/

theorem between_succ (y : Nat) (hy : 1958 ≤ y) : daysBetweenYears 1958 (y + 1) = daysBetweenYears 1958 y + yearLen y := by
  unfold daysBetweenYears
  rw [show y + 1 - 1958 = (y - 1958) + 1 by omega, List.range_succ, List.map_append, List.sum_append]
  simp only [List.map_cons, List.map_nil, List.sum_cons, List.sum_nil, Nat.add_zero]
  rw [show 1958 + (y - 1958) = y by omega]

theorem before_succ (y m : Nat) (hm : 1 ≤ m) : daysBeforeMonth y (m + 1) = daysBeforeMonth y m + daysInMonth y m := by
  unfold daysBeforeMonth
  rw [show m + 1 - 1 = (m - 1) + 1 by omega, List.range_succ, List.map_append, List.sum_append]
  simp only [List.map_cons, List.map_nil, List.sum_cons, List.sum_nil, Nat.add_zero]
  rw [show m - 1 + 1 = m by omega]

theorem whole_year (y : Nat) : daysBeforeMonth y 12 + 31 = yearLen y := by
  unfold daysBeforeMonth yearLen
  simp only [List.range, List.range.loop, List.map, daysInMonth]
  split <;> simp

/-- Every day has a date. -/
theorem date_exists (n : Nat) : ∃ y m d, On n y m d := by
  induction n with
  | zero => exact ⟨1958, 1, 1, Nat.le_refl _, ⟨by decide, by decide, by decide, by decide⟩, by decide⟩
  | succ n ih =>
    obtain ⟨y, m, d, hy, ⟨v1, v2, v3, v4⟩, e⟩ := ih
    by_cases h1 : d < daysInMonth y m
    · exact ⟨y, m, d + 1, hy, ⟨v1, v2, by omega, h1⟩, by omega⟩
    by_cases h2 : m < 12
    · refine ⟨y, m + 1, 1, hy, ⟨by omega, by omega, by omega, ?_⟩, ?_⟩
      · have : m = 1 ∨ m = 2 ∨ m = 3 ∨ m = 4 ∨ m = 5 ∨ m = 6 ∨ m = 7 ∨ m = 8 ∨ m = 9 ∨ m = 10 ∨ m = 11 := by omega
        unfold daysInMonth
        rcases this with rfl | rfl | rfl | rfl | rfl | rfl | rfl | rfl | rfl | rfl | rfl <;> first | exact (by decide : 1 ≤ 31) | exact (by decide : 1 ≤ 30) | (simp; split <;> omega)
      · rw [before_succ y m v1]; omega
    · have : m = 12 := by omega
      subst this
      have h31 : daysInMonth y 12 = 31 := rfl
      refine ⟨y + 1, 1, 1, by omega, ⟨by omega, by omega, by omega, show 1 ≤ 31 by decide⟩, ?_⟩
      rw [between_succ y hy, ← whole_year y]
      have : daysBeforeMonth (y + 1) 1 = 0 := rfl
      omega

theorem between_mono {a b : Nat} (ha : 1958 ≤ a) (h : a ≤ b) : daysBetweenYears 1958 a ≤ daysBetweenYears 1958 b := by
  induction h with
  | refl => exact Nat.le_refl _
  | step h ih => rw [between_succ _ (Nat.le_trans ha h)]; omega

theorem before_mono {y a b : Nat} (ha : 1 ≤ a) (h : a ≤ b) : daysBeforeMonth y a ≤ daysBeforeMonth y b := by
  induction h with
  | refl => exact Nat.le_refl _
  | step h ih => rw [before_succ _ _ (Nat.le_trans ha h)]; omega

theorem between_low {a : Nat} (ha : 1958 ≤ a) : 365 * (a - 1958) ≤ daysBetweenYears 1958 a := by
  obtain ⟨k, rfl⟩ := Nat.exists_eq_add_of_le ha
  rw [Nat.add_sub_cancel_left]
  clear ha
  induction k with
  | zero => exact Nat.zero_le _
  | succ k ih =>
    rw [← Nat.add_assoc, between_succ _ (by omega)]
    have : 365 ≤ yearLen (1958 + k) := by unfold yearLen; split <;> omega
    omega

theorem on_year_le {n y m d : Nat} (h : On n y m d) (hn : n ≤ 70000) : y ≤ 2160 := by
  obtain ⟨h1, _, h3⟩ := h
  have := between_low h1
  omega

/-- Dates are in the order of their days. -/
theorem on_lt {n n' y y' m m' d d' : Nat} (h : On n y m d) (h' : On n' y' m' d') (hn : n < n') :
    y < y' ∨ (y = y' ∧ (m < m' ∨ (m = m' ∧ d < d'))) := by
  obtain ⟨h1, h2, h3⟩ := h
  obtain ⟨h1', h2', h3'⟩ := h'
  have l := dayOfYear_lt _ _ _ h2
  have l' := dayOfYear_lt _ _ _ h2'
  obtain ⟨v1, v2, v3, v4⟩ := h2
  obtain ⟨v1', v2', v3', v4'⟩ := h2'
  rcases Nat.lt_trichotomy y y' with hy | hy | hy
  · exact .inl hy
  · subst hy
    refine .inr ⟨rfl, ?_⟩
    rcases Nat.lt_trichotomy m m' with hm | hm | hm
    · exact .inl hm
    · subst hm
      exact .inr ⟨rfl, by omega⟩
    · have := before_mono (y := y) (show 1 ≤ m' + 1 by omega) (show m' + 1 ≤ m from hm)
      rw [before_succ y m' v1'] at this
      omega
  · have := between_mono (show 1958 ≤ y' + 1 by omega) (show y' + 1 ≤ y from hy)
    rw [between_succ y' h1'] at this
    omega

theorem on_unique {n y y' m m' d d' : Nat} (h : On n y m d) (h' : On n y' m' d') : y = y' ∧ m = m' ∧ d = d' := by
  obtain ⟨h1, h2, h3⟩ := h
  obtain ⟨h1', h2', h3'⟩ := h'
  have l := dayOfYear_lt _ _ _ h2
  have l' := dayOfYear_lt _ _ _ h2'
  obtain ⟨v1, v2, v3, v4⟩ := h2
  obtain ⟨v1', v2', v3', v4'⟩ := h2'
  have ey : y = y' := by
    rcases Nat.lt_trichotomy y y' with hy | hy | hy
    · have := between_mono (show 1958 ≤ y + 1 by omega) (show y + 1 ≤ y' from hy)
      rw [between_succ y h1] at this
      omega
    · exact hy
    · have := between_mono (show 1958 ≤ y' + 1 by omega) (show y' + 1 ≤ y from hy)
      rw [between_succ y' h1'] at this
      omega
  subst ey
  have em : m = m' := by
    rcases Nat.lt_trichotomy m m' with hm | hm | hm
    · have := before_mono (y := y) (show 1 ≤ m + 1 by omega) (show m + 1 ≤ m' from hm)
      rw [before_succ y m v1] at this
      omega
    · exact hm
    · have := before_mono (y := y) (show 1 ≤ m' + 1 by omega) (show m' + 1 ≤ m from hm)
      rw [before_succ y m' v1'] at this
      omega
  subst em
  exact ⟨rfl, rfl, by omega⟩

/-! ### Order of texts -/

theorem lex_prefix (p x y : Bytes) (h : x < y) : p ++ x < p ++ y := by
  induction p with
  | nil => exact h
  | cons a p ih => exact List.Lex.cons ih

theorem lex_first {p q : Bytes} (hl : p.length = q.length) (h : p < q) (x y : Bytes) : p ++ x < q ++ y := by
  induction p generalizing q with
  | nil =>
    cases q with
    | nil => exact absurd h (List.lt_irrefl _)
    | cons b q => cases hl
  | cons a p ih =>
    cases q with
    | nil => cases hl
    | cons b q =>
      rcases h with _ | h | h
      · exact List.Lex.rel ‹_›
      · exact List.Lex.cons (ih (by simpa using hl) ‹_›)

theorem digits_lt : ∀ (k a b : Nat), b < 10 ^ k → a < b → digits k a < digits k b
  | 0, a, b, hb, h => absurd hb (by simp; omega)
  | k + 1, a, b, hb, h => by
    show digits k (a / 10) ++ [UInt8.ofNat (48 + a % 10)] < digits k (b / 10) ++ [UInt8.ofNat (48 + b % 10)]
    by_cases he : a / 10 = b / 10
    · rw [he]
      apply lex_prefix
      apply List.Lex.rel
      have h1 : a % 10 < b % 10 := by omega
      have h2 : b % 10 < 10 := Nat.mod_lt _ (by omega)
      rw [UInt8.lt_iff_toNat_lt, UInt8.toNat_ofNat', UInt8.toNat_ofNat']
      omega
    · apply lex_first
      · rw [digits_length, digits_length]
      · exact digits_lt k _ _ (by rw [Nat.pow_succ] at hb; omega) (by omega)

theorem digits_step (k : Nat) {a b : Nat} (hb : b < 10 ^ k) {x y : Bytes} (h : a < b ∨ (a = b ∧ x < y)) :
    digits k a ++ x < digits k b ++ y := by
  rcases h with h | ⟨rfl, h⟩
  · exact lex_first (by rw [digits_length, digits_length]) (digits_lt k a b hb h) x y
  · exact lex_prefix _ _ _ h

/-! ### CDS times -/

theorem strftime_stamp {y mo d h mi s : Nat} (f : Fits y mo d h mi s) : strftime y mo d h mi s = stamp y mo d h mi s := by
  obtain ⟨f1, f2, f3, f4, f5, f6⟩ := f
  unfold strftime
  rw [fmt0_digits (by omega) (by omega), fmt0_digits (by omega) (by omega), fmt0_digits (by omega) (by omega),
    fmt0_digits (by omega) (by omega), fmt0_digits (by omega) (by omega), fmt0_digits (by omega) (by omega)]
  rfl

theorem on_fits {n y m d : Nat} (h : On n y m d) (hn : n ≤ 70000) (msec : Nat) :
    Fits y m d (msec / 3600000 % 24) (msec / 60000 % 60) (msec / 1000 % 60) := by
  have hy := on_year_le h hn
  obtain ⟨_, ⟨v1, v2, v3, v4⟩, _⟩ := h
  have hdm : daysInMonth y m ≤ 31 := by
    unfold daysInMonth
    split <;> first | omega | (split <;> omega)
  exact ⟨by omega, by omega, by omega, by omega, by omega, by omega⟩

/-- The text of a time of a number of days from the first of January 1958 and of milliseconds is the date and time of day,
with the milliseconds after it; milliseconds of more than a day count for the days after. -/
theorem C102_text (day msec : Nat) (hd : day < 2 ^ 16) (hm : msec < 2 ^ 32) :
    ∃ y m d, On (day + msec / 86400000) y m d ∧ shortText (Time.cdsShortOf day msec) = timeText y m d msec [] := by
  obtain ⟨y, m, d, hon⟩ := date_exists (day + msec / 86400000)
  refine ⟨y, m, d, hon, ?_⟩
  have f := on_fits hon (by omega) msec
  obtain ⟨h1, h2, h3⟩ := hon
  unfold shortText
  rw [gmtime_cds h1 h2 h3]
  dsimp only
  have es : ((Time.cdsShortOf day msec).unixtime + 378691200).toNat % 60 = msec / 1000 % 60 := by
    unfold Time.cdsShortOf
    dsimp only
    have : ((86400 * (day : Int) + ((msec / 1000 : Nat) : Int) + -378691200) + 378691200).toNat = 86400 * day + msec / 1000 := by omega
    rw [this]
    omega
  have eu : (Time.cdsShortOf day msec).usecs = msec % 1000 := rfl
  rw [es, eu, strftime_stamp f, fmt0_digits (by omega) (by omega)]
  unfold timeText
  rw [List.append_nil]

theorem timeText_insert (y m d msec : Nat) (a : Bytes) : insert24 (timeText y m d msec []) a = .ok (timeText y m d msec a) := by
  unfold insert24 timeText
  have hl : (stamp y m d (msec / 3600000 % 24) (msec / 60000 % 60) (msec / 1000 % 60) ++ str " +" ++ digits 3 (msec % 1000)).length = 24 := by
    unfold stamp
    simp only [List.length_append, digits_length, List.length_cons, List.length_nil]
    rfl
  rw [List.append_nil]
  generalize stamp y m d (msec / 3600000 % 24) (msec / 60000 % 60) (msec / 1000 % 60) ++ str " +" ++ digits 3 (msec % 1000) = p at hl
  rw [if_neg (by rw [List.length_append]; omega), ← hl, List.take_left' rfl, List.drop_left' rfl]

/-- With microseconds the text has three more digits, with nanoseconds another three. -/
theorem C102_fractions (day msec us ns : Nat) (hd : day < 2 ^ 16) (hm : msec < 2 ^ 32) (hu : us < 1000) (hn : ns < 1000) :
    ∃ y m d, On (day + msec / 86400000) y m d ∧
      cdsText (Time.cdsShortOf day msec, us) = .ok (timeText y m d msec (str "." ++ digits 3 us)) ∧
      expandedText (Time.cdsShortOf day msec, us, ns) = .ok (timeText y m d msec (str "." ++ digits 3 us ++ digits 3 ns)) := by
  obtain ⟨y, m, d, hon, e⟩ := C102_text day msec hd hm
  refine ⟨y, m, d, hon, ?_, ?_⟩
  · unfold cdsText
    dsimp only
    rw [e, fmt0_digits (by omega) (by omega), timeText_insert]
  · unfold expandedText
    dsimp only
    rw [e, fmt0_digits (by omega) (by omega), fmt0_digits (by omega) (by omega), timeText_insert]

theorem day_parts (t : Nat) : t % 86400000 = ((t / 3600000 % 24 * 60 + t / 60000 % 60) * 60 + t / 1000 % 60) * 1000 + t % 1000 := by
  omega

theorem parts_lt {h m s f h' m' s' f' : Nat} (hm : m < 60) (hs : s < 60) (hf : f < 1000) (hm' : m' < 60) (hs' : s' < 60) (hf' : f' < 1000) :
    (((h * 60 + m) * 60 + s) * 1000 + f < ((h' * 60 + m') * 60 + s') * 1000 + f' →
      h < h' ∨ (h = h' ∧ (m < m' ∨ (m = m' ∧ (s < s' ∨ (s = s' ∧ f < f')))))) ∧
    (((h * 60 + m) * 60 + s) * 1000 + f = ((h' * 60 + m') * 60 + s') * 1000 + f' → h = h' ∧ m = m' ∧ s = s' ∧ f = f') := by
  omega

theorem timeText_lt {n n' y y' m m' d d' t t' : Nat} (hon : On n y m d) (hon' : On n' y' m' d') (hn : n' ≤ 70000) {a b : Bytes}
    (h : n < n' ∨ (n = n' ∧ t % 86400000 < t' % 86400000) ∨
      (n = n' ∧ t % 86400000 = t' % 86400000 ∧ a ++ str " msecs" < b ++ str " msecs")) :
    timeText y m d t a < timeText y' m' d' t' b := by
  obtain ⟨f1, f2, f3, f4, f5, f6⟩ := on_fits hon' hn t'
  unfold timeText stamp
  simp only [List.append_assoc]
  have hd : (y < y' ∨ (y = y' ∧ (m < m' ∨ (m = m' ∧ d < d')))) ∨ ((y = y' ∧ m = m' ∧ d = d') ∧
      (t % 86400000 < t' % 86400000 ∨ (t % 86400000 = t' % 86400000 ∧ a ++ str " msecs" < b ++ str " msecs"))) := by
    rcases h with h | ⟨rfl, h⟩ | ⟨rfl, h⟩
    · exact .inl (on_lt hon hon' h)
    · exact .inr ⟨on_unique hon hon', .inl h⟩
    · exact .inr ⟨on_unique hon hon', .inr h⟩
  have p1 : t / 60000 % 60 < 60 := Nat.mod_lt _ (by decide)
  have p2 : t / 1000 % 60 < 60 := Nat.mod_lt _ (by decide)
  have p3 : t % 1000 < 1000 := Nat.mod_lt _ (by decide)
  have p4 : t' / 60000 % 60 < 60 := Nat.mod_lt _ (by decide)
  have p5 : t' / 1000 % 60 < 60 := Nat.mod_lt _ (by decide)
  have p6 : t' % 1000 < 1000 := Nat.mod_lt _ (by decide)
  rw [day_parts t, day_parts t'] at hd
  clear h hon hon'
  generalize t / 3600000 % 24 = th at *
  generalize t / 60000 % 60 = tm at *
  generalize t / 1000 % 60 = ts at *
  generalize t % 1000 = tf at *
  generalize t' / 3600000 % 24 = th' at *
  generalize t' / 60000 % 60 = tm' at *
  generalize t' / 1000 % 60 = ts' at *
  generalize t' % 1000 = tf' at *
  have pl := parts_lt (h := th) (h' := th') p1 p2 p3 p4 p5 p6
  have goal : y < y' ∨ (y = y' ∧ (m < m' ∨ (m = m' ∧ (d < d' ∨ (d = d' ∧ (th < th' ∨ (th = th' ∧ (tm < tm' ∨ (tm = tm' ∧ (ts < ts' ∨
      (ts = ts' ∧ (tf < tf' ∨ (tf = tf' ∧ a ++ str " msecs" < b ++ str " msecs"))))))))))))) := by
    rcases hd with (h | ⟨h1, h | ⟨h2, h3⟩⟩) | ⟨⟨h1, h2, h3⟩, h | ⟨h4, h5⟩⟩
    · exact .inl h
    · exact .inr ⟨h1, .inl h⟩
    · exact .inr ⟨h1, .inr ⟨h2, .inl h3⟩⟩
    · refine .inr ⟨h1, .inr ⟨h2, .inr ⟨h3, ?_⟩⟩⟩
      rcases pl.1 h with h | ⟨h, h' | ⟨h', h'' | ⟨h'', h3⟩⟩⟩
      · exact .inl h
      · exact .inr ⟨h, .inl h'⟩
      · exact .inr ⟨h, .inr ⟨h', .inl h''⟩⟩
      · exact .inr ⟨h, .inr ⟨h', .inr ⟨h'', .inl h3⟩⟩⟩
    · obtain ⟨e1, e2, e3, e4⟩ := pl.2 h4
      exact .inr ⟨h1, .inr ⟨h2, .inr ⟨h3, .inr ⟨e1, .inr ⟨e2, .inr ⟨e3, .inr ⟨e4, h5⟩⟩⟩⟩⟩⟩⟩
  refine digits_step 4 (Nat.lt_succ_of_le f1) (goal.imp_right fun ⟨e, goal⟩ => ⟨e, lex_prefix _ _ _ ?_⟩)
  refine digits_step 2 (Nat.lt_succ_of_le f2) (goal.imp_right fun ⟨e, goal⟩ => ⟨e, lex_prefix _ _ _ ?_⟩)
  refine digits_step 2 (Nat.lt_succ_of_le f3) (goal.imp_right fun ⟨e, goal⟩ => ⟨e, lex_prefix _ _ _ ?_⟩)
  refine digits_step 2 (Nat.lt_succ_of_le f4) (goal.imp_right fun ⟨e, goal⟩ => ⟨e, lex_prefix _ _ _ ?_⟩)
  refine digits_step 2 (Nat.lt_succ_of_le f5) (goal.imp_right fun ⟨e, goal⟩ => ⟨e, lex_prefix _ _ _ ?_⟩)
  refine digits_step 2 (Nat.lt_succ_of_le f6) (goal.imp_right fun ⟨e, goal⟩ => ⟨e, lex_prefix _ _ _ ?_⟩)
  exact digits_step 3 p6 goal

/-- The texts are in the order of the times, hence texts of different times differ. -/
theorem C102_order (day msec day' msec' : Nat) (hd : day < 2 ^ 16) (hm : msec < 2 ^ 32) (hd' : day' < 2 ^ 16) (hm' : msec' < 2 ^ 32)
    (h : day * 86400000 + msec < day' * 86400000 + msec') :
    shortText (Time.cdsShortOf day msec) < shortText (Time.cdsShortOf day' msec') := by
  obtain ⟨y, m, d, hon, e⟩ := C102_text day msec hd hm
  obtain ⟨y', m', d', hon', e'⟩ := C102_text day' msec' hd' hm'
  rw [e, e']
  exact timeText_lt hon hon' (by omega) (by omega)

/-- So are those with microseconds and nanoseconds. -/
theorem C102_order_expanded (day msec us ns day' msec' us' ns' : Nat) (hd : day < 2 ^ 16) (hm : msec < 2 ^ 32) (hu : us < 1000)
    (hn : ns < 1000) (hd' : day' < 2 ^ 16) (hm' : msec' < 2 ^ 32) (hu' : us' < 1000) (hn' : ns' < 1000)
    (h : (day * 86400000 + msec) * 1000000 + us * 1000 + ns < (day' * 86400000 + msec') * 1000000 + us' * 1000 + ns') :
    ∃ a b, expandedText (Time.cdsShortOf day msec, us, ns) = .ok a ∧ expandedText (Time.cdsShortOf day' msec', us', ns') = .ok b ∧
      a < b := by
  obtain ⟨y, m, d, hon, _, e⟩ := C102_fractions day msec us ns hd hm hu hn
  obtain ⟨y', m', d', hon', _, e'⟩ := C102_fractions day' msec' us' ns' hd' hm' hu' hn'
  refine ⟨_, _, e, e', timeText_lt hon hon' (by omega) ?_⟩
  by_cases h1 : day + msec / 86400000 < day' + msec' / 86400000
  · exact .inl h1
  by_cases h2 : msec % 86400000 < msec' % 86400000
  · exact .inr (.inl ⟨by omega, h2⟩)
  refine .inr (.inr ⟨by omega, by omega, ?_⟩)
  simp only [List.append_assoc]
  refine lex_prefix _ _ _ (digits_step 3 (by omega) ?_)
  by_cases h3 : us < us'
  · exact .inl h3
  exact .inr ⟨by omega, digits_step 3 (by omega) (.inl (by omega))⟩

/-! ### CUC times -/

/-- The texts of a CUC time are its seven bytes as numbers of three digits. -/
theorem C102_cuc (b0 b1 b2 b3 b4 b5 b6 : UInt8) :
    coarseText [b0, b1, b2, b3, b4, b5, b6] = digits 3 b0.toNat ++ str " " ++ digits 3 b1.toNat ++ str " " ++ digits 3 b2.toNat ++
      str " " ++ digits 3 b3.toNat ∧
    fineText [b0, b1, b2, b3, b4, b5, b6] = digits 3 b4.toNat ++ str " " ++ digits 3 b5.toNat ++ str " " ++ digits 3 b6.toNat := by
  have h : ∀ b : UInt8, fmt0 3 (b.toNat : Int) = digits 3 b.toNat := by
    intro b
    have := b.toNat_lt
    exact fmt0_digits (by omega) (by omega)
  unfold coarseText fineText
  simp only [List.getD_cons_zero, List.getD_cons_succ, h]
  exact ⟨trivial, trivial⟩

/-! ### Generalized times -/

theorem scan_generalized {y mo d h mi s : Nat} (f : Fits y mo d h mi s) (rest : Bytes) :
    scanf generalizedFormat (generalized y mo d h mi s ++ rest) = [(y : Int), mo, d, h, mi, s] := by
  obtain ⟨f1, f2, f3, f4, f5, f6⟩ := f
  unfold generalizedFormat generalized
  simp only [List.append_assoc]
  rw [scanf_int _ _ 4 y _ (by omega) (by omega) (.inr rfl), scanf_int _ _ 2 mo _ (by omega) (by omega) (.inr rfl),
    scanf_int _ _ 2 d _ (by omega) (by omega) (.inr rfl), scanf_int _ _ 2 h _ (by omega) (by omega) (.inr rfl),
    scanf_int _ _ 2 mi _ (by omega) (by omega) (.inr rfl), scanf_int _ _ 2 s _ (by omega) (by omega) (.inr rfl)]
  rfl

theorem digits_no_zero (k n : Nat) : ∀ c ∈ digits k n, c ≠ 0 := by
  intro c hc h
  have := digits_all k n c hc
  rw [h] at this
  exact absurd this (by decide)

theorem generalized_no_zero (y mo d h mi s : Nat) : ∀ c ∈ generalized y mo d h mi s, c ≠ 0 := by
  intro c hc
  unfold generalized at hc
  simp only [List.mem_append] at hc
  rcases hc with (((((hc | hc) | hc) | hc) | hc) | hc) | hc
  all_goals first | exact digits_no_zero _ _ c hc | skip
  have h : ∀ c ∈ str "Z", c ≠ 0 := by decide
  exact h c hc

/-- A generalized time YYYYMMDDhhmmssZ is read, whatever was read before and whatever follows in memory, if there is a zero
somewhere after it: its text is the date and time, and where local time is UTC its Unix time is that of the date and time.
Missing for the full property: no zero after it, other time zones. -/
theorem C102_generalized_partial (t : Tm) (y mo d h mi s : Nat) (f : Fits y mo d h mi s) (rest : Bytes) (hz : 0 ∈ rest) :
    ∃ t', readGeneralized t (generalized y mo d h mi s ++ rest) = .ok t' ∧ generalizedText t' = stamp y mo d h mi s ∧
      generalizedUnixtime Datetime.mktimeUTC t' = Datetime.mktimeUTC y mo d h mi s ∧
      (2000 ≤ y → ValidDate y mo d → h ≤ 23 → mi ≤ 59 →
        generalizedUnixtime Datetime.mktimeUTC t' = 946684800 + since2000 y mo d h mi s) := by
  refine ⟨⟨y - 1900, mo - 1, d, h, mi, s⟩, ?_, ?_, ?_, ?_⟩
  · unfold readGeneralized
    rw [if_pos (List.mem_append_right _ hz)]
    rw [List.takeWhile_append_of_pos (fun c hc => by simpa using generalized_no_zero y mo d h mi s c hc), scan_generalized f]
    rfl
  · unfold generalizedText
    dsimp only
    rw [← strftime_stamp f]
    congr 1 <;> omega
  · unfold generalizedUnixtime
    dsimp only
    rw [show (y : Int) - 1900 + 1900 = y by omega, show (mo : Int) - 1 + 1 = mo by omega]
  · intro hy hv hh hmi
    unfold generalizedUnixtime
    dsimp only
    rw [show (y : Int) - 1900 + 1900 = y by omega, show (mo : Int) - 1 + 1 = mo by omega]
    have := utc_seconds (s := s) ⟨hy, f.1⟩ hv hh hmi
    omega

/-- Violated: where local time is not UTC the Unix time of a generalized time, which is in UTC, is another one. -/
theorem C102_violated_zone (t : Tm) (offset : Int) (ho : offset ≠ 0) :
    generalizedUnixtime (fun y mo d h mi s => Datetime.mktimeUTC y mo d h mi s - offset) t ≠
      generalizedUnixtime Datetime.mktimeUTC t := by
  unfold generalizedUnixtime
  dsimp only
  omega

/-- Violated: a generalized time without a zero after it, as in a header that is the last thing in memory, is read over its
end. -/
theorem C102_violated_end (t : Tm) (y mo d h mi s : Nat) : readGeneralized t (generalized y mo d h mi s) = .ub := by
  unfold readGeneralized
  rw [if_neg (fun h0 => generalized_no_zero y mo d h mi s 0 h0 rfl)]

/-- Violated: what is not a time is not reported: the time is then that of the last reading 1900 years and one month
before. -/
theorem C102_violated_unreadable (t : Tm) (c : UInt8) (hc : isDigit c = false) (hs : isSpace c = false) (h45 : c ≠ 45) (h43 : c ≠ 43)
    (h0 : c ≠ 0) (rest : Bytes) (hz : 0 ∈ rest) :
    readGeneralized t (c :: rest) = .ok { t with year := t.year - 1900, mon := t.mon - 1 } := by
  unfold readGeneralized
  rw [if_pos (List.mem_cons_of_mem _ hz), List.takeWhile_cons_of_pos (by simpa using h0)]
  have : scanf generalizedFormat (c :: rest.takeWhile (· ≠ 0)) = [] := by
    unfold generalizedFormat scanf
    rw [List.dropWhile_cons_of_neg (by simp [hs])]
    unfold scanSigned within
    dsimp only
    rw [List.take_succ_cons]
    dsimp only
    rw [if_neg h45, if_neg h43, List.takeWhile_cons_of_neg (by simp [hc])]
    rfl
  rw [this]
  rfl

/-- Violated: the text that `get_timechar` gives the address of, for any time of all four kinds, is gone. -/
theorem C102_violated_char (text : Bytes) : (timechar text).read = .ub := rfl

/-! ### Examples -/

/-- Noon and a bit of the first of March 2006, day 17591. -/
example : shortText (Time.cdsShortOf 17591 43200123) = str "2006-03-01 12:00:00 +123 msecs" := by decide +kernel

example : expandedText (Time.cdsShortOf 17591 43200123, 7, 89) = .ok (str "2006-03-01 12:00:00 +123.007089 msecs") := by decide +kernel

example : On 17591 2006 3 1 := by
  unfold On ValidDate
  decide +kernel

example : ∃ t', readGeneralized Tm.new (str "20060301120000Z" ++ [0]) = .ok t' ∧ generalizedText t' = str "2006-03-01 12:00:00" ∧
    generalizedUnixtime Datetime.mktimeUTC t' = 1141214400 := ⟨⟨106, 2, 1, 12, 0, 0⟩, by decide +kernel, by decide +kernel, by decide +kernel⟩

/-- A blank header field after a time has been read. -/
example : readGeneralized ⟨106, 2, 1, 12, 0, 0⟩ (str "?" ++ [0]) = .ok ⟨-1794, 1, 1, 12, 0, 0⟩ := by decide +kernel

end Msat.Props
