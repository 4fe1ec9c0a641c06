import Mathlib.Tactic.Linarith
import Mathlib.Tactic.NormNum
import Mathlib.Tactic.SplitIfs
import Mathlib.Tactic.FieldSimp
import Verif.Model.Facts
import Verif.Spec.Satellites
import Verif.Spec.Calendar

/-
C13 Spacecraft identifier conversions are mutually inverse.
C14 Spacecraft names identify spacecraft.
C15 Day of the year.
C16 Channel wavelengths identify channels.
-/
namespace Msat.Props
open Msat Facts SatSpec

theorem fromHRIT_table : ∀ e ∈ satellites, ∀ h ∈ e.2.2, fromHRIT h = e.2.1 := by decide +kernel

theorem fromHRIT_only (h : Int) : fromHRIT h = noneWMO ∨ ∃ e ∈ satellites, e.2.2 = some h ∧ e.2.1 = fromHRIT h := by
  unfold fromHRIT
  split
  all_goals first | exact .inl rfl | exact .inr (by decide +kernel)

theorem toHRIT_table : ∀ e ∈ satellites, ∀ h ∈ e.2.2, toHRIT e.2.1 = h := by decide +kernel

theorem toHRIT_only (w : Int) : toHRIT w = noneHRIT ∨ ∃ e ∈ satellites, e.2.2 = some (toHRIT w) ∧ e.2.1 = w := by
  unfold toHRIT
  split
  all_goals first | exact .inl rfl | exact .inr (by decide +kernel)

theorem noneWMO_free : ∀ e ∈ satellites, e.2.1 ≠ noneWMO ∧ e.2.2 ≠ some noneHRIT := by decide +kernel

theorem spacecraftID_table : ∀ e ∈ satellites, spacecraftID e.1 = e.2.1 ∧ e.2.1 ≠ -1 := by decide +kernel

theorem spacecraftID_only (name : String) :
    spacecraftID name = -1 ∨ ∃ e ∈ satellites, e.1 = name ∧ e.2.1 = spacecraftID name := by
  by_cases h : ∃ e ∈ satellites, e.1 = name
  · obtain ⟨e, he, rfl⟩ := h
    exact .inr ⟨e, he, rfl, (spacecraftID_table e he).1.symm⟩
  · left
    simp only [satellites, List.mem_cons, List.not_mem_nil, or_false, exists_eq_or_imp, not_or,
      exists_eq_left] at h
    unfold spacecraftID
    simp only [eq_comm (a := name), h, if_false]

theorem spacecraftName_table : ∀ e ∈ satellites, spacecraftName e.2.1 = e.1 ∧
    e.1 ≠ "unknown" ∧ e.1 ≠ "Non Spacecraft" := by decide +kernel

theorem spacecraftName_only (id : Int) : spacecraftName id = "unknown" ∨ spacecraftName id = "Non Spacecraft" ∨
    ∃ e ∈ satellites, e.1 = spacecraftName id ∧ e.2.1 = id := by
  unfold spacecraftName
  split
  all_goals first | exact .inl rfl | exact .inr (.inl rfl) | exact .inr (.inr (by decide +kernel))

/-- For all integers: the conversion of an HRIT code accepts exactly the codes of the reference table,
and gives the WMO code of the same satellite; any other code becomes "no satellite". -/
theorem C13_from_hrit (h w : Int) : fromHRIT h = w ↔
    (∃ name, (name, w, some h) ∈ satellites) ∨
      (w = noneWMO ∧ ∀ name w', (name, w', some h) ∉ satellites) := by
  constructor
  · rintro rfl
    rcases fromHRIT_only h with e | ⟨⟨n, w, o⟩, h1, rfl, rfl⟩
    · refine .inr ⟨e, fun name w' hm => ?_⟩
      exact (noneWMO_free _ hm).1 ((fromHRIT_table _ hm h rfl).symm.trans e)
    · exact .inl ⟨n, h1⟩
  · rintro (⟨name, hm⟩ | ⟨rfl, hn⟩)
    · exact fromHRIT_table _ hm h rfl
    · rcases fromHRIT_only h with e | ⟨⟨n, w, o⟩, h1, rfl, _⟩
      · exact e
      · exact absurd h1 (hn n w)

/-- The same in the other direction. -/
theorem C13_to_hrit (w h : Int) : toHRIT w = h ↔
    (∃ name, (name, w, some h) ∈ satellites) ∨
      (h = noneHRIT ∧ ∀ name h', (name, w, some h') ∉ satellites) := by
  constructor
  · rintro rfl
    rcases toHRIT_only w with e | ⟨⟨n, w', o⟩, h1, rfl, e⟩
    · refine .inr ⟨e, fun name h' hm => ?_⟩
      have := toHRIT_table _ hm h' rfl
      rw [e] at this
      exact (noneWMO_free _ hm).2 (congrArg some this.symm)
    · simp only at e; subst e; exact .inl ⟨n, h1⟩
  · rintro (⟨name, hm⟩ | ⟨rfl, hn⟩)
    · exact toHRIT_table _ hm h rfl
    · rcases toHRIT_only w with e | ⟨⟨n, w', o⟩, h1, rfl, e⟩
      · exact e
      · simp only at e; subst e; exact absurd h1 (hn n _)

/-- Converting an accepted HRIT code to WMO and back gives the code. -/
theorem C13_hrit_wmo_hrit (h : Int) (ha : fromHRIT h ≠ noneWMO ∨ h = noneHRIT) :
    toHRIT (fromHRIT h) = h := by
  unfold fromHRIT at ha ⊢
  split <;> simp_all [toHRIT, noneWMO, noneHRIT]

/-- Converting an accepted WMO code to HRIT and back gives the code. -/
theorem C13_wmo_hrit_wmo (w : Int) (ha : toHRIT w ≠ noneHRIT ∨ w = noneWMO) :
    fromHRIT (toHRIT w) = w := by
  unfold toHRIT at ha ⊢
  split <;> simp_all [fromHRIT, noneWMO, noneHRIT]

/-- No code is ever converted to a wrong satellite: conversions of different accepted codes differ. -/
theorem C13_injective (a b : Int) (ha : fromHRIT a ≠ noneWMO) (h : fromHRIT a = fromHRIT b) : a = b := by
  rw [← C13_hrit_wmo_hrit a (.inl ha), ← C13_hrit_wmo_hrit b (.inl (h ▸ ha)), h]

example : fromHRIT 324 = 70 ∧ toHRIT 70 = 324 ∧ fromHRIT 324 ≠ noneWMO := by decide

/-! ## C14 -/

/-- For all strings and all integers: a name is given an identifier exactly when the reference table has
it, and then the identifier of that satellite; other names are reported as unknown by -1. -/
theorem C14_id_of_name (name : String) (id : Int) : spacecraftID name = id ↔
    (∃ h, (name, id, h) ∈ satellites) ∨ (id = -1 ∧ ∀ id' h, (name, id', h) ∉ satellites) := by
  constructor
  · rintro rfl
    rcases spacecraftID_only name with e | ⟨⟨n, w, o⟩, h1, rfl, e⟩
    · refine .inr ⟨e, fun id' h hm => ?_⟩
      obtain ⟨h2, h3⟩ := spacecraftID_table _ hm
      exact h3 (h2.symm.trans e)
    · exact .inl ⟨o, e ▸ h1⟩
  · rintro (⟨h, hm⟩ | ⟨rfl, hn⟩)
    · exact (spacecraftID_table _ hm).1
    · rcases spacecraftID_only name with e | ⟨⟨n, w, o⟩, h1, rfl, e⟩
      · exact e
      · exact absurd h1 (hn _ _)

/-- The name of a satellite is the one of the reference table, and anything that is not a satellite has
one of the two names that no satellite has. -/
theorem C14_name_of_id (id : Int) (name : String) (h1 : name ≠ "unknown") (h2 : name ≠ "Non Spacecraft") :
    spacecraftName id = name ↔ ∃ h, (name, id, h) ∈ satellites := by
  constructor
  · rintro rfl
    rcases spacecraftName_only id with e | e | ⟨⟨n, w, o⟩, hm, rfl, e⟩
    · exact absurd e h1
    · exact absurd e h2
    · exact ⟨o, e ▸ hm⟩
  · rintro ⟨h, hm⟩
    exact (spacecraftName_table _ hm).1

/-- Looking up the identifier of the name of a known satellite returns that satellite. -/
theorem C14_round_trip (id : Int) (h1 : spacecraftName id ≠ "unknown")
    (h2 : spacecraftName id ≠ "Non Spacecraft") : spacecraftID (spacecraftName id) = id :=
  (C14_id_of_name _ _).2 (.inl ((C14_name_of_id id _ h1 h2).1 rfl))

/-- The name of the identifier found for a name is that name. -/
theorem C14_round_trip' (name : String) (h : spacecraftID name ≠ -1) :
    spacecraftName (spacecraftID name) = name := by
  rcases (C14_id_of_name name _).1 rfl with ⟨x, hx⟩ | ⟨hx, _⟩
  · obtain ⟨_, h1, h2⟩ := spacecraftName_table _ hx
    exact (C14_name_of_id _ name h1 h2).2 ⟨x, hx⟩
  · exact absurd hx h

/-- Names of different known satellites differ. -/
theorem C14_names_distinct (a b : Int) (h1 : spacecraftName a ≠ "unknown")
    (h2 : spacecraftName a ≠ "Non Spacecraft") (h : spacecraftName a = spacecraftName b) : a = b := by
  rw [← C14_round_trip a h1 h2, ← C14_round_trip b (h ▸ h1) (h ▸ h2), h]

/-- Every satellite that an HRIT file can name has a name. -/
theorem C14_hrit_satellites_named (h : Int) (ha : fromHRIT h ≠ noneWMO) :
    spacecraftID (spacecraftName (fromHRIT h)) = fromHRIT h := by
  rcases (C13_from_hrit h _).1 rfl with ⟨name, hn⟩ | ⟨hx, _⟩
  · obtain ⟨_, h1, h2⟩ := spacecraftName_table _ hn
    have := (C14_name_of_id _ name h1 h2).2 ⟨_, hn⟩
    exact C14_round_trip _ (this ▸ h1) (this ▸ h2)
  · exact absurd hx ha

/-- The two codes for "no satellite" share a name, which is not a name that can be looked up. -/
theorem C14_non_spacecraft : spacecraftName 999 = spacecraftName 1023 ∧
    spacecraftID (spacecraftName 1023) = -1 := by decide

example : spacecraftName 70 = "MSG4" ∧ spacecraftID "MSG4" = 70 ∧ spacecraftID "MSG5" = -1 := by decide

/-! ## C15 -/

theorem daysBefore_eq (y : Nat) : Spec.daysBeforeMonth y 1 = 0 ∧
    Spec.daysBeforeMonth y 2 = 31 ∧
    Spec.daysBeforeMonth y 3 = 59 + (if Spec.isLeap y then 1 else 0) ∧
    Spec.daysBeforeMonth y 4 = 90 + (if Spec.isLeap y then 1 else 0) ∧
    Spec.daysBeforeMonth y 5 = 120 + (if Spec.isLeap y then 1 else 0) ∧
    Spec.daysBeforeMonth y 6 = 151 + (if Spec.isLeap y then 1 else 0) ∧
    Spec.daysBeforeMonth y 7 = 181 + (if Spec.isLeap y then 1 else 0) ∧
    Spec.daysBeforeMonth y 8 = 212 + (if Spec.isLeap y then 1 else 0) ∧
    Spec.daysBeforeMonth y 9 = 243 + (if Spec.isLeap y then 1 else 0) ∧
    Spec.daysBeforeMonth y 10 = 273 + (if Spec.isLeap y then 1 else 0) ∧
    Spec.daysBeforeMonth y 11 = 304 + (if Spec.isLeap y then 1 else 0) ∧
    Spec.daysBeforeMonth y 12 = 334 + (if Spec.isLeap y then 1 else 0) := by
  cases h : Spec.isLeap y <;> simp [Spec.daysBeforeMonth, Spec.daysInMonth, h, List.range_succ]

theorem leap_eq (y : Nat) : (((y : Int).tmod 4 == 0 && (y : Int).tmod 100 != 0) || (y : Int).tmod 400 == 0)
    = Spec.isLeap y := by
  have h : ∀ k : Nat, ((y : Int).tmod k == 0) = (y % k == 0) := by
    intro k
    rw [show (y : Int).tmod k = ((y % k : Nat) : Int) from rfl, Bool.eq_iff_iff, beq_iff_eq, beq_iff_eq]
    omega
  have h4 := h 4
  have h100 := h 100
  have h400 := h 400
  simp only [Nat.cast_ofNat] at h4 h100 h400
  simp only [Spec.isLeap, bne, h4, h100, h400]

/-- The day number is one plus the number of days elapsed since January 1st. -/
theorem C15_day_number (y m d : Nat) (hm : 1 ≤ m ∧ m ≤ 12) :
    jday y m d = (Spec.daysBeforeMonth y m : Int) + d := by
  obtain ⟨e1, e2, e3, e4, e5, e6, e7, e8, e9, e10, e11, e12⟩ := daysBefore_eq y
  have hm' : m = 1 ∨ m = 2 ∨ m = 3 ∨ m = 4 ∨ m = 5 ∨ m = 6 ∨ m = 7 ∨ m = 8 ∨ m = 9 ∨ m = 10 ∨
    m = 11 ∨ m = 12 := by omega
  unfold jday
  simp only [leap_eq]
  cases hl : Spec.isLeap y <;> rw [hl] at e3 e4 e5 e6 e7 e8 e9 e10 e11 e12 <;>
  rcases hm' with rfl | rfl | rfl | rfl | rfl | rfl | rfl | rfl | rfl | rfl | rfl | rfl <;> simp_all

/-- It is between 1 and the number of days of the year. -/
theorem C15_range (y m d : Nat) (h : Spec.ValidDate y m d) :
    1 ≤ jday y m d ∧ jday y m d ≤ Spec.yearLen y := by
  obtain ⟨h1, h2, h3, h4⟩ := h
  rw [C15_day_number y m d ⟨h1, h2⟩]
  obtain ⟨e1, e2, e3, e4, e5, e6, e7, e8, e9, e10, e11, e12⟩ := daysBefore_eq y
  have hm' : m = 1 ∨ m = 2 ∨ m = 3 ∨ m = 4 ∨ m = 5 ∨ m = 6 ∨ m = 7 ∨ m = 8 ∨ m = 9 ∨ m = 10 ∨
    m = 11 ∨ m = 12 := by omega
  cases hl : Spec.isLeap y <;> rw [hl] at e3 e4 e5 e6 e7 e8 e9 e10 e11 e12 <;>
  rcases hm' with rfl | rfl | rfl | rfl | rfl | rfl | rfl | rfl | rfl | rfl | rfl | rfl <;>
  simp_all [Spec.yearLen, Spec.daysInMonth] <;> omega

/-- The next day has the next number, or number 1 when it is in the next year. -/
theorem C15_consecutive (y m d : Nat) (h : Spec.ValidDate y m d) :
    let n := Spec.nextDate y m d
    if n.1 = y then jday n.1 n.2.1 n.2.2 = jday y m d + 1
    else n = (y + 1, 1, 1) ∧ jday y m d = Spec.yearLen y ∧ jday n.1 n.2.1 n.2.2 = 1 := by
  obtain ⟨h1, h2, h3, h4⟩ := h
  have hstep : m < 12 → Spec.daysBeforeMonth y (m + 1) = Spec.daysBeforeMonth y m + Spec.daysInMonth y m := by
    intro _
    obtain ⟨k, rfl⟩ : ∃ k, m = k + 1 := ⟨m - 1, by omega⟩
    simp [Spec.daysBeforeMonth, List.range_succ]
  simp only [Spec.nextDate]
  split
  · simp only [if_true]
    rw [C15_day_number y m _ ⟨h1, h2⟩, C15_day_number y m d ⟨h1, h2⟩]
    push_cast; omega
  · split
    · rename_i hd hm
      simp only [if_true]
      rw [C15_day_number y m d ⟨h1, h2⟩, C15_day_number y (m + 1) 1 ⟨by omega, by omega⟩, hstep hm]
      push_cast; omega
    · rename_i hd hm
      have hm12 : m = 12 := by omega
      subst hm12
      rw [if_neg (by simp)]
      refine ⟨rfl, ?_, ?_⟩
      · obtain ⟨_, _, _, _, _, _, _, _, _, _, _, e12⟩ := daysBefore_eq y
        have : Spec.daysInMonth y 12 = 31 := rfl
        rw [C15_day_number y 12 d ⟨h1, h2⟩, e12, Spec.yearLen]
        split <;> simp_all <;> omega
      · rw [C15_day_number (y + 1) 1 1 ⟨by omega, by omega⟩, (daysBefore_eq (y + 1)).1]; rfl

/-- It is strictly increasing within a year. -/
theorem C15_increasing (y m d m' d' : Nat) (h : Spec.ValidDate y m d) (h' : Spec.ValidDate y m' d')
    (hlt : m < m' ∨ (m = m' ∧ d < d')) : jday y m d < jday y m' d' := by
  obtain ⟨h1, h2, h3, h4⟩ := h
  obtain ⟨h1', h2', h3', h4'⟩ := h'
  rw [C15_day_number y m d ⟨h1, h2⟩, C15_day_number y m' d' ⟨h1', h2'⟩]
  have hmono : ∀ k, m + 1 + k ≤ 12 →
      Spec.daysBeforeMonth y m + Spec.daysInMonth y m ≤ Spec.daysBeforeMonth y (m + 1 + k) := by
    intro k
    induction k with
    | zero =>
      intro _
      obtain ⟨j, rfl⟩ : ∃ j, m = j + 1 := ⟨m - 1, by omega⟩
      simp [Spec.daysBeforeMonth, List.range_succ]
    | succ k ih =>
      intro hk
      refine Nat.le_trans (ih (by omega)) ?_
      obtain ⟨j, hj⟩ : ∃ j, m + 1 + k = j + 1 := ⟨m + k, by omega⟩
      rw [show m + 1 + (k + 1) = (m + 1 + k) + 1 by omega, hj]
      simp [Spec.daysBeforeMonth, List.range_succ]
  rcases hlt with hlt | ⟨rfl, hlt⟩
  · have := hmono (m' - m - 1) (by omega)
    rw [show m + 1 + (m' - m - 1) = m' by omega] at this
    omega
  · omega

example : Spec.ValidDate 2000 2 29 ∧ jday 2000 2 29 = 60 ∧ jday 2000 3 1 = 61 ∧ jday 1900 3 1 = 60 ∧
    jday 2024 12 31 = 366 := by
  refine ⟨⟨by decide, by decide, by decide, by decide⟩, by decide, by decide, by decide, by decide⟩

/-! ## C16 -/

theorem channels_table : ∀ c ∈ channels, 0 < c.2.2.1 ∧ c.2.2.1 < 1000 ∧ ∀ s ∈ seviri,
    centralWavelength s c.1 = .ok (c.2.2.1 / 10) := by decide +kernel

theorem lookup_table : ∀ c ∈ channels, wavelengthSwitch c.2.2.1 = .ok c.1 := by decide +kernel

theorem lookup_only (v ch : Int) (h : wavelengthSwitch v = .ok ch) : ∃ c ∈ channels, c.1 = ch ∧ c.2.2.1 = v := by
  unfold wavelengthSwitch at h
  split at h
  all_goals first | (cases h; exact by decide +kernel) | cases h

theorem lookup_cases (v : Int) : (∃ ch, wavelengthSwitch v = .ok ch) ∨ (wavelengthSwitch v).Throws := by
  unfold wavelengthSwitch
  split
  all_goals first | exact .inl ⟨_, rfl⟩ | exact .inr trivial

theorem roundC_eq (x : Rat) (n : Int) (hn : 0 < n) :
    roundC x = n ↔ (n : Rat) - 1 / 2 ≤ x ∧ x < n + 1 / 2 := by
  have hn' : (1 : Rat) ≤ n := by exact_mod_cast hn
  unfold roundC
  split
  · rw [Int.floor_eq_iff]
    constructor <;> rintro ⟨h1, h2⟩ <;> constructor <;> linarith
  · rename_i hx
    constructor
    · intro h
      have : (0 : Int) ≤ ⌊-x + 1 / 2⌋ := Int.floor_nonneg.2 (by linarith)
      omega
    · rintro ⟨h1, _⟩
      exact absurd (by linarith) hx

/-- The central wavelength of each channel of SEVIRI is the one of the reference table; nothing else has
a central wavelength. -/
theorem C16_wavelength_of_channel (id ch : Int) (w : Rat) : centralWavelength id ch = .ok w ↔
    id ∈ seviri ∧ ∃ name t thermal, (ch, name, t, thermal) ∈ channels ∧ w = t / 10 := by
  unfold centralWavelength
  split
  · rename_i h
    have hs : id ∈ seviri := by simpa [seviri] using h
    split <;> simp_all [channels, eq_comm]
  · rename_i h
    have hs : id ∉ seviri := by simpa [seviri] using h
    simp [hs]

/-- The channel found for a wavelength is the channel whose central wavelength, in tenths of a
micrometre, is the nearest integer: within 0.05 micrometres, for all wavelengths. -/
theorem C16_channel_of_wavelength (id ch : Int) (w : Rat) : channelFromWavelength id w = .ok ch ↔
    id ∈ seviri ∧ ∃ name t thermal, (ch, name, t, thermal) ∈ channels ∧
      (t : Rat) / 10 - 1 / 20 ≤ w ∧ w < (t : Rat) / 10 + 1 / 20 := by
  have key : ∀ t : Int, 0 < t → (roundC (w * 10) = t ↔ (t : Rat) / 10 - 1 / 20 ≤ w ∧ w < (t : Rat) / 10 + 1 / 20) := by
    intro t ht
    rw [roundC_eq _ _ ht]
    constructor <;> rintro ⟨h1, h2⟩ <;> constructor <;> linarith
  have hall : (∃ name t thermal, (ch, name, t, thermal) ∈ channels ∧
      (t : Rat) / 10 - 1 / 20 ≤ w ∧ w < (t : Rat) / 10 + 1 / 20) ↔
      ∃ name t thermal, (ch, name, t, thermal) ∈ channels ∧ roundC (w * 10) = t := by
    constructor <;> rintro ⟨name, t, th, hm, hr⟩ <;> refine ⟨name, t, th, hm, ?_⟩
    · exact (key t (channels_table _ hm).1).2 hr
    · exact (key t (channels_table _ hm).1).1 hr
  rw [hall]
  unfold channelFromWavelength
  split
  · rename_i h
    have hs : id ∈ seviri := by simpa [seviri] using h
    simp only [hs, true_and]
    generalize roundC (w * 10) = v
    split
    · rename_i hv
      constructor
      · intro h; cases h
      · rintro ⟨name, t, th, hm, rfl⟩
        obtain ⟨h1, h2, _⟩ := channels_table _ hm
        simp only at h1 h2
        omega
    · constructor
      · intro ho
        obtain ⟨⟨c, n, t, th⟩, hm, rfl, rfl⟩ := lookup_only v ch ho
        exact ⟨n, _, th, hm, rfl⟩
      · rintro ⟨name, t, th, hm, rfl⟩
        exact lookup_table _ hm
  · rename_i h
    have hs : id ∉ seviri := by simpa [seviri] using h
    simp [hs]

/-- Looking up the channel from its central wavelength returns the channel. -/
theorem C16_round_trip (id ch : Int) (w : Rat) (h : centralWavelength id ch = .ok w) :
    channelFromWavelength id w = .ok ch := by
  obtain ⟨hs, name, t, th, hm, rfl⟩ := (C16_wavelength_of_channel id ch w).1 h
  refine (C16_channel_of_wavelength id ch _).2 ⟨hs, name, t, th, hm, ?_, ?_⟩ <;> linarith

/-- The same through wave numbers. -/
theorem C16_wave_number_round_trip (id ch : Int) (n : Rat) (h : centralWaveNumber id ch = .ok n) :
    channelFromWaveNumber id n = .ok ch := by
  unfold centralWaveNumber at h
  cases hw : centralWavelength id ch with
  | ok w =>
    rw [hw] at h
    simp only [Outcome.ok_bind, Outcome.pure_eq, Outcome.ok.injEq] at h
    obtain ⟨hs, name, t, th, hm, e⟩ := (C16_wavelength_of_channel id ch w).1 hw
    have ht : (0 : Rat) < t := by exact_mod_cast (channels_table _ hm).1
    have hpos : 0 < w := by rw [e]; linarith
    have : (1 / n) * 1000000 = w := by
      rw [← h]
      field_simp
    have hn : n ≠ 0 := by rw [← h]; positivity
    rw [channelFromWaveNumber, if_neg (fun hh => hn hh.1), this]
    exact C16_round_trip id ch w hw
  | throws m => rw [hw] at h; cases h
  | ub => rw [hw] at h; cases h
  | terminate => rw [hw] at h; cases h
  | diverges => rw [hw] at h; cases h

/-- Two channels are never found for one wavelength: the lookup of the channels are disjoint. -/
theorem C16_channels_disjoint (ch ch' : Int) (name name' : String) (t t' : Int) (th th' : Bool)
    (h : (ch, name, t, th) ∈ channels) (h' : (ch', name', t', th') ∈ channels)
    (heq : ch = ch' ∨ name = name' ∨ t = t') : (ch, name, t, th) = (ch', name', t', th') := by
  have hall : ∀ a ∈ channels, ∀ b ∈ channels, (a.1 = b.1 ∨ a.2.1 = b.2.1 ∨ a.2.2.1 = b.2.2.1) → a = b := by
    decide +kernel
  exact hall _ h _ h' heq

/-- A wavelength that is out of the range of every channel is reported with an exception, provided that
ten times the wavelength fits in an `int`. -/
theorem C16_other_wavelengths_throw (id : Int) (w : Rat)
    (hno : ∀ name t thermal ch, (ch, name, t, thermal) ∈ channels →
      ¬ ((t : Rat) / 10 - 1 / 20 ≤ w ∧ w < (t : Rat) / 10 + 1 / 20))
    (hr : -100000000 ≤ w ∧ w ≤ 100000000) : (channelFromWavelength id w).Throws := by
  have hbound : ¬ (roundC (w * 10) < -2147483648 ∨ 2147483647 < roundC (w * 10)) := by
    unfold roundC
    split
    · have h1 := Int.floor_le (w * 10 + 1 / 2)
      have h2 := Int.lt_floor_add_one (w * 10 + 1 / 2)
      rintro (h | h)
      · have : ((⌊w * 10 + 1 / 2⌋ : Int) : Rat) < -2147483648 := by exact_mod_cast h
        linarith
      · have : (2147483647 : Rat) < (⌊w * 10 + 1 / 2⌋ : Int) := by exact_mod_cast h
        linarith
    · have h1 := Int.floor_le (-(w * 10) + 1 / 2)
      have h2 := Int.lt_floor_add_one (-(w * 10) + 1 / 2)
      rintro (h | h)
      · have : ((-⌊-(w * 10) + 1 / 2⌋ : Int) : Rat) < -2147483648 := by exact_mod_cast h
        push_cast at this
        linarith
      · have : (2147483647 : Rat) < (-⌊-(w * 10) + 1 / 2⌋ : Int) := by exact_mod_cast h
        push_cast at this
        linarith
  unfold channelFromWavelength
  split
  · rename_i hs
    simp only [hbound, if_false]
    rcases lookup_cases (roundC (w * 10)) with ⟨ch, h⟩ | h
    · have ho : channelFromWavelength id w = .ok ch := by
        unfold channelFromWavelength
        simp only [hs, hbound, if_false, if_true, h]
      obtain ⟨_, name, t, th, hm, hr⟩ := (C16_channel_of_wavelength id ch w).1 ho
      exact absurd hr (hno name t th ch hm)
    · exact h
  · trivial

/-- Names, units, levels and digits are defined for each channel of each SEVIRI, as in the reference
table: thermal channels in kelvin, the others as radiances. -/
theorem C16_channel_descriptions (id ch : Int) (name : String) (t : Int) (thermal : Bool) (hs : id ∈ seviri)
    (hc : (ch, name, t, thermal) ∈ channels) :
    channelName id ch = name ∧ channelLevel id ch = "1.5" ∧
    channelUnit id ch = (if thermal then "K" else "mW m^-2 sr^-1 (cm^-1)^-1") ∧
    significantDigits ch = .ok (if thermal then 2 else 4) := by
  have hall : ∀ s ∈ seviri, ∀ c ∈ channels, channelName s c.1 = c.2.1 ∧ channelLevel s c.1 = "1.5" ∧
    channelUnit s c.1 = (if c.2.2.2 then "K" else "mW m^-2 sr^-1 (cm^-1)^-1") ∧
    significantDigits c.1 = .ok (if c.2.2.2 then 2 else 4) := by decide +kernel
  exact hall id hs _ hc

/-- The number of digits is defined, without reading outside of the table, for all integers. -/
theorem C16_digits_total (ch : Int) : ∃ n, significantDigits ch = .ok n := by
  unfold significantDigits
  split
  · rename_i h
    rw [List.getElem?_eq_getElem h.2]
    exact ⟨_, rfl⟩
  · exact ⟨0, rfl⟩

example : centralWavelength 57 9 = .ok (108 / 10) ∧ (9, "IR_108", (108 : Int), true) ∈ channels := by
  decide +kernel

end Msat.Props
