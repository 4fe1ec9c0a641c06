import Mathlib.Analysis.SpecialFunctions.Log.Basic
import Mathlib.Tactic.Positivity
import Mathlib.Tactic.FieldSimp
import Mathlib.Tactic.NormNum
import Mathlib.Data.Fin.VecNotation
import Verif.Model.XritDataset
import Verif.Spec.Seviri
import Verif.Spec.MsatTool
import Verif.Props.C13_C16
import Verif.Props.C74

/-
C82: what an xRIT image is said to be, and what its pixels are.
-/
namespace Msat.Props
open Msat Msat.XritDataset Msat.SeviriSpec

/-! ### Temperatures -/

/-- Constants of a channel. -/
def Sound (k : ℝ × ℝ × ℝ) : Prop := 0 < k.1 ∧ 0 < k.2.1 ∧ 0 < k.2.2

theorem constants_sound (ch : Nat) (k : ℝ × ℝ × ℝ) (h : constants ch = some k) : Sound k := by
  unfold constants at h
  split at h <;> first | cases h | skip
  all_goals (unfold Sound; norm_num)

theorem constants_cold (ch : Nat) : constants ch = if 3 < ch ∧ ch < 12 then cold[ch - 4]? else none := by
  by_cases h : 3 < ch ∧ ch < 12
  · rw [if_pos h]
    obtain ⟨h1, h2⟩ := h
    have : ch = 4 ∨ ch = 5 ∨ ch = 6 ∨ ch = 7 ∨ ch = 8 ∨ ch = 9 ∨ ch = 10 ∨ ch = 11 := by omega
    rcases this with rfl | rfl | rfl | rfl | rfl | rfl | rfl | rfl <;> rfl
  · rw [if_neg h]
    unfold constants
    split <;> first | rfl | (exfalso; omega)

theorem effective_mono (k : ℝ × ℝ × ℝ) (hk : Sound k) (T T' : ℝ) (h0 : 0 ≤ T) (h : T < T') : effective k T < effective k T' := by
  obtain ⟨ν, A, B⟩ := k
  obtain ⟨hν, hA, hB⟩ := hk
  dsimp only at hν hA hB
  unfold effective planck
  dsimp only
  have e1 : 0 < A * T + B := by positivity
  have e2 : A * T + B < A * T' + B := by have := mul_lt_mul_of_pos_left h hA; linarith
  have hc : (0 : ℝ) < 1.43877 * ν := mul_pos (by norm_num) hν
  have e3 : 1.43877 * ν / (A * T' + B) < 1.43877 * ν / (A * T + B) := div_lt_div_of_pos_left hc e1 e2
  have e4 : 0 < 1.43877 * ν / (A * T' + B) := div_pos hc (lt_trans e1 e2)
  have e5 : 0 < Real.exp (1.43877 * ν / (A * T' + B)) - 1 := by have := Real.add_one_lt_exp e4.ne'; linarith
  have e6 : Real.exp (1.43877 * ν / (A * T' + B)) - 1 < Real.exp (1.43877 * ν / (A * T + B)) - 1 := by
    have := Real.exp_lt_exp.mpr e3; linarith
  exact div_lt_div_of_pos_left (mul_pos (by norm_num) (by positivity)) e5 e6

theorem effective_zero_pos (k : ℝ × ℝ × ℝ) (hk : Sound k) : 0 < effective k 0 := by
  obtain ⟨ν, A, B⟩ := k
  obtain ⟨hν, hA, hB⟩ := hk
  dsimp only at hν hA hB
  unfold effective planck
  dsimp only
  rw [mul_zero, zero_add]
  have e4 : 0 < 1.43877 * ν / B := div_pos (mul_pos (by norm_num) hν) hB
  have := Real.add_one_lt_exp e4.ne'
  exact div_pos (mul_pos (by norm_num) (by positivity)) (by linarith)

/-- What is written for a radiance. -/
noncomputable def written (k : ℝ × ℝ × ℝ) (r : ℝ) : ℝ :=
  match temperature k.1 k.2.1 k.2.2 r with
  | some res => if res < 0 then 0 else res
  | none => 0

theorem written_pos (k : ℝ × ℝ × ℝ) (hk : Sound k) (r : ℝ) (hr : effective k 0 < r) : 0 < written k r ∧ effective k (written k r) = r := by
  have hz := effective_zero_pos k hk
  obtain ⟨ν, A, B⟩ := k
  obtain ⟨hν, hA, hB⟩ := hk
  dsimp only at hν hA hB
  have h0 : 0 < r := lt_trans hz hr
  have hc1 : (0 : ℝ) < ν ^ 3 * 0.0000119104 := mul_pos (by positivity) (by norm_num)
  have hc2 : (0 : ℝ) < ν * 1.43877 := mul_pos hν (by norm_num)
  have hq : 0 < ν ^ 3 * 0.0000119104 / r := div_pos hc1 h0
  have hx : 1 < ν ^ 3 * 0.0000119104 / r + 1 := by linarith
  have hl : 0 < Real.log (ν ^ 3 * 0.0000119104 / r + 1) := Real.log_pos hx
  have ht : temperature ν A B r = some ((ν * 1.43877 / Real.log (ν ^ 3 * 0.0000119104 / r + 1) - B) / A) := by
    unfold temperature
    dsimp only
    rw [if_neg (by rintro (h | h) <;> linarith), if_neg (by linarith)]
  have hT : 0 < (ν * 1.43877 / Real.log (ν ^ 3 * 0.0000119104 / r + 1) - B) / A := by
    apply div_pos _ hA
    rw [sub_pos, lt_div_iff₀ hl]
    unfold effective planck at hr
    dsimp only at hr
    rw [mul_zero, zero_add] at hr
    have e4 : 0 < 1.43877 * ν / B := div_pos (mul_pos (by norm_num) hν) hB
    have e5 : 0 < Real.exp (1.43877 * ν / B) - 1 := by have := Real.add_one_lt_exp e4.ne'; linarith
    rw [div_lt_iff₀ e5] at hr
    have e6 : ν ^ 3 * 0.0000119104 / r < Real.exp (1.43877 * ν / B) - 1 := by
      rw [div_lt_iff₀ h0]
      linarith
    have e7 : Real.log (ν ^ 3 * 0.0000119104 / r + 1) < 1.43877 * ν / B := by
      rw [Real.log_lt_iff_lt_exp (by linarith)]
      linarith
    rw [lt_div_iff₀ hB] at e7
    linarith
  unfold written
  dsimp only
  rw [ht]
  dsimp only
  rw [if_neg (not_lt.mpr hT.le)]
  refine ⟨hT, ?_⟩
  unfold effective planck
  dsimp only
  rw [mul_div_cancel₀ _ hA.ne', sub_add_cancel, mul_comm (1.43877 : ℝ) ν, div_div_cancel₀ hc2.ne', Real.exp_log (by linarith),
    add_sub_cancel_right, mul_comm (0.0000119104 : ℝ), div_div_cancel₀ hc1.ne']

theorem written_zero (k : ℝ × ℝ × ℝ) (hk : Sound k) (r : ℝ) (hr : r ≤ effective k 0) : written k r = 0 := by
  obtain ⟨ν, A, B⟩ := k
  obtain ⟨hν, hA, hB⟩ := hk
  dsimp only at hν hA hB
  have hc1 : (0 : ℝ) < ν ^ 3 * 0.0000119104 := mul_pos (by positivity) (by norm_num)
  have hc2 : (0 : ℝ) < ν * 1.43877 := mul_pos hν (by norm_num)
  have hneg : (0 - B) / A < 0 := div_neg_of_neg_of_pos (by linarith) hA
  unfold written temperature
  dsimp only
  by_cases h1 : r = 0 ∨ ν ^ 3 * 0.0000119104 / r + 1 = 0
  · rw [if_pos h1]
    dsimp only
    rw [if_pos hneg]
  rw [if_neg h1]
  by_cases h2 : ν ^ 3 * 0.0000119104 / r + 1 < 0
  · rw [if_pos h2]
  rw [if_neg h2]
  dsimp only
  rw [not_or] at h1
  have hx0 : 0 < ν ^ 3 * 0.0000119104 / r + 1 := lt_of_le_of_ne (not_lt.mp h2) (Ne.symm h1.2)
  rcases lt_or_gt_of_ne h1.1 with h | h
  · have hq : ν ^ 3 * 0.0000119104 / r < 0 := div_neg_of_pos_of_neg hc1 h
    have hl : Real.log (ν ^ 3 * 0.0000119104 / r + 1) < 0 := Real.log_neg hx0 (by linarith)
    have := div_neg_of_pos_of_neg hc2 hl
    rw [if_pos (div_neg_of_neg_of_pos (by linarith) hA)]
  · have hq : 0 < ν ^ 3 * 0.0000119104 / r := div_pos hc1 h
    have hl : 0 < Real.log (ν ^ 3 * 0.0000119104 / r + 1) := Real.log_pos (by linarith)
    have hT : (ν * 1.43877 / Real.log (ν ^ 3 * 0.0000119104 / r + 1) - B) / A ≤ 0 := by
      apply div_nonpos_of_nonpos_of_nonneg _ hA.le
      rw [sub_nonpos, div_le_iff₀ hl]
      unfold effective planck at hr
      dsimp only at hr
      rw [mul_zero, zero_add] at hr
      have e4 : 0 < 1.43877 * ν / B := div_pos (mul_pos (by norm_num) hν) hB
      have e5 : 0 < Real.exp (1.43877 * ν / B) - 1 := by have := Real.add_one_lt_exp e4.ne'; linarith
      rw [le_div_iff₀ e5] at hr
      have e6 : Real.exp (1.43877 * ν / B) - 1 ≤ ν ^ 3 * 0.0000119104 / r := by
        rw [le_div_iff₀ h]
        linarith
      have e7 : 1.43877 * ν / B ≤ Real.log (ν ^ 3 * 0.0000119104 / r + 1) := by
        rw [Real.le_log_iff_exp_le (by linarith)]
        linarith
      rw [div_le_iff₀ hB] at e7
      linarith
    rcases hT.eq_or_lt with h3 | h3
    · rw [h3, if_neg (lt_irrefl _)]
    · rw [if_pos h3]

/-! ### The image -/

/-- What the files of a product must have for the image to be opened: a geostationary projection, a channel of SEVIRI, the calibration of
the 12 channels, and counts that a table can have. -/
structure Readable (pro : Prologue) (h : Header) : Prop where
  lon : h.sublon ≠ none
  channel : 1 ≤ h.channel ∧ h.channel ≤ 12
  cal : pro.calibration.length = 12
  bpp : h.bpp < 31

theorem initBand_thermal (hrv : Bool) (sc : Int) (pro : Prologue) (h : Header) (k : ℝ × ℝ × ℝ) (hk : constants h.channel = some k)
    (s o : ℝ) (hc : pro.calibration[h.channel - 1]? = some (s, o)) (hb : h.bpp < 31) :
    initBand hrv sc pro h = .ok ⟨h.channel, Facts.channelName sc h.channel, Facts.channelUnit sc h.channel, if hrv then 11136 else 3712, 1,
      false, 1, 0, 0, some (2 ^ h.bpp, fun i => temperature k.1 k.2.1 k.2.2 (i * s + o))⟩ := by
  rw [constants_cold] at hk
  split at hk
  · rename_i hr
    obtain ⟨ν, A, B⟩ := k
    unfold initBand slopeOffset getCalibration
    rw [if_pos hr, hk]
    simp only [Outcome.ok_bind]
    rw [if_neg (show ¬ 31 ≤ h.bpp by omega), hc]
    simp
  · cases hk

theorem initBand_visible (hrv : Bool) (sc : Int) (pro : Prologue) (h : Header) (hk : constants h.channel = none)
    (hch : 1 ≤ h.channel) (s o : ℝ) (hc : pro.calibration[h.channel - 1]? = some (s, o)) :
    initBand hrv sc pro h = .ok ⟨h.channel, Facts.channelName sc h.channel, Facts.channelUnit sc h.channel, if hrv then 11136 else 3712, 1,
      true, s, o, 0, none⟩ := by
  have hn : ¬ (3 < h.channel ∧ h.channel < 12) := by
    intro hr
    rw [constants_cold, if_pos hr] at hk
    have := List.getElem?_eq_none_iff.mp hk
    have : cold.length = 8 := rfl
    omega
  unfold initBand slopeOffset
  rw [if_neg hn, if_neg (show ¬ h.channel = 0 by omega), hc]
  simp

theorem init_ok (hrv : Bool) (pro : Prologue) (h : Header) (hr : Readable pro h) :
    ∃ lon b, h.sublon = some lon ∧ initBand hrv (Facts.fromHRIT h.spacecraft) pro h = .ok b ∧
      init hrv pro h = .ok ⟨if hrv then 11136 else 3712, if hrv then 11136 else 3712, Facts.fromHRIT h.spacecraft,
        Facts.spacecraftName (Facts.fromHRIT h.spacecraft), dateText pro.start.unixtime, lon, geotransformOf hrv pro, b⟩ := by
  obtain ⟨lon, hl⟩ := Option.ne_none_iff_exists'.mp hr.lon
  have hc : ∃ p, pro.calibration[h.channel - 1]? = some p :=
    ⟨_, List.getElem?_eq_getElem (by have := hr.cal; have := hr.channel; omega)⟩
  obtain ⟨⟨s, o⟩, hc⟩ := hc
  have key : ∃ b, initBand hrv (Facts.fromHRIT h.spacecraft) pro h = .ok b := by
    cases hk : constants h.channel with
    | none => exact ⟨_, initBand_visible hrv _ pro h hk hr.channel.1 s o hc⟩
    | some k => exact ⟨_, initBand_thermal hrv _ pro h k hk s o hc hr.bpp⟩
  obtain ⟨b, hb⟩ := key
  refine ⟨lon, b, hl, hb, ?_⟩
  unfold init
  rw [hl]
  dsimp only
  rw [hb]
  rfl

/-- The image is opened if and only if the files have what it takes; the range of the counts matters only for the thermal channels. -/
theorem C82_open (hrv : Bool) (pro : Prologue) (h : Header) (hcal : pro.calibration.length = 12) :
    (∃ ds, init hrv pro h = .ok ds) ↔ h.sublon ≠ none ∧ 1 ≤ h.channel ∧ h.channel ≤ 12 ∧ (constants h.channel ≠ none → h.bpp < 31) := by
  have hcl : cold.length = 8 := rfl
  constructor
  · rintro ⟨ds, e⟩
    unfold init at e
    cases hl : h.sublon with
    | none => rw [hl] at e; cases e
    | some lon =>
      rw [hl] at e
      dsimp only at e
      obtain ⟨b, hb, -⟩ := Outcome.of_bind_ok e
      unfold initBand at hb
      obtain ⟨⟨s, o, l⟩, hs, hb⟩ := Outcome.of_bind_ok hb
      refine ⟨by simp, ?_⟩
      unfold slopeOffset at hs
      by_cases hr : 3 < h.channel ∧ h.channel < 12
      · refine ⟨by omega, by omega, fun _ => ?_⟩
        rw [if_pos hr, List.getElem?_eq_getElem (by omega)] at hs
        simp only [Outcome.ok.injEq, Prod.mk.injEq] at hs
        obtain ⟨-, -, rfl⟩ := hs
        dsimp only at hb
        by_contra hbp
        simp [getCalibration, show 31 ≤ h.bpp by omega] at hb
      · rw [if_neg hr] at hs
        have hn : constants h.channel = none := by rw [constants_cold, if_neg hr]
        split at hs
        · cases hs
        · rename_i h0
          refine ⟨by omega, ?_, fun hh => absurd hn hh⟩
          by_contra hb'
          rw [List.getElem?_eq_none (by omega)] at hs
          cases hs
  · rintro ⟨h1, h2, h3, h4⟩
    have hc : ∃ p, pro.calibration[h.channel - 1]? = some p := ⟨_, List.getElem?_eq_getElem (by omega)⟩
    obtain ⟨⟨s, o⟩, hc⟩ := hc
    obtain ⟨lon, hl⟩ := Option.ne_none_iff_exists'.mp h1
    have key : ∃ b, initBand hrv (Facts.fromHRIT h.spacecraft) pro h = .ok b := by
      cases hk : constants h.channel with
      | none => exact ⟨_, initBand_visible hrv _ pro h hk h2 s o hc⟩
      | some k => exact ⟨_, initBand_thermal hrv _ pro h k hk s o hc (h4 (by rw [hk]; simp))⟩
    obtain ⟨b, hb⟩ := key
    unfold init
    rw [hl]
    dsimp only
    rw [hb]
    exact ⟨_, rfl⟩

/-- Size, satellite, channel and longitude of the image are those of the files. -/
theorem C82_description (hrv : Bool) (pro : Prologue) (h : Header) (hr : Readable pro h) (sat : String) (wmo : Int)
    (hs : (sat, wmo, some (h.spacecraft : Int)) ∈ SatSpec.satellites) (hw : wmo ∈ SatSpec.seviri) (name : String) (w : Int) (thermal : Bool)
    (hch : ((h.channel : Int), name, w, thermal) ∈ SatSpec.channels) :
    ∃ ds, init hrv pro h = .ok ds ∧ ds.nx = (if hrv then 11136 else 3712) ∧ ds.ny = ds.nx ∧
      ds.spacecraftId = wmo ∧ ds.spacecraft = sat ∧ h.sublon = some ds.sublon ∧
      ds.band.channelId = h.channel ∧ ds.band.channel = name ∧ (ds.band.linear = false ↔ thermal = true) ∧
      (ds.band.units = "K" ↔ thermal = true) ∧ ds.band.blockX = ds.nx ∧ ds.band.blockY = 1 := by
  obtain ⟨lon, b, hl, hb, e⟩ := init_ok hrv pro h hr
  have hf : Facts.fromHRIT h.spacecraft = wmo := (C13_from_hrit _ _).mpr (.inl ⟨sat, hs⟩)
  have hwmo : wmo = 55 ∨ wmo = 56 ∨ wmo = 57 ∨ wmo = 70 := by simpa [SatSpec.seviri] using hw
  have hname : Facts.spacecraftName wmo = sat := by
    rcases hwmo with rfl | rfl | rfl | rfl <;>
      simp [SatSpec.satellites] at hs <;> rw [hs.1] <;> rfl
  rw [hf] at hb e
  have hc : ∃ p, pro.calibration[h.channel - 1]? = some p :=
    ⟨_, List.getElem?_eq_getElem (by have := hr.cal; have := hr.channel; omega)⟩
  obtain ⟨⟨s, o⟩, hc⟩ := hc
  refine ⟨_, e, rfl, rfl, rfl, hname, hl, ?_⟩
  dsimp only
  have hn : Facts.channelName wmo h.channel = name ∧ (Facts.channelUnit wmo h.channel = "K" ↔ thermal = true) := by
    unfold Facts.channelName Facts.channelUnit
    rw [if_pos hwmo, if_pos hwmo]
    simp only [SatSpec.channels, List.mem_cons, Prod.mk.injEq, List.not_mem_nil, or_false] at hch
    rcases hch with ⟨h1, rfl, -, rfl⟩ | ⟨h1, rfl, -, rfl⟩ | ⟨h1, rfl, -, rfl⟩ | ⟨h1, rfl, -, rfl⟩ | ⟨h1, rfl, -, rfl⟩ |
      ⟨h1, rfl, -, rfl⟩ | ⟨h1, rfl, -, rfl⟩ | ⟨h1, rfl, -, rfl⟩ | ⟨h1, rfl, -, rfl⟩ | ⟨h1, rfl, -, rfl⟩ | ⟨h1, rfl, -, rfl⟩ |
      ⟨h1, rfl, -, rfl⟩ <;> rw [h1] <;> decide
  have ht : constants h.channel = none ↔ thermal = false := by
    rw [constants_cold]
    have hcl : cold.length = 8 := rfl
    simp only [SatSpec.channels, List.mem_cons, Prod.mk.injEq, List.not_mem_nil, or_false] at hch
    have key : thermal = true ↔ 3 < h.channel ∧ h.channel < 12 := by
      rcases hch with ⟨h1, rfl, -, rfl⟩ | ⟨h1, rfl, -, rfl⟩ | ⟨h1, rfl, -, rfl⟩ | ⟨h1, rfl, -, rfl⟩ | ⟨h1, rfl, -, rfl⟩ |
        ⟨h1, rfl, -, rfl⟩ | ⟨h1, rfl, -, rfl⟩ | ⟨h1, rfl, -, rfl⟩ | ⟨h1, rfl, -, rfl⟩ | ⟨h1, rfl, -, rfl⟩ | ⟨h1, rfl, -, rfl⟩ |
        ⟨h1, rfl, -, rfl⟩ <;> simp <;> omega
    by_cases hr : 3 < h.channel ∧ h.channel < 12
    · rw [if_pos hr, List.getElem?_eq_getElem (by omega), key.mpr hr]
      simp
    · rw [if_neg hr]
      have : thermal = false := by
        cases thermal
        · rfl
        · exact absurd (key.mp rfl) hr
      simp [this]
  cases hk : constants h.channel with
  | none =>
    rw [initBand_visible hrv _ pro h hk hr.channel.1 s o hc] at hb
    injection hb with hb
    subst hb
    have := ht.mp hk
    subst this
    exact ⟨rfl, hn.1, by simp, hn.2, rfl, rfl⟩
  | some k =>
    rw [initBand_thermal hrv _ pro h k hk s o hc hr.bpp] at hb
    injection hb with hb
    subst hb
    have : thermal = true := by
      cases thermal
      · rw [ht.mpr rfl] at hk; cases hk
      · rfl
    subst this
    exact ⟨rfl, hn.1, by simp, hn.2, rfl, rfl⟩

/-- Pixels of the solar channels: the radiance is the slope times the count plus the offset; 0 is missing. -/
theorem C82_visible (hrv : Bool) (pro : Prologue) (h : Header) (hr : Readable pro h) (hk : constants h.channel = none) (s o : ℝ)
    (hc : pro.calibration[h.channel - 1]? = some (s, o)) (count : Nat) :
    ∃ ds v, init hrv pro h = .ok ds ∧ ds.band.pixel count = .ok v ∧
      reading ds.band.nodata ds.band.scale ds.band.offset v = if count = 0 then none else some (count * s + o) := by
  obtain ⟨lon, b, hl, hb, e⟩ := init_ok hrv pro h hr
  rw [initBand_visible hrv _ pro h hk hr.channel.1 s o hc] at hb
  injection hb with hb
  subst hb
  refine ⟨_, count, e, rfl, ?_⟩
  unfold reading
  by_cases h0 : count = 0
  · subst h0; simp
  · dsimp only
    rw [if_neg h0, if_neg (by exact_mod_cast h0)]

/-- Pixels of the thermal channels: the temperature whose effective radiance, by Planck's law, is the slope times the count plus the offset;
missing if there is no positive one. -/
theorem C82_thermal (hrv : Bool) (pro : Prologue) (h : Header) (hr : Readable pro h) (k : ℝ × ℝ × ℝ) (hk : constants h.channel = some k)
    (s o : ℝ) (hc : pro.calibration[h.channel - 1]? = some (s, o)) (count : Nat) (hcount : count < 2 ^ h.bpp) :
    ∃ ds v, init hrv pro h = .ok ds ∧ ds.band.pixel count = .ok v ∧
      ∀ T, reading ds.band.nodata ds.band.scale ds.band.offset v = some T ↔ 0 < T ∧ effective k T = count * s + o := by
  obtain ⟨lon, b, hl, hb, e⟩ := init_ok hrv pro h hr
  rw [initBand_thermal hrv _ pro h k hk s o hc hr.bpp] at hb
  injection hb with hb
  subst hb
  have hsound := constants_sound _ _ hk
  refine ⟨_, written k (count * s + o), e, ?_, ?_⟩
  · unfold RasterBand.pixel
    dsimp only
    rw [if_pos hcount]
    unfold written
    cases temperature k.1 k.2.1 k.2.2 (count * s + o) <;> rfl
  · intro T
    unfold reading
    dsimp only
    rw [mul_one, add_zero]
    rcases lt_or_ge (effective k 0) (count * s + o) with hpos | hneg
    · obtain ⟨h1, h2⟩ := written_pos k hsound _ hpos
      rw [if_neg h1.ne', Option.some.injEq]
      constructor
      · rintro rfl; exact ⟨h1, h2⟩
      · rintro ⟨h3, h4⟩
        rcases lt_trichotomy (written k (count * s + o)) T with h5 | h5 | h5
        · have := effective_mono k hsound _ _ h1.le h5
          linarith
        · exact h5
        · have := effective_mono k hsound _ _ h3.le h5
          linarith
    · rw [written_zero k hsound _ hneg, if_pos rfl]
      constructor
      · intro h; cases h
      · rintro ⟨h3, h4⟩
        have := effective_mono k hsound _ _ (le_refl 0) h3
        linarith

/-- A greater count stands for a warmer pixel, if the slope is positive. -/
theorem C82_monotone (hrv : Bool) (pro : Prologue) (h : Header) (hr : Readable pro h) (k : ℝ × ℝ × ℝ) (hk : constants h.channel = some k)
    (s o : ℝ) (hc : pro.calibration[h.channel - 1]? = some (s, o)) (hs : 0 < s) (c c' : Nat) (hlt : c < c') (hc' : c' < 2 ^ h.bpp)
    (ds : Dataset) (hi : init hrv pro h = .ok ds) (v v' T T' : ℝ) (hv : ds.band.pixel c = .ok v) (hv' : ds.band.pixel c' = .ok v')
    (hT : reading ds.band.nodata ds.band.scale ds.band.offset v = some T)
    (hT' : reading ds.band.nodata ds.band.scale ds.band.offset v' = some T') : T < T' := by
  obtain ⟨d1, v1, e1, p1, r1⟩ := C82_thermal hrv pro h hr k hk s o hc c (lt_trans hlt hc')
  obtain ⟨d2, v2, e2, p2, r2⟩ := C82_thermal hrv pro h hr k hk s o hc c' hc'
  rw [hi] at e1 e2
  injection e1 with e1
  injection e2 with e2
  subst e1
  subst e2
  rw [hv] at p1
  rw [hv'] at p2
  injection p1 with p1
  injection p2 with p2
  subst p1
  subst p2
  obtain ⟨h1, h2⟩ := (r1 T).mp hT
  obtain ⟨h3, h4⟩ := (r2 T').mp hT'
  by_contra hle
  have hsound := constants_sound _ _ hk
  have hcc : (c : ℝ) * s < c' * s := mul_lt_mul_of_pos_right (by exact_mod_cast hlt) hs
  rcases (not_lt.mp hle).eq_or_lt with h5 | h5
  · subst h5; linarith
  · have := effective_mono k hsound _ _ h3.le h5
    linarith

/-- The count 0, which stands for lines that were not received and for space, is missing: in the solar channels always, in the thermal ones
if and only if the offset is not the radiance of a temperature. -/
theorem C82_missing (hrv : Bool) (pro : Prologue) (h : Header) (hr : Readable pro h) (s o : ℝ)
    (hc : pro.calibration[h.channel - 1]? = some (s, o)) :
    ∃ ds v, init hrv pro h = .ok ds ∧ ds.band.pixel 0 = .ok v ∧
      (reading ds.band.nodata ds.band.scale ds.band.offset v = none ↔ ∀ k, constants h.channel = some k → o ≤ effective k 0) := by
  cases hk : constants h.channel with
  | none =>
    obtain ⟨ds, v, h1, h2, h3⟩ := C82_visible hrv pro h hr hk s o hc 0
    exact ⟨ds, v, h1, h2, by rw [h3]; simp⟩
  | some k =>
    obtain ⟨ds, v, h1, h2, h3⟩ := C82_thermal hrv pro h hr k hk s o hc 0 (by positivity)
    refine ⟨ds, v, h1, h2, ?_⟩
    rw [Option.eq_none_iff_forall_ne_some]
    have hsound := constants_sound _ _ hk
    constructor
    · rintro hn k' hk'
      injection hk' with hk'
      subst hk'
      by_contra hlt
      rw [not_le] at hlt
      obtain ⟨w1, w2⟩ := written_pos k hsound o hlt
      exact hn (written k o) ((h3 _).mpr ⟨w1, by rw [w2]; simp⟩)
    · intro ho T hT
      obtain ⟨w1, w2⟩ := (h3 T).mp hT
      have := effective_mono k hsound _ _ (le_refl 0) w1
      have := ho k rfl
      simp only [Nat.cast_zero, zero_mul, zero_add] at w2
      linarith

/-- Where pixels are: the middle of the image is the point below the satellite; columns go to the east and lines to the south, by the size
of a pixel that the prologue gives in kilometres. -/
theorem C82_georeference (hrv : Bool) (pro : Prologue) (h : Header) (hr : Readable pro h) :
    ∃ ds, init hrv pro h = .ok ds ∧ ∀ x y : ℝ,
      ds.geotransform 0 + x * ds.geotransform 1 + y * ds.geotransform 2 =
        (x - ds.nx / 2) * |1000 * (if hrv then pro.gridHrv else pro.gridVisIr).1| ∧
      ds.geotransform 3 + x * ds.geotransform 4 + y * ds.geotransform 5 =
        (ds.ny / 2 - y) * |1000 * (if hrv then pro.gridHrv else pro.gridVisIr).2| := by
  obtain ⟨lon, b, hl, hb, e⟩ := init_ok hrv pro h hr
  refine ⟨_, e, fun x y => ?_⟩
  cases hrv
  · simp [geotransformOf, Matrix.cons_val_zero, Matrix.cons_val_one]
    constructor <;> ring
  · simp [geotransformOf, Matrix.cons_val_zero, Matrix.cons_val_one]
    constructor <;> ring

/-! ### The date -/

theorem digitsOf_spec : ∀ w n : Nat, (digitsOf w n).length = w ∧ (∀ c ∈ digitsOf w n, '0' ≤ c ∧ c ≤ '9') ∧
    (n < 10 ^ w → ToolSpec.decimal (digitsOf w n) = n)
  | 0, n => ⟨rfl, by simp [digitsOf], by intro h; simp at h; subst h; rfl⟩
  | w + 1, n => by
    obtain ⟨h1, h2, h3⟩ := digitsOf_spec w (n / 10)
    have hd : ∀ k : Nat, k < 10 → '0' ≤ Char.ofNat (48 + k) ∧ Char.ofNat (48 + k) ≤ '9' ∧ (Char.ofNat (48 + k)).toNat - '0'.toNat = k := by
      decide
    obtain ⟨d1, d2, d3⟩ := hd (n % 10) (Nat.mod_lt _ (by decide))
    refine ⟨by simp [digitsOf, h1], ?_, ?_⟩
    · intro c hc
      rw [digitsOf, List.mem_append, List.mem_singleton] at hc
      rcases hc with hc | rfl
      · exact h2 c hc
      · exact ⟨d1, d2⟩
    · intro hn
      have happ : ∀ (s : List Char) (c : Char), ToolSpec.decimal (s ++ [c]) = ToolSpec.decimal s * 10 + (c.toNat - '0'.toNat) := by
        intro s c
        induction s with
        | nil => simp [ToolSpec.decimal]
        | cons a s ih =>
          rw [List.cons_append, ToolSpec.decimal, ih, ToolSpec.decimal, List.length_append, List.length_singleton, pow_succ]
          ring
      rw [digitsOf, happ, d3, h3 (by rw [pow_succ] at hn; omega)]
      omega

theorem dayOfYear_lt (y m d : Nat) (hv : Spec.ValidDate y m d) : Spec.daysBeforeMonth y m + d - 1 < Spec.yearLen y := by
  obtain ⟨v1, v2, v3, v4⟩ := hv
  have hmono : Spec.daysBeforeMonth y m + Spec.daysInMonth y m ≤ Spec.yearLen y := by
    have hm : m = 1 ∨ m = 2 ∨ m = 3 ∨ m = 4 ∨ m = 5 ∨ m = 6 ∨ m = 7 ∨ m = 8 ∨ m = 9 ∨ m = 10 ∨ m = 11 ∨ m = 12 := by omega
    unfold Spec.yearLen
    rcases hm with rfl | rfl | rfl | rfl | rfl | rfl | rfl | rfl | rfl | rfl | rfl | rfl <;>
      simp only [Spec.daysBeforeMonth, List.range_succ, List.range_zero, List.map_cons, List.map_nil, List.nil_append, List.cons_append,
        List.sum_cons, List.sum_nil, Spec.daysInMonth, Nat.reduceAdd, Nat.reduceSub] <;> split <;> omega
  omega

theorem years_days (a : Nat) : ∀ k : Nat, 365 * k ≤ Spec.daysBetweenYears a (a + k)
  | 0 => by simp
  | k + 1 => by
    have := years_days a k
    rw [daysBetween_last]
    have : 365 ≤ Spec.yearLen (a + k) := by unfold Spec.yearLen; split <;> omega
    omega

/-- The date of the image is that of the beginning of the acquisition, to the minute: the day and the milliseconds of the prologue. -/
theorem C82_date (hrv : Bool) (pro : Prologue) (h : Header) (hr : Readable pro h) (day msec : Nat) (hd : day < 2 ^ 16) (hm : msec < 2 ^ 32)
    (ht : pro.start = Time.cdsShortOf day msec) (y m d : Nat) (hy : 1958 ≤ y) (hv : Spec.ValidDate y m d)
    (hday : Spec.daysBetweenYears 1958 y + Spec.daysBeforeMonth y m + (d - 1) = day + msec / 86400000) :
    ∃ ds, ∃ D : ToolSpec.Date, init hrv pro h = .ok ds ∧ D.Valid ∧ ds.datetime = D.text ∧
      ToolSpec.decimal D.year = y ∧ ToolSpec.decimal D.month = m ∧ ToolSpec.decimal D.day = d ∧
      ToolSpec.decimal D.hour = msec / 3600000 % 24 ∧ ToolSpec.decimal D.minute = msec / 60000 % 60 ∧ ToolSpec.decimal D.second = 0 := by
  obtain ⟨lon, b, hl, hb, e⟩ := init_ok hrv pro h hr
  obtain ⟨k, rfl⟩ := Nat.exists_eq_add_of_le hy
  have hk := years_days 1958 k
  have hg : gmtime (Time.cdsShortOf day msec).unixtime = (1958 + k, m, d, msec / 3600000 % 24, msec / 60000 % 60) := by
    unfold gmtime Time.cdsShortOf
    dsimp only
    have es : ((86400 * (day : Int) + ((msec / 1000 : Nat) : Int) + -378691200) + 378691200).toNat = 86400 * day + msec / 1000 := by omega
    rw [es]
    have e1 : (86400 * day + msec / 1000) / 86400 = Spec.daysBetweenYears 1958 (1958 + k) + (Spec.daysBeforeMonth (1958 + k) m + d - 1) := by
      have := hv.2.2.1
      omega
    rw [e1, yearOf_days k 1958 _ (dayOfYear_lt _ _ _ hv)]
    dsimp only
    rw [monthOf_days _ _ _ hv]
    dsimp only
    rw [show (86400 * day + msec / 1000) % 86400 / 3600 = msec / 3600000 % 24 by omega,
      show (86400 * day + msec / 1000) % 3600 / 60 = msec / 60000 % 60 by omega]
  obtain ⟨v1, v2, v3, v4⟩ := hv
  have hdm : Spec.daysInMonth (1958 + k) m ≤ 31 := by
    unfold Spec.daysInMonth
    split <;> first | omega | (split <;> omega)
  obtain ⟨y1, y2, y3⟩ := digitsOf_spec 4 (1958 + k)
  obtain ⟨m1, m2, m3⟩ := digitsOf_spec 2 m
  obtain ⟨d1, d2, d3⟩ := digitsOf_spec 2 d
  obtain ⟨h1, h2, h3⟩ := digitsOf_spec 2 (msec / 3600000 % 24)
  obtain ⟨i1, i2, i3⟩ := digitsOf_spec 2 (msec / 60000 % 60)
  refine ⟨_, ⟨digitsOf 4 (1958 + k), digitsOf 2 m, digitsOf 2 d, digitsOf 2 (msec / 3600000 % 24), digitsOf 2 (msec / 60000 % 60),
    ['0', '0']⟩, e, ⟨⟨y1, m1, d1, h1, i1, rfl⟩, ?_⟩, ?_, y3 (by omega), m3 (by omega), d3 (by omega), h3 (by omega), i3 (by omega), rfl⟩
  · dsimp only
    rintro c (hc | hc | hc | hc | hc | hc)
    · exact y2 c hc
    · exact m2 c hc
    · exact d2 c hc
    · exact h2 c hc
    · exact i2 c hc
    · simp at hc; subst hc; decide
  · dsimp only
    rw [ht]
    unfold dateText
    rw [hg]
    simp [ToolSpec.Date.text]

/-! ### Cases -/

/-- An image of channel IR_108 of MSG3 of the 24th of October 2014 at 12:00:11. -/
noncomputable def aPrologue : Prologue :=
  ⟨Time.cdsShortOf 20750 43211000, (3.000403, 3.000403), (1.000134, 1.000134), List.replicate 12 (0.2, -10.4)⟩
noncomputable def aSegment : Header := ⟨323, 9, 10, some 0⟩

theorem aReadable : Readable aPrologue aSegment := ⟨by simp [aSegment], by simp [aSegment], by simp [aPrologue], by simp [aSegment]⟩

example : Readable aPrologue aSegment ∧ ("MSG3", 57, some ((aSegment.spacecraft : Nat) : Int)) ∈ SatSpec.satellites ∧
    (57 : Int) ∈ SatSpec.seviri ∧ (((aSegment.channel : Nat) : Int), "IR_108", 108, true) ∈ SatSpec.channels := by
  refine ⟨aReadable, ?_⟩
  unfold aSegment
  decide

example : constants aSegment.channel = some (930.659, 0.9983, 0.627) ∧ aPrologue.calibration[aSegment.channel - 1]? = some (0.2, -10.4) ∧
    500 < 2 ^ aSegment.bpp := by
  refine ⟨rfl, by simp [aPrologue, aSegment], by simp [aSegment]⟩

/-- In that image the count 500 is a temperature. -/
example : ∃ T, 0 < T ∧ effective (930.659, 0.9983, 0.627) T = (500 : Nat) * 0.2 + -10.4 := by
  refine ⟨_, written_pos _ (by unfold Sound; norm_num) _ ?_⟩
  unfold effective planck
  dsimp only
  rw [mul_zero, zero_add]
  have h1 : (1000 : ℝ) < 1.43877 * 930.659 / 0.627 := by norm_num
  have h2 := Real.add_one_lt_exp (show (1.43877 * 930.659 / 0.627 : ℝ) ≠ 0 by norm_num)
  rw [div_lt_iff₀ (by linarith)]
  norm_num at *
  linarith

example : Spec.ValidDate 2014 10 24 ∧ Spec.daysBetweenYears 1958 2014 + Spec.daysBeforeMonth 2014 10 + (24 - 1) = 20750 + 43211000 / 86400000 := by
  unfold Spec.ValidDate
  decide +kernel

/-! ### What is wrong -/

/-- xRIT: the channel of the segments is used as an index without a check: a file with channel 0 or above 12 makes the program read outside
of the table of the calibrations. -/
theorem C82_violated_channel (hrv : Bool) (pro : Prologue) (h : Header) (hl : h.sublon ≠ none) (hcal : pro.calibration.length = 12)
    (hch : h.channel = 0 ∨ 12 < h.channel) : init hrv pro h = .ub := by
  obtain ⟨lon, hl⟩ := Option.ne_none_iff_exists'.mp hl
  have hs : slopeOffset pro.calibration h.channel = .ub := by
    unfold slopeOffset
    rw [if_neg (by omega)]
    split
    · rfl
    · rw [List.getElem?_eq_none (by omega)]
  unfold init initBand
  rw [hl, hs]
  rfl

example : ({ aSegment with channel := 13 } : Header).sublon ≠ none := by simp [aSegment]

/-- xRIT: the longitude of a file whose projection is not geostationary is not set, and it is used. -/
theorem C82_violated_projection (hrv : Bool) (pro : Prologue) (h : Header) (hl : h.sublon = none) : init hrv pro h = .ub := by
  unfold init
  rw [hl]

end Msat.Props
