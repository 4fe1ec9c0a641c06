import Verif.Props.C44

/-
C71 Scale factors, grid increments and pixel sizes are converted to each other and back.
-/
namespace Msat.Props
open Msat PixelSize Real

/-- A grid increment is the same after it is converted to a scale factor and back, for every increment, in both directions of
the image. -/
theorem C71_increment_factor (d : ℤ) (h1 : -2 ^ 31 ≤ d) (h2 : d < 2 ^ 31) :
    seviriDXFromCFAC (cfacFromSeviriDX d) = .ok d ∧ seviriDYFromLFAC (lfacFromSeviriDY d) = .ok d :=
  ⟨dx_cfac d h1 h2, dx_cfac d h1 h2⟩

theorem increment_size (d : ℤ) (h1 : 0 < d) (h2 : d ≤ 500000) (h3 : d ≠ 3608) :
    ∃ p, pixelHSizeFromSeviriDX d = .ok p ∧ seviriDXFromPixelHSize p = .ok d ∧ 0 < p := by
  by_cases h4 : d = 3622
  · subst h4
    exact ⟨_, dx_sizeX.2, dx_sizeX.1, by unfold sizeX; norm_num⟩
  · refine ⟨_, pixelH_seviri d h1 h2 h3 h4, ?_, gridSize_pos d h1⟩
    unfold seviriDXFromPixelHSize
    rw [if_neg (not_lt.2 (gridSize_unknown d h1).1), cfac_gridSize d h1]
    exact dx_cfac d (by omega) (by omega)

/-- A grid increment is the same after it is converted to a pixel size and back; missing for the full property: 3608, which is
another name of 3622. -/
theorem C71_increment_size_partial (d : ℤ) (h1 : 0 < d) (h2 : d ≤ 500000) (h3 : d ≠ 3608) :
    (∃ p, pixelHSizeFromSeviriDX d = .ok p ∧ seviriDXFromPixelHSize p = .ok d ∧ 0 < p) ∧
      ∃ p, pixelVSizeFromSeviriDY d = .ok p ∧ seviriDYFromPixelVSize p = .ok d ∧ 0 < p :=
  ⟨increment_size d h1 h2 h3, increment_size d h1 h2 h3⟩

/-- Smaller pixels have a larger increment: the size is the part of the disk that a pixel takes. -/
theorem C71_size_bounds (d : ℤ) (h1 : 1000 ≤ d) (h2 : d ≤ 500000) :
    ∃ p, pixelHSizeFromSeviriDX d = .ok p ∧ pixelVSizeFromSeviriDY d = .ok p ∧ |p * d - 10868357| < 50000 := by
  have hd : (1000 : ℝ) ≤ d := by exact_mod_cast h1
  by_cases h : d = 3608 ∨ d = 3622
  · refine ⟨sizeX, ?_, ?_, ?_⟩
    · unfold pixelHSizeFromSeviriDX; split_ifs <;> first | rfl | omega
    · unfold pixelVSizeFromSeviriDY; split_ifs <;> first | rfl | omega
    · rcases h with rfl | rfl <;> unfold sizeX <;> rw [abs_lt] <;> norm_num
  · rw [not_or] at h
    have e := pixelH_seviri d (by omega) h2 h.1 h.2
    refine ⟨_, e, e, ?_⟩
    have l := gridSize_lower d (by omega)
    have u := gridSize_upper d h1
    have l' : 35785863 * (2 * 0.15185265) < gridSize d * d := by
      rw [← mul_div_assoc, div_lt_iff₀ (by linarith)] at l
      exact l
    have u' : gridSize d * d < 35785863 * (2 * 0.15185267) * 1.0000001 := by
      rw [← mul_div_assoc, div_mul_eq_mul_div, lt_div_iff₀ (by linarith)] at u
      exact u
    rw [abs_lt]
    norm_num at *
    constructor <;> linarith

/-- A scale factor, as stored in files, is the same after it is converted to a pixel size and back, if the size is not within a
millimetre of a known one, or is the factor of one. -/
theorem C71_factor_size_partial (n : ℤ) (h1 : 1000 ≤ n) (h2 : n < 2 ^ 31) :
    ∃ p, pixelHSizeFromCFAC ((n : ℝ) * (2 ^ 16)⁻¹) = .ok p ∧ pixelVSizeFromLFAC ((n : ℝ) * (2 ^ 16)⁻¹) = .ok p ∧
      (Unknown p ∨ n = 13642337 ∨ n = 40927000 →
        cfacFromPixelHSize p = (n : ℝ) * (2 ^ 16)⁻¹ ∧ lfacFromPixelVSize p = (n : ℝ) * (2 ^ 16)⁻¹) := by
  obtain ⟨p, e, p0⟩ := pixelH_pos n h1 h2
  refine ⟨p, e, e, fun h => ?_⟩
  suffices cfacFromPixelHSize p = (n : ℝ) * (2 ^ 16)⁻¹ from ⟨this, this⟩
  rcases h with h | h | h
  · have hnr : (1000 : ℝ) ≤ n := by exact_mod_cast h1
    rw [pixelH_int n (by omega) h2, if_neg (show ¬ n = -13642337 by omega), if_neg (show ¬ n = -40927000 by omega)] at e
    have hp := Outcome.ok.inj e
    have hpi := pi_pos
    split at hp
    · exfalso
      have := h.1
      rw [← hp, sub_self, abs_zero] at this
      norm_num at this
    split at hp
    · exfalso
      have := h.2
      rw [← hp, sub_self, abs_zero] at this
      norm_num at this
    · rw [cfac_unknown p p0 h]
      have hh := height_pos
      have hq : p / ((orbitRadius - earthRadius) * 1000.0) = tan (π / 180.0 / ((n : ℝ) * (2 ^ 16)⁻¹)) := by
        rw [← hp, div_eq_iff hh.ne', mul_right_comm, mul_comm]
      have hlt : π / 180.0 / ((n : ℝ) * (2 ^ 16)⁻¹) < π / 2 := by
        rw [div_lt_iff₀ (by positivity), div_lt_iff₀ (by norm_num)]
        have : π / 2 * ((n : ℝ) * (2 ^ 16)⁻¹) * 180.0 = π * ((n : ℝ) * (90 / 65536)) := by norm_num; ring
        rw [this]
        have : 1 < (n : ℝ) * (90 / 65536) := by linarith
        nlinarith
      have hpos : 0 < π / 180.0 / ((n : ℝ) * (2 ^ 16)⁻¹) := by positivity
      rw [hq, arctan_tan (by linarith) hlt]
      have hn0 : (n : ℝ) ≠ 0 := by linarith
      have hpi := pi_pos.ne'
      norm_num
      field_simp
  · subst h
    push_cast at e ⊢
    rw [pixelH_sizeX] at e
    rw [← Outcome.ok.inj e, cfac_sizeX]
  · subst h
    push_cast at e ⊢
    rw [pixelH_sizeXHrv] at e
    rw [← Outcome.ok.inj e, cfac_sizeXHrv]

/-- A pixel size is the same after it is converted to a scale factor and back, if the factor is not one that is known, to the
precision of the files. -/
theorem C71_size_factor_partial (ps : ℝ) (h1 : 100 ≤ ps) (h2 : ps ≤ 100000) (hu : Unknown ps)
    (hk : roundC (cfacFromPixelHSize ps * 2 ^ 16) ≠ 13642337 ∧ roundC (cfacFromPixelHSize ps * 2 ^ 16) ≠ 40927000) :
    pixelHSizeFromCFAC (cfacFromPixelHSize ps) = .ok ps ∧ pixelVSizeFromLFAC (lfacFromPixelVSize ps) = .ok ps := by
  suffices pixelHSizeFromCFAC (cfacFromPixelHSize ps) = .ok ps from ⟨this, this⟩
  obtain ⟨b1, b2⟩ := scale_bounds0 ps h1 h2
  have p0 : 0 < ps := by linarith
  have hR : 0 < roundC (cfacFromPixelHSize ps * 2 ^ 16) ∧ roundC (cfacFromPixelHSize ps * 2 ^ 16) < 2 ^ 31 := by
    clear hk
    generalize cfacFromPixelHSize ps * 2 ^ 16 = F at *
    obtain ⟨r1, r2⟩ := roundC_bounds F (by linarith)
    generalize roundC F = R at *
    constructor
    · have : (0 : ℝ) < R := by linarith
      exact_mod_cast this
    · have : (R : ℝ) < ((2000000001 : ℤ) : ℝ) := by push_cast; linarith
      have := Int.cast_lt.1 this
      omega
  obtain ⟨hR1, hR2⟩ := hR
  unfold pixelHSizeFromCFAC
  rw [toInt_int _ (by omega) hR2]
  simp only [Outcome.ok_bind]
  rw [if_neg hk.1, if_neg (by omega), if_neg hk.2, if_neg (by omega), cfac_unknown ps p0 hu]
  refine congrArg Outcome.ok ?_
  have hh := height_pos
  have hx : 0 < ps / ((orbitRadius - earthRadius) * 1000.0) := by positivity
  have ha : 0 < arctan (ps / ((orbitRadius - earthRadius) * 1000.0)) := by
    rw [← arctan_zero]; exact arctan_strictMono hx
  have e : π / 180.0 / (π / arctan (ps / ((orbitRadius - earthRadius) * 1000.0)) / 180.0) =
      arctan (ps / ((orbitRadius - earthRadius) * 1000.0)) := by
    generalize arctan (ps / ((orbitRadius - earthRadius) * 1000.0)) = y at *
    have hpi := pi_pos.ne'
    norm_num
    field_simp
  rw [e, tan_arctan, mul_right_comm, mul_div_cancel₀ _ hh.ne']

/-! ### What is wrong -/

/-- Pixel sizes: increment 3608 is read as the size of 3622, and is written as 3622. -/
theorem C71_violated_3608 : ∃ p, pixelHSizeFromSeviriDX 3608 = .ok p ∧ seviriDXFromPixelHSize p = .ok 3622 := by
  refine ⟨sizeX, ?_, dx_sizeX.1⟩
  unfold pixelHSizeFromSeviriDX
  rw [if_pos rfl]

/-- Pixel sizes: a grid increment above 570 thousand, which a GRIB message can contain, is converted to a factor that does not fit in an
integer: undefined behaviour. -/
theorem C71_violated_overflow (d : ℤ) (h : 571000 ≤ d) : pixelHSizeFromSeviriDX d = .ub ∧ pixelVSizeFromSeviriDY d = .ub := by
  suffices pixelHSizeFromSeviriDX d = .ub from ⟨this, this⟩
  unfold pixelHSizeFromSeviriDX
  rw [if_neg (by omega), if_neg (by omega)]
  unfold pixelHSizeFromCFAC
  obtain ⟨b1, _⟩ := factor_bounds d (by omega)
  have hd : (571000 : ℝ) ≤ d := by exact_mod_cast h
  generalize cfacFromSeviriDX d * 2 ^ 16 = F at *
  norm_num at b1
  obtain ⟨r1, r2⟩ := roundC_bounds F (by linarith)
  have hR : 2 ^ 31 ≤ roundC F := by
    have : ((2150000000 : ℤ) : ℝ) < ((roundC F : ℤ) : ℝ) := by push_cast; linarith
    have := Int.cast_lt.1 this
    omega
  have : toInt (roundC F : ℝ) = .ub := by
    unfold toInt
    simp only [Int.floor_intCast, Int.ceil_intCast, ite_self]
    rw [if_neg (by omega)]
  rw [this]
  rfl

/-- Pixel sizes: the size that the formula gives for the factor of the low resolution is not the known size; converted to a factor and
back it becomes the known size, three millimetres less. -/
theorem C71_violated_near : ∃ ps : ℝ, |ps - 3000.406| < 0.0005 ∧ cfacFromPixelHSize ps = 13642337 * (2 ^ 16)⁻¹ ∧
    pixelHSizeFromCFAC (cfacFromPixelHSize ps) = .ok 3000.40307617188 := by
  have p1 := pi_gt_d20
  have p2 := pi_lt_d20
  have hpi := pi_pos
  have t0 : 0 < π / 180 / (13642337 * (2 ^ 16)⁻¹) := by positivity
  have t1 : π / 180 / (13642337 * (2 ^ 16)⁻¹) ≤ 0.0001 := by
    rw [div_div, div_le_iff₀ (by positivity)]
    norm_num at p2 ⊢
    linarith
  have tl : 0.00008384333 < π / 180 / (13642337 * (2 ^ 16)⁻¹) := by
    rw [div_div, lt_div_iff₀ (by positivity)]
    norm_num at p1 ⊢
    linarith
  have tu : π / 180 / (13642337 * (2 ^ 16)⁻¹) < 0.00008384334 := by
    rw [div_div, div_lt_iff₀ (by positivity)]
    norm_num at p2 ⊢
    linarith
  generalize ht : π / 180 / (13642337 * (2 ^ 16)⁻¹) = t at *
  have hl := lt_tan t0 (by norm_num at t1; linarith [pi_gt_three])
  have hu := tan_upper t t0 (by norm_num at t1; linarith)
  have hu2 : t / (1 - t ^ 2 / 2) ≤ t * 1.00000001 := by
    have hsq : t ^ 2 ≤ 0.00000001 := by norm_num at t1 ⊢; nlinarith
    rw [div_le_iff₀ (by norm_num at hsq ⊢; linarith)]
    norm_num at hsq ⊢
    nlinarith
  have hb : |35785863 * tan t - 3000.406| < 0.0005 := by
    rw [abs_lt]
    norm_num at *
    constructor <;> linarith
  have hb' := abs_lt.1 hb
  have hun : Unknown (35785863 * tan t) := by
    constructor
    · refine le_trans ?_ (le_abs_self _); unfold sizeX; norm_num at *; linarith
    · refine le_trans ?_ (le_abs_self _); unfold sizeXHrv; norm_num at *; linarith
  have hc : cfacFromPixelHSize (35785863 * tan t) = 13642337 * (2 ^ 16)⁻¹ := by
    rw [cfac_unknown _ (by norm_num at *; linarith) hun]
    have e : 35785863 * tan t / ((orbitRadius - earthRadius) * 1000.0) = tan t := by
      unfold orbitRadius earthRadius
      norm_num
    rw [e, arctan_tan (by linarith [pi_gt_three]) (by norm_num at t1; linarith [pi_gt_three]), ← ht]
    norm_num
    field_simp
  refine ⟨35785863 * tan t, hb, hc, ?_⟩
  rw [hc]
  exact pixelH_sizeX

/-- Hypotheses are met. -/
example : (0 : ℤ) < 10867 ∧ (10867 : ℤ) ≤ 500000 ∧ (10867 : ℤ) ≠ 3608 ∧ Unknown (gridSize 10867) :=
  ⟨by norm_num, by norm_num, by norm_num, gridSize_unknown 10867 (by norm_num)⟩

end Msat.Props
