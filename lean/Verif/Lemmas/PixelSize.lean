import Mathlib.Analysis.Real.Pi.Bounds
import Mathlib.Analysis.SpecialFunctions.Trigonometric.Bounds
import Mathlib.Analysis.SpecialFunctions.Trigonometric.ArctanDeriv
import Mathlib.Tactic.NormNum
import Mathlib.Tactic.Linarith
import Mathlib.Tactic.FieldSimp
import Mathlib.Tactic.Ring
import Verif.Model.PixelSize

/-
Lemmas about pixel sizes.
-/
namespace Msat.PixelSize
open Msat Real

theorem toInt_int (n : ℤ) (h1 : -2 ^ 31 ≤ n) (h2 : n < 2 ^ 31) : toInt (n : ℝ) = .ok n := by
  unfold toInt
  simp only [Int.floor_intCast, Int.ceil_intCast, ite_self]
  rw [if_pos ⟨h1, h2⟩]

theorem toInt_pos (x : ℝ) (h0 : 0 ≤ x) (h : x < 2 ^ 31) : toInt x = .ok ⌊x⌋ := by
  unfold toInt
  simp only [if_pos h0]
  rw [if_pos]
  constructor
  · have := Int.floor_nonneg.2 h0
    omega
  · rw [Int.floor_lt]
    norm_num at h ⊢
    exact h

theorem roundC_int (n : ℤ) : roundC (n : ℝ) = n := by
  unfold roundC
  split
  · rw [Int.floor_eq_iff]; constructor <;> linarith
  · rw [Int.ceil_eq_iff]; constructor <;> linarith

theorem nearbyint_int (n : ℤ) : nearbyint (n : ℝ) = n := by
  unfold nearbyint
  rw [if_pos (by simp), Int.floor_intCast]

/-- Pixel size for a factor that is stored as a whole number. -/
theorem pixelH_int (n : ℤ) (h1 : -2 ^ 31 ≤ n) (h2 : n < 2 ^ 31) :
    pixelHSizeFromCFAC ((n : ℝ) * (2 ^ 16)⁻¹) = .ok (
      if n = 13642337 then sizeX else if n = -13642337 then -sizeX else if n = 40927000 then sizeXHrv
      else if n = -40927000 then -sizeXHrv else (orbitRadius - earthRadius) * tan (π / 180.0 / ((n : ℝ) * (2 ^ 16)⁻¹)) * 1000.0) := by
  unfold pixelHSizeFromCFAC
  rw [show (n : ℝ) * (2 ^ 16)⁻¹ * 2 ^ 16 = n by field_simp, roundC_int, toInt_int n h1 h2]
  simp only [Outcome.ok_bind]
  split_ifs <;> rfl

theorem pixelV_eq_pixelH (x : ℝ) : pixelVSizeFromLFAC x = pixelHSizeFromCFAC x := rfl

theorem lfac_eq_cfac (x : ℝ) : lfacFromPixelVSize x = cfacFromPixelHSize x := rfl

theorem seviriDY_eq_seviriDX (x : ℝ) : seviriDYFromPixelVSize x = seviriDXFromPixelHSize x := rfl

theorem pixelV_eq_pixelH_seviri (x : ℤ) : pixelVSizeFromSeviriDY x = pixelHSizeFromSeviriDX x := rfl

/-- `(orbitRadius - earthRadius) * 1000` -/
theorem height_pos : 0 < (orbitRadius - earthRadius) * 1000.0 := by
  unfold orbitRadius earthRadius; norm_num

theorem cfac_sizeX : cfacFromPixelHSize sizeX = 13642337 * (2 ^ 16)⁻¹ := by
  unfold cfacFromPixelHSize
  rw [if_pos (by rw [sub_self, abs_zero]; norm_num)]

theorem cfac_sizeXHrv : cfacFromPixelHSize sizeXHrv = 40927000 * (2 ^ 16)⁻¹ := by
  unfold cfacFromPixelHSize
  rw [if_neg, if_neg, if_pos (by rw [sub_self, abs_zero]; norm_num)]
  · unfold sizeXHrv sizeX; rw [abs_of_pos] <;> norm_num
  · unfold sizeXHrv sizeX; rw [abs_of_neg] <;> norm_num

theorem pixelH_sizeX : pixelHSizeFromCFAC (13642337 * (2 ^ 16)⁻¹) = .ok sizeX := by
  have := pixelH_int 13642337 (by norm_num) (by norm_num)
  push_cast at this
  rw [this]

theorem pixelH_sizeXHrv : pixelHSizeFromCFAC (40927000 * (2 ^ 16)⁻¹) = .ok sizeXHrv := by
  have := pixelH_int 40927000 (by norm_num) (by norm_num)
  push_cast at this
  rw [this]

/-- Pixel sizes that are not near a known one. -/
def Unknown (ps : ℝ) : Prop := 0.001 ≤ |ps - sizeX| ∧ 0.001 ≤ |ps - sizeXHrv|

theorem cfac_unknown (ps : ℝ) (h0 : 0 < ps) (h : Unknown ps) :
    cfacFromPixelHSize ps = π / arctan (ps / ((orbitRadius - earthRadius) * 1000.0)) / 180.0 := by
  unfold cfacFromPixelHSize
  rw [if_neg (not_lt.2 h.1), if_neg, if_neg (not_lt.2 h.2), if_neg]
  · unfold sizeXHrv; rw [abs_of_pos] <;> norm_num <;> linarith
  · unfold sizeX; rw [abs_of_pos] <;> norm_num <;> linarith

theorem arctan_lower (x : ℝ) (h0 : 0 < x) : x * (1 - x ^ 2 / 2) ≤ arctan x := by
  have hy0 : 0 < arctan x := by rw [← arctan_zero]; exact arctan_strictMono h0
  have hy2 : arctan x < π / 2 := arctan_lt_pi_div_two x
  have ht : tan (arctan x) = x := tan_arctan x
  have hle : arctan x < x := by
    conv_rhs => rw [← ht]
    exact lt_tan hy0 hy2
  have hc : 0 < cos (arctan x) := cos_arctan_pos x
  have hs : sin (arctan x) ≤ arctan x := sin_le hy0.le
  have hxs : x * cos (arctan x) = sin (arctan x) := by
    rw [tan_eq_sin_div_cos, div_eq_iff hc.ne'] at ht
    exact ht.symm
  have hcl : 1 - (arctan x) ^ 2 / 2 ≤ cos (arctan x) := one_sub_sq_div_two_le_cos
  have : (arctan x) ^ 2 ≤ x ^ 2 := by nlinarith
  calc x * (1 - x ^ 2 / 2) ≤ x * cos (arctan x) := by
        apply mul_le_mul_of_nonneg_left _ h0.le
        linarith
    _ = sin (arctan x) := hxs
    _ ≤ arctan x := hs

theorem arctan_upper (x : ℝ) (h0 : 0 < x) : arctan x < x := by
  have hy0 : 0 < arctan x := by rw [← arctan_zero]; exact arctan_strictMono h0
  conv_rhs => rw [← tan_arctan x]
  exact lt_tan hy0 (arctan_lt_pi_div_two x)

/-! ### The angle at which the earth is seen -/

theorem triple_le {s S : ℝ} (h0 : 0 ≤ s) (h : s ≤ S) (h1 : S ≤ 1 / 2) : 3 * s - 4 * s ^ 3 ≤ 3 * S - 4 * S ^ 3 := by
  nlinarith [mul_nonneg h0 (le_trans h0 h), mul_nonneg (sub_nonneg.2 h) (mul_nonneg h0 (le_trans h0 h)),
    mul_nonneg (sub_nonneg.2 h) (mul_nonneg h0 h0), mul_nonneg (sub_nonneg.2 h) (mul_nonneg (le_trans h0 h) (le_trans h0 h)),
    mul_nonneg (sub_nonneg.2 h) (sub_nonneg.2 h1), mul_nonneg (mul_nonneg (sub_nonneg.2 h) (sub_nonneg.2 h1)) h0,
    mul_nonneg (mul_nonneg (sub_nonneg.2 h) (sub_nonneg.2 h1)) (le_trans h0 h)]

/-- Bounds of the sine of nine times an angle. -/
theorem sin_nine_le (y S T : ℝ) (y0 : 0 ≤ y) (y1 : y ≤ 1 / 10) (hS : y - y ^ 3 / 6 + y ^ 5 / 100 ≤ S) (hS1 : S ≤ 1 / 2)
    (hT : 3 * S - 4 * S ^ 3 ≤ T) (hT1 : T ≤ 1 / 2) : sin (9 * y) ≤ 3 * T - 4 * T ^ 3 := by
  have hp : y < π / 3 := by linarith [pi_gt_three]
  have b := sin_bound (x := y) (by rw [abs_of_nonneg y0]; linarith)
  rw [abs_of_nonneg y0, abs_le] at b
  have s0 : 0 ≤ sin y := sin_nonneg_of_nonneg_of_le_pi y0 (by linarith [pi_gt_three])
  have s1 : sin y ≤ S := by linarith [b.2]
  have t0 : 0 ≤ sin (3 * y) := sin_nonneg_of_nonneg_of_le_pi (by linarith) (by linarith [pi_gt_three])
  have t1 : sin (3 * y) ≤ T := by
    rw [sin_three_mul]
    exact le_trans (triple_le s0 s1 hS1) hT
  rw [show 9 * y = 3 * (3 * y) by ring, sin_three_mul (3 * y)]
  exact triple_le t0 t1 hT1

theorem le_sin_nine (y S T : ℝ) (y0 : 0 ≤ y) (y1 : y ≤ 1 / 10) (hS : S ≤ y - y ^ 3 / 6 - y ^ 5 / 100) (hS0 : 0 ≤ S)
    (hT : T ≤ 3 * S - 4 * S ^ 3) (hT0 : 0 ≤ T) : 3 * T - 4 * T ^ 3 ≤ sin (9 * y) := by
  have hp : y < π / 3 := by linarith [pi_gt_three]
  have b := sin_bound (x := y) (by rw [abs_of_nonneg y0]; linarith)
  rw [abs_of_nonneg y0, abs_le] at b
  have s0 : sin y ≤ 1 / 2 := le_trans (sin_le y0) (by linarith)
  have s1 : S ≤ sin y := by linarith [b.1]
  have t0 : sin (3 * y) ≤ 1 / 2 := le_trans (sin_le (by linarith)) (by linarith)
  have t1 : T ≤ sin (3 * y) := by
    rw [sin_three_mul]
    exact le_trans hT (triple_le hS0 s1 s0)
  rw [show 9 * y = 3 * (3 * y) by ring, sin_three_mul (3 * y)]
  exact triple_le hT0 t1 t0

theorem arcsin_bounds : 0.15185265 < arcsin (earthRadius / orbitRadius) ∧ arcsin (earthRadius / orbitRadius) < 0.15185267 := by
  have p := pi_gt_three
  constructor
  · rw [lt_arcsin_iff_sin_lt (by constructor <;> norm_num <;> linarith) (by unfold earthRadius orbitRadius; constructor <;> norm_num)]
    have := sin_nine_le (0.15185265 / 9) 0.016871716131 0.050595937933 (by norm_num) (by norm_num) (by norm_num) (by norm_num) (by norm_num)
      (by norm_num)
    rw [show (9 : ℝ) * (0.15185265 / 9) = 0.15185265 by norm_num] at this
    refine lt_of_le_of_lt this ?_
    unfold earthRadius orbitRadius
    norm_num
  · rw [arcsin_lt_iff_lt_sin (by unfold earthRadius orbitRadius; constructor <;> norm_num) (by constructor <;> norm_num <;> linarith)]
    have := le_sin_nine (0.15185267 / 9) 0.016871718325 0.050595944507 (by norm_num) (by norm_num) (by norm_num) (by norm_num) (by norm_num)
      (by norm_num)
    rw [show (9 : ℝ) * (0.15185267 / 9) = 0.15185267 by norm_num] at this
    refine lt_of_lt_of_le ?_ this
    unfold earthRadius orbitRadius
    norm_num

theorem tan_upper (t : ℝ) (h0 : 0 < t) (h1 : t ≤ 1) : tan t ≤ t / (1 - t ^ 2 / 2) := by
  have hc : 1 - t ^ 2 / 2 ≤ cos t := one_sub_sq_div_two_le_cos
  have hp : 0 < 1 - t ^ 2 / 2 := by nlinarith
  rw [tan_eq_sin_div_cos]
  exact div_le_div₀ h0.le (sin_le h0.le) hp hc

/-- The size of pixels for a grid increment, from the formula. -/
noncomputable def gridSize (dx : ℤ) : ℝ := 35785863 * tan (2 * arcsin (earthRadius / orbitRadius) / dx)

theorem formula_dx (dx : ℤ) (h : 0 < dx) :
    (orbitRadius - earthRadius) * tan (π / 180.0 / cfacFromSeviriDX dx) * 1000.0 = gridSize dx := by
  have hd : (0 : ℝ) < dx := by exact_mod_cast h
  have ha := arcsin_bounds.1
  have hp := pi_pos
  have e : π / 180.0 / cfacFromSeviriDX dx = 2 * arcsin (earthRadius / orbitRadius) / dx := by
    unfold cfacFromSeviriDX
    have : 0 < arcsin (earthRadius / orbitRadius) := by norm_num at ha; linarith
    generalize arcsin (earthRadius / orbitRadius) = a at *
    field_simp
    norm_num
  rw [e]
  unfold gridSize
  rw [mul_right_comm]
  congr 1
  unfold orbitRadius earthRadius
  norm_num

/-- Bounds for the formula: the angle is nearly its tangent. -/
theorem gridSize_lower (dx : ℤ) (h : 0 < dx) : 35785863 * (2 * 0.15185265 / dx) < gridSize dx := by
  have hd : (1 : ℝ) ≤ dx := by exact_mod_cast h
  obtain ⟨a1, a2⟩ := arcsin_bounds
  unfold gridSize
  generalize arcsin (earthRadius / orbitRadius) = a at *
  norm_num at a1 a2
  have t0 : 0 < 2 * a / dx := by have : 0 < a := by linarith
                                 positivity
  have t1 : 2 * a / dx ≤ 1 := by rw [div_le_iff₀ (by linarith)]; linarith
  have := lt_tan t0 (by linarith [pi_gt_three])
  have : 2 * 0.15185265 / (dx : ℝ) ≤ 2 * a / dx := by
    apply div_le_div_of_nonneg_right _ (by linarith)
    norm_num; linarith
  linarith

theorem gridSize_upper (dx : ℤ) (h : 1000 ≤ dx) : gridSize dx < 35785863 * (2 * 0.15185267 / dx) * 1.0000001 := by
  have hd : (1000 : ℝ) ≤ dx := by exact_mod_cast h
  obtain ⟨a1, a2⟩ := arcsin_bounds
  unfold gridSize
  generalize arcsin (earthRadius / orbitRadius) = a at *
  norm_num at a1 a2
  have t0 : 0 < 2 * a / dx := by have : 0 < a := by linarith
                                 positivity
  have t1 : 2 * a / dx ≤ 0.0004 := by rw [div_le_iff₀ (by linarith)]; norm_num; linarith
  have t2 : 2 * a / dx < 2 * 0.15185267 / dx := by
    apply div_lt_div_of_pos_right _ (by linarith)
    norm_num; linarith
  have := tan_upper _ t0 (by norm_num at t1 ⊢; linarith)
  generalize 2 * a / dx = t at *
  generalize 2 * 0.15185267 / (dx : ℝ) = u at *
  have hsq : t ^ 2 ≤ 0.00000016 := by norm_num at t1 ⊢; nlinarith
  have : t / (1 - t ^ 2 / 2) ≤ t * 1.0000001 := by
    rw [div_le_iff₀ (by norm_num at hsq ⊢; linarith)]
    norm_num at hsq ⊢
    nlinarith
  norm_num at *
  linarith

/-- The scale factor for a grid increment. -/
theorem factor_bounds (dx : ℤ) (h : 0 < dx) :
    3766.21 * dx < cfacFromSeviriDX dx * 2 ^ 16 ∧ cfacFromSeviriDX dx * 2 ^ 16 < 3766.215 * dx := by
  have hd : (0 : ℝ) < dx := by exact_mod_cast h
  obtain ⟨a1, a2⟩ := arcsin_bounds
  unfold cfacFromSeviriDX
  generalize arcsin (earthRadius / orbitRadius) = a at *
  have p1 := pi_gt_d6
  have p2 := pi_lt_d6
  have e : (dx : ℝ) * π / (a * 360) * 2 ^ 16 = dx * (π * 65536) / (a * 360) := by ring
  norm_num at a1 a2 p1 p2
  rw [e]
  constructor
  · rw [lt_div_iff₀ (by linarith)]
    norm_num
    nlinarith
  · rw [div_lt_iff₀ (by linarith)]
    norm_num
    nlinarith

theorem roundC_bounds (x : ℝ) (h : 0 ≤ x) : (roundC x : ℝ) ≤ x + 1 / 2 ∧ x - 1 / 2 < roundC x := by
  unfold roundC
  rw [if_pos h]
  constructor
  · exact Int.floor_le _
  · have := Int.lt_floor_add_one (x + 1 / 2)
    linarith

theorem pixelH_seviri (dx : ℤ) (h1 : 0 < dx) (h2 : dx ≤ 500000) (h3 : dx ≠ 3608) (h4 : dx ≠ 3622) :
    pixelHSizeFromSeviriDX dx = .ok (gridSize dx) := by
  unfold pixelHSizeFromSeviriDX
  rw [if_neg h3, if_neg h4]
  unfold pixelHSizeFromCFAC
  obtain ⟨b1, b2⟩ := factor_bounds dx h1
  have hd : (1 : ℝ) ≤ dx := by exact_mod_cast h1
  have hd2 : (dx : ℝ) ≤ 500000 := by exact_mod_cast h2
  generalize cfacFromSeviriDX dx * 2 ^ 16 = F at *
  norm_num at b1 b2
  obtain ⟨r1, r2⟩ := roundC_bounds F (by linarith)
  generalize roundC F = R at *
  have hr : (3766209 * dx - 1000 : ℤ) < 1000 * R ∧ 2000 * R < 7532431 * dx + 2000 := by
    constructor
    · have : (3766209 * dx - 1000 : ℝ) < 1000 * R := by linarith
      exact_mod_cast this
    · have : (2000 * R : ℝ) < 7532431 * dx + 2000 := by linarith
      exact_mod_cast this
  rw [toInt_int R (by omega) (by omega)]
  simp only [Outcome.ok_bind]
  rw [if_neg (by omega), if_neg (by omega), if_neg (by omega), if_neg (by omega), formula_dx dx h1]
  rfl

/-- The size of pixels for a grid increment is not near a known one. -/
theorem gridSize_unknown (dx : ℤ) (h1 : 0 < dx) : Unknown (gridSize dx) := by
  have hd : (0 : ℝ) < dx := by exact_mod_cast h1
  have key : ∀ (k : ℤ) (s : ℝ), 1000 ≤ k → s + 0.001 ≤ 35785863 * (2 * 0.15185265 / k) →
      35785863 * (2 * 0.15185267 / ((k : ℝ) + 1)) * 1.0000001 ≤ s - 0.001 → 0.001 ≤ |gridSize dx - s| := by
    intro k s k1 hl hu
    have hk : (1000 : ℝ) ≤ k := by exact_mod_cast k1
    by_cases h : dx ≤ k
    · have hc : (dx : ℝ) ≤ k := by exact_mod_cast h
      have := gridSize_lower dx h1
      have e : (2 * 0.15185265 / (k : ℝ)) ≤ 2 * 0.15185265 / dx := by
        apply div_le_div_of_nonneg_left _ hd hc
        norm_num
      refine le_trans ?_ (le_abs_self _)
      linarith
    · have hc : (k : ℝ) + 1 ≤ dx := by exact_mod_cast (by omega : k + 1 ≤ dx)
      have := gridSize_upper dx (by omega)
      have e : (2 * 0.15185267 / (dx : ℝ)) ≤ 2 * 0.15185267 / ((k : ℝ) + 1) := by
        apply div_le_div_of_nonneg_left _ (by linarith) hc
        norm_num
      refine le_trans ?_ (neg_le_abs _)
      norm_num at *
      linarith
  constructor
  · apply key 3622 _ (by norm_num) <;> unfold sizeX <;> norm_num
  · apply key 10866 _ (by norm_num) <;> unfold sizeXHrv <;> norm_num

theorem gridSize_pos (dx : ℤ) (h1 : 0 < dx) : 0 < gridSize dx := by
  have hd : (0 : ℝ) < dx := by exact_mod_cast h1
  refine lt_trans ?_ (gridSize_lower dx h1)
  positivity

/-- And back. -/
theorem cfac_gridSize (dx : ℤ) (h1 : 0 < dx) : cfacFromPixelHSize (gridSize dx) = cfacFromSeviriDX dx := by
  have hd : (1 : ℝ) ≤ dx := by exact_mod_cast h1
  rw [cfac_unknown _ (gridSize_pos dx h1) (gridSize_unknown dx h1)]
  obtain ⟨a1, a2⟩ := arcsin_bounds
  unfold gridSize cfacFromSeviriDX
  generalize arcsin (earthRadius / orbitRadius) = a at *
  norm_num at a1 a2
  have e : 35785863 * tan (2 * a / dx) / ((orbitRadius - earthRadius) * 1000.0) = tan (2 * a / dx) := by
    unfold orbitRadius earthRadius
    norm_num
  have t0 : 0 < 2 * a / dx := by have : 0 < a := by linarith
                                 positivity
  have t1 : 2 * a / dx ≤ 1 := by rw [div_le_iff₀ (by linarith)]; linarith
  rw [e, arctan_tan (by linarith [pi_gt_three]) (by linarith [pi_gt_three])]
  have : 0 < a := by linarith
  field_simp
  norm_num

theorem dx_cfac (dx : ℤ) (h1 : -2 ^ 31 ≤ dx) (h2 : dx < 2 ^ 31) : seviriDXFromCFAC (cfacFromSeviriDX dx) = .ok dx := by
  obtain ⟨a1, a2⟩ := arcsin_bounds
  unfold seviriDXFromCFAC cfacFromSeviriDX
  generalize arcsin (earthRadius / orbitRadius) = a at *
  norm_num at a1
  have ha : 0 < a := by linarith
  have hp := pi_pos
  have e : a * ((dx : ℝ) * π / (a * 360)) * 360 / π = dx := by field_simp
  rw [e, roundC_int, toInt_int dx h1 h2]

theorem dx_hrv : seviriDXFromPixelHSize sizeXHrv = .ok 10867 := by
  unfold seviriDXFromPixelHSize
  rw [if_neg, cfac_sizeXHrv]
  · obtain ⟨a1, a2⟩ := arcsin_bounds
    unfold seviriDXFromCFAC
    generalize arcsin (earthRadius / orbitRadius) = a at *
    have p1 := pi_gt_d6
    have p2 := pi_lt_d6
    norm_num at a1 a2 p1 p2
    have e : roundC (a * (40927000 * (2 ^ 16)⁻¹) * 360 / π) = 10867 := by
      unfold roundC
      rw [if_pos (by have : 0 < a := by linarith
                     positivity), Int.floor_eq_iff]
      have hp := pi_pos
      constructor
      · rw [← sub_le_iff_le_add, le_div_iff₀ hp]
        norm_num
        linarith
      · rw [← lt_sub_iff_add_lt, div_lt_iff₀ hp]
        norm_num
        linarith
    rw [e, toInt_int _ (by norm_num) (by norm_num)]
  · unfold sizeXHrv sizeX; rw [abs_of_neg] <;> norm_num

theorem hrv_size : 1000.124 < gridSize 10867 ∧ gridSize 10867 < 1000.126 := by
  have h1 := gridSize_lower 10867 (by norm_num)
  have h2 := gridSize_upper 10867 (by norm_num)
  norm_num at *
  constructor <;> linarith

end Msat.PixelSize
