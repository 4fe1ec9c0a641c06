import Verif.Model.Radiance
import Mathlib.Tactic.NormNum
import Mathlib.Tactic.Linarith
import Mathlib.Tactic.FieldSimp
import Mathlib.Tactic.Ring

/-
C96: from the scan angle to the zenith angle, and from radiance to reflectance.
-/
namespace Msat.Props
open Msat Radiance Real

/-- The triangle of the centre of the earth, a point on its surface (a sphere with the radius of 6357 km) and a satellite
`height` km above it: `scan` is the angle in the satellite between the centre and the point, `gamma` the angle in the centre,
`distance` that from the satellite to the point, so that `scan + gamma` is the angle between the vertical in the point and the
direction of the satellite. -/
structure Triangle (height scan gamma distance : ℝ) : Prop where
  across : distance * sin scan = 6357 * sin gamma
  along : distance * cos scan = 6357 + height - 6357 * cos gamma

/-- The angle is that between the vertical in the point that the satellite sees and the direction of the satellite. -/
theorem C96_zenith (height scan gamma distance : ℝ) (h : Triangle height scan gamma distance) (h0 : 0 ≤ scan + gamma)
    (h1 : scan + gamma ≤ π / 2) : scan2zen scan height = some (scan + gamma) := by
  have hs : 6357 * sin (scan + gamma) = sin scan * (6357 + height) := by
    rw [sin_add]
    have e := h.along
    have a := h.across
    calc 6357 * (sin scan * cos gamma + cos scan * sin gamma)
        = sin scan * (6357 * cos gamma) + cos scan * (6357 * sin gamma) := by ring
      _ = sin scan * (6357 * cos gamma) + cos scan * (distance * sin scan) := by rw [a]
      _ = sin scan * (6357 * cos gamma + distance * cos scan) := by ring
      _ = sin scan * (6357 + height) := by rw [e]; ring
  have ht : (6357.0 + height) * (sin scan / 6357.0) = sin (scan + gamma) := by
    have : (6357 : ℝ) ≠ 0 := by norm_num
    rw [show (6357.0 : ℝ) = 6357 by norm_num]
    field_simp
    linarith
  have hle := sin_le_one (scan + gamma)
  have hge := neg_one_le_sin (scan + gamma)
  unfold scan2zen
  simp only [ht]
  rw [if_neg (show ¬ sin (scan + gamma) > 1.0 by norm_num; exact hle), if_neg (not_lt.mpr hge), arcsin_sin (by linarith [pi_pos]) h1]

/-- It is never beyond the horizon, and out of the disk it is the horizon. -/
theorem C96_horizon (scan height : ℝ) : (∀ z, scan2zen scan height = some z → z ≤ π / 2) ∧
    (6357 < (6357 + height) * sin scan → scan2zen scan height = some (π / 2)) := by
  constructor
  · intro z hz
    unfold scan2zen at hz
    simp only at hz
    by_cases hn : (if (6357.0 + height) * (sin scan / 6357.0) > 1.0 then 1.0 else (6357.0 + height) * (sin scan / 6357.0)) < -1
    · rw [if_pos hn] at hz; cases hz
    · rw [if_neg hn] at hz
      cases hz
      exact arcsin_le_pi_div_two _
  · intro h
    have ht : (6357.0 + height) * (sin scan / 6357.0) > 1.0 := by
      rw [show (6357.0 : ℝ) = 6357 by norm_num, show (1.0 : ℝ) = 1 by norm_num, gt_iff_lt, mul_div_assoc', lt_div_iff₀ (by norm_num)]
      linarith
    unfold scan2zen
    simp only
    rw [if_pos ht, if_neg (by norm_num), show (1.0 : ℝ) = 1 by norm_num, arcsin_one]

/-- Larger scan angles have larger zenith angles. -/
theorem C96_monotone (height : ℝ) (hh : 0 ≤ height) (a b : ℝ) (ha : 0 ≤ a) (hab : a ≤ b) (hb : b ≤ π / 2) :
    ∃ za zb, scan2zen a height = some za ∧ scan2zen b height = some zb ∧ 0 ≤ za ∧ za ≤ zb := by
  have hsa : 0 ≤ sin a := sin_nonneg_of_nonneg_of_le_pi ha (by linarith [pi_pos])
  have hs : sin a ≤ sin b := sin_le_sin_of_le_of_le_pi_div_two (by linarith [pi_pos]) hb hab
  have e1 : 0 ≤ (6357.0 + height) * (sin a / 6357.0) := mul_nonneg (by norm_num; linarith) (div_nonneg hsa (by norm_num))
  have e2 : (6357.0 + height) * (sin a / 6357.0) ≤ (6357.0 + height) * (sin b / 6357.0) := by
    apply mul_le_mul_of_nonneg_left _ (by norm_num; linarith)
    exact div_le_div_of_nonneg_right hs (by norm_num)
  have f : ∀ t : ℝ, 0 ≤ t → 0 ≤ (if t > 1.0 then 1.0 else t) := by
    intro t ht
    split
    · norm_num
    · exact ht
  have g : (if (6357.0 + height) * (sin a / 6357.0) > 1.0 then (1.0 : ℝ) else (6357.0 + height) * (sin a / 6357.0)) ≤
      (if (6357.0 + height) * (sin b / 6357.0) > 1.0 then 1.0 else (6357.0 + height) * (sin b / 6357.0)) := by
    split
    · rw [if_pos (by linarith)]
    · split
      · linarith
      · exact e2
  refine ⟨_, _, ?_, ?_, ?_, arcsin_le_arcsin g⟩
  · unfold scan2zen
    simp only
    rw [if_neg (by have := f _ e1; linarith)]
  · unfold scan2zen
    simp only
    rw [if_neg (by have := f _ (le_trans e1 e2); linarith)]
  · exact arcsin_nonneg.2 (f _ e1)

/-- There is no channel for which radiances are converted: of the four tests on the channel number one is always true, and
the program ends. -/
theorem C96_violated_reflectance (chnum : Int) (radiance : ℝ) (year month day : Int) (cosSza : ℝ) :
    radianceToReflectance chnum radiance year month day cosSza = .terminate := by
  unfold radianceToReflectance
  rw [if_pos (by omega)]

/-- A satellite above the point it sees, and one as high as the radius of the earth that sees the horizon at 30 degrees. -/
example : Triangle 35800 0 0 35800 ∧ Triangle 6357 (π / 6) (π / 3) (6357 * √3) := by
  refine ⟨⟨by simp, by simp⟩, ⟨?_, ?_⟩⟩
  · rw [sin_pi_div_six, sin_pi_div_three]; ring
  · rw [cos_pi_div_six, cos_pi_div_three]
    have : √3 * √3 = (3 : ℝ) := mul_self_sqrt (by norm_num)
    linear_combination (6357 / 2) * this
example : (0 : ℝ) ≤ π / 6 + π / 3 ∧ π / 6 + π / 3 ≤ π / 2 := by constructor <;> linarith [pi_pos]

end Msat.Props
