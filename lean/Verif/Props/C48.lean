import Verif.Model.Solar
import Verif.Spec.Solar
import Mathlib.Tactic.Linarith
import Mathlib.Tactic.NormNum
import Mathlib.Tactic.Positivity
import Mathlib.Tactic.FieldSimp
import Mathlib.Analysis.Real.Pi.Bounds

/-
C48 Reflectances are percentages.
C68 Position of the sun.
C69 Position of the satellite.
-/
namespace Msat.Props
open Msat Solar SolarSpec Real

theorem normalise_range (tiny hi : ℝ) (h : 0 ≤ hi) (x : Fp) : 0 ≤ normalise tiny hi x ∧ normalise tiny hi x ≤ hi := by
  cases x with
  | nan => exact ⟨le_refl _, h⟩
  | inf neg => cases neg <;> exact ⟨by first | exact le_refl _ | exact h, by first | exact le_refl _ | exact h⟩
  | fin r =>
    show 0 ≤ (if |r| < tiny then 0 else if r < 0 then 0 else if hi < r then hi else r) ∧ (if |r| < tiny then 0 else if r < 0 then 0 else if hi < r then hi else r) ≤ hi
    split
    · exact ⟨le_refl _, h⟩
    · split
      · exact ⟨le_refl _, h⟩
      · split
        · exact ⟨h, le_refl _⟩
        · exact ⟨by linarith, by linarith⟩

theorem normalise_fin (tiny hi r : ℝ) : normalise tiny hi (.fin r) =
    if |r| < tiny then 0 else if r < 0 then 0 else if hi < r then hi else r := rfl

theorem normalise_mono (tiny hi : ℝ) (h : 0 ≤ hi) {a b : ℝ} (hab : a ≤ b) :
    normalise tiny hi (.fin a) ≤ normalise tiny hi (.fin b) := by
  have hr := normalise_range tiny hi h (.fin b)
  have ha := normalise_range tiny hi h (.fin a)
  by_cases c1 : |a| < tiny
  · rw [show normalise tiny hi (.fin a) = 0 by rw [normalise_fin, if_pos c1]]
    exact hr.1
  by_cases c2 : a < 0
  · rw [show normalise tiny hi (.fin a) = 0 by rw [normalise_fin, if_neg c1, if_pos c2]]
    exact hr.1
  have c3 : ¬ |b| < tiny := by
    rw [abs_of_nonneg (by linarith)] at c1
    rw [abs_of_nonneg (by linarith)]
    linarith
  have c4 : ¬ b < 0 := by linarith
  by_cases c5 : hi < b
  · rw [show normalise tiny hi (.fin b) = hi by rw [normalise_fin, if_neg c3, if_neg c4, if_pos c5]]
    exact ha.2
  · have c6 : ¬ hi < a := by linarith
    rw [normalise_fin, normalise_fin, if_neg c1, if_neg c2, if_neg c3, if_neg c4, if_neg c5, if_neg c6]
    exact hab

/-! ## C48 -/

/-- The reflectance of a pixel of channels VIS 0.6, VIS 0.8, IR 1.6 and HRV is between 0 and 100, whatever the radiance,
the day, the time and the position, or lack of one. -/
theorem C48_single (t : ℝ) (jday : ℤ) (daytime raw slope offset : ℝ) (pos : Option (ℝ × ℝ)) :
    0 ≤ singlePixel t jday daytime raw slope offset pos ∧ singlePixel t jday daytime raw slope offset pos ≤ 100 :=
  normalise_range _ _ (by norm_num) _

/-- The same for channel IR 3.9, also when the machine computes infinities or NaN. -/
theorem C48_39 (other : Fp) (jday : ℤ) (daytime bt039 bt108 bt134 : ℝ) (pos : Option (ℝ × ℝ)) :
    0 ≤ pixel39 other jday daytime bt039 bt108 bt134 pos ∧ pixel39 other jday daytime bt039 bt108 bt134 pos ≤ 100 :=
  normalise_range _ _ (by norm_num) _

/-- Pixels in space have the missing value 0. -/
theorem C48_space (t : ℝ) (other : Fp) (jday : ℤ) (daytime raw slope offset bt039 bt108 bt134 : ℝ) :
    singlePixel t jday daytime raw slope offset none = 0 ∧ pixel39 other jday daytime bt039 bt108 bt134 none = 0 :=
  ⟨rfl, rfl⟩

/-- The distance from the sun is within 1.67 percent of the mean. -/
theorem C48_distance (jday : ℤ) : 0.9833 ≤ esd jday ∧ esd jday ≤ 1.0167 := by
  have h1 := neg_one_le_cos (2.0 * π * ((jday - 3 : ℤ) : ℝ) / 365.0)
  have h2 := cos_le_one (2.0 * π * ((jday - 3 : ℤ) : ℝ) / 365.0)
  unfold esd
  constructor <;> norm_num at * <;> linarith

/-- The earth is nearest to the sun on the third of January. -/
theorem C48_perihelion (jday : ℤ) : esd 3 = 0.9833 ∧ esd 3 ≤ esd jday := by
  have h3 : esd 3 = 0.9833 := by
    unfold esd
    norm_num
  refine ⟨h3, ?_⟩
  rw [h3]
  exact (C48_distance jday).1

/-- Solar irradiance, divided by π, of the channels for which reflectances are computed. -/
noncomputable def irradiance : Int → Option ℝ
  | 1 => some 20.76
  | 2 => some 23.24
  | 3 => some 19.85
  | 12 => some 25.11
  | _ => none

/-- Only the four channels are accepted. -/
theorem C48_channels (channel : Int) (jday : ℤ) :
    tr channel jday = (irradiance channel).map fun E => E / esd jday ^ 2 := by
  unfold tr
  by_cases h1 : channel = 1
  · subst h1; rw [if_pos rfl, sq]; rfl
  rw [if_neg h1]
  by_cases h2 : channel = 2
  · subst h2; rw [if_pos rfl, sq]; rfl
  rw [if_neg h2]
  by_cases h3 : channel = 3
  · subst h3; rw [if_pos rfl, sq]; rfl
  rw [if_neg h3]
  by_cases h4 : channel = 12
  · subst h4; rw [if_pos rfl, sq]; rfl
  rw [if_neg h4]
  unfold irradiance
  split <;> first | rfl | omega

theorem boundedCos_pos (c : ℝ) : 0 < boundedCos c := by
  unfold boundedCos cos80
  split
  · norm_num
  · rename_i h
    have : (0 : ℝ) < 0.173648178 := by norm_num
    linarith

/-- Where the sun is at least 10 degrees high, and the reflectance is a percentage that a `float` represents, the pixel is the
reflectance. -/
theorem C48_value (channel : Int) (E : ℝ) (hE : irradiance channel = some E) (jday : ℤ)
    (daytime raw slope offset lat lon : ℝ) (hc : cos80 ≤ cosSolZa jday daytime lat lon) :
    ∃ t, tr channel jday = some t ∧
      (let r := reflectance (raw * slope + offset) E (esd jday) (cosSolZa jday daytime lat lon)
       tinyFloat ≤ r → r ≤ 100 → singlePixel t jday daytime raw slope offset (some (lat, lon)) = r) := by
  refine ⟨E / esd jday ^ 2, by rw [C48_channels, hE]; rfl, ?_⟩
  intro r h1 h2
  have hb : boundedCos (cosSolZa jday daytime lat lon) = cosSolZa jday daytime lat lon := by
    unfold boundedCos
    rw [if_neg (by linarith)]
  have ht : (0 : ℝ) < tinyFloat := by unfold tinyFloat; positivity
  unfold singlePixel
  dsimp only
  have hr : 100.0 * (raw * slope + offset) / (E / esd jday ^ 2) / boundedCos (cosSolZa jday daytime lat lon) = r := by
    rw [hb, div_div]
    show _ = 100 * (raw * slope + offset) / (E / esd jday ^ 2 * cosSolZa jday daytime lat lon)
    norm_num
  rw [hr]
  rw [normalise_fin, if_neg (by rw [abs_of_nonneg (by linarith)]; linarith), if_neg (by linarith), if_neg (by linarith)]

/-- A greater radiance never gives a smaller reflectance. -/
theorem C48_monotone (channel : Int) (jday : ℤ) (t : ℝ) (ht : tr channel jday = some t) (daytime slope offset : ℝ)
    (hs : 0 ≤ slope) (pos : Option (ℝ × ℝ)) (raw raw' : ℝ) (h : raw ≤ raw') :
    singlePixel t jday daytime raw slope offset pos ≤ singlePixel t jday daytime raw' slope offset pos := by
  have htp : 0 < t := by
    rw [C48_channels] at ht
    obtain ⟨E, hE, rfl⟩ := Option.map_eq_some_iff.1 ht
    have hd := (C48_distance jday).1
    have : 0 < esd jday := by norm_num at hd; linarith
    have hE : 0 < E := by
      unfold irradiance at hE
      split at hE <;> first | (cases hE; norm_num) | cases hE
    positivity
  unfold singlePixel
  cases pos with
  | none => exact le_refl _
  | some p =>
    apply normalise_mono _ _ (by norm_num)
    have hb := boundedCos_pos (cosSolZa jday daytime p.1 p.2)
    have h2 : raw * slope ≤ raw' * slope := mul_le_mul_of_nonneg_right h hs
    have h3 : 100.0 * (raw * slope + offset) ≤ 100.0 * (raw' * slope + offset) := by norm_num; linarith
    exact div_le_div_of_nonneg_right (div_le_div_of_nonneg_right h3 htp.le) hb.le

/-- For channel IR 3.9 the reflectance is a positive number divided by a positive number, whatever the temperatures, if the
operations that lead to them are regular. -/
theorem C48_39_positive (other : Fp) (jday : ℤ) (daytime bt039 bt108 bt134 lat lon : ℝ)
    (h : Regular bt039 bt108 bt134 (satZa lat lon)) :
    ∃ n d, 0 < n ∧ 0 < d ∧ refl39 other jday daytime bt039 bt108 bt134 lat lon = .fin (100 * n / d) := by
  unfold refl39
  rw [if_pos h]
  refine ⟨_, _, ?_, ?_, rfl⟩
  · have : ∀ x therm : ℝ, 0 < above x therm - therm := by
      intro x therm
      unfold above
      split
      · norm_num
      · linarith
    exact this _ _
  · have hd := (C48_distance jday).1
    have he : 0 < esd jday := by norm_num at hd; linarith
    have hb := boundedCos_pos (cosSolZa jday daytime lat lon)
    have h0 : 0 < toarad0 jday bt108 bt134 (boundedCos (cosSolZa jday daytime lat lon)) (satZa lat lon) := by
      unfold toarad0
      have := rpow_pos_of_pos hb 0.75
      have h1 : (0 : ℝ) < 4.92 / (esd jday * esd jday) := by positivity
      positivity
    unfold above
    split
    · norm_num; linarith
    · exact h0

/-! ## C68 -/

theorem sindlt_sq (jday : ℤ) : sindlt jday ^ 2 ≤ 1 := by
  unfold sindlt sinob
  have h := sin_sq_le_one (sigma jday)
  rw [mul_pow]
  have : (0.3978 : ℝ) ^ 2 ≤ 1 := by norm_num
  nlinarith [sq_nonneg (sin (sigma jday))]

theorem cosdlt_sq (jday : ℤ) : sindlt jday ^ 2 + cosdlt jday ^ 2 = 1 := by
  unfold cosdlt
  rw [sq_sqrt]
  · norm_num; ring
  · have := sindlt_sq jday
    norm_num
    nlinarith

theorem rpd_deg (d : ℝ) : rpd * d = deg d := by
  unfold rpd deg
  norm_num
  ring

/-- For every day and hour there is one direction of the sun such that, at every point of the earth, `cos_sol_za` is the
cosine of the angle between it and the vertical. -/
theorem C68_direction (jday : ℤ) (hour : ℝ) :
    ∃ sun : Vec, len sun = 1 ∧ ∀ lat lon, cosSolZa jday hour lat lon = dot (vertical lat lon) sun := by
  refine ⟨⟨cosdlt jday * cos (deg (dph * (hour - homp jday))), -(cosdlt jday * sin (deg (dph * (hour - homp jday)))),
    sindlt jday⟩, ?_, ?_⟩
  · unfold len dot
    dsimp only
    rw [sqrt_eq_one]
    have h1 := cosdlt_sq jday
    have h2 := sin_sq_add_cos_sq (deg (dph * (hour - homp jday)))
    generalize sin (deg (dph * (hour - homp jday))) = s at *
    generalize cos (deg (dph * (hour - homp jday))) = c at *
    have : cosdlt jday ^ 2 * (s ^ 2 + c ^ 2) = cosdlt jday ^ 2 := by rw [h2, mul_one]
    nlinarith
  · intro lat lon
    unfold cosSolZa hang dot vertical
    rw [rpd_deg, rpd_deg, show deg (dph * (hour - homp jday) + lon) = deg (dph * (hour - homp jday)) + deg lon by
      unfold deg; ring, cos_add]
    ring

theorem dot_le (u v : Vec) (hu : dot u u = 1) (hv : dot v v = 1) : -1 ≤ dot u v ∧ dot u v ≤ 1 := by
  unfold dot at *
  constructor <;>
    nlinarith [sq_nonneg (u.x - v.x), sq_nonneg (u.y - v.y), sq_nonneg (u.z - v.z), sq_nonneg (u.x + v.x),
      sq_nonneg (u.y + v.y), sq_nonneg (u.z + v.z)]

theorem vertical_norm (lat lon : ℝ) : dot (vertical lat lon) (vertical lat lon) = 1 := by
  unfold dot vertical
  dsimp only
  have h1 := sin_sq_add_cos_sq (deg lat)
  have h2 := sin_sq_add_cos_sq (deg lon)
  have : cos (deg lat) ^ 2 * (sin (deg lon) ^ 2 + cos (deg lon) ^ 2) = cos (deg lat) ^ 2 := by rw [h2, mul_one]
  nlinarith

/-- It is between -1 and 1, for every day, hour and point. -/
theorem C68_range (jday : ℤ) (hour lat lon : ℝ) : -1 ≤ cosSolZa jday hour lat lon ∧ cosSolZa jday hour lat lon ≤ 1 := by
  obtain ⟨sun, h1, h2⟩ := C68_direction jday hour
  rw [h2]
  refine dot_le _ _ (vertical_norm lat lon) ?_
  unfold len at h1
  exact sqrt_eq_one.1 h1

/-- The band of cosines has 0 where the sun is below the horizon and for pixels in space, and the cosine elsewhere, if it is not
too small for a `double`. -/
theorem C68_band (jday : ℤ) (daytime lat lon : ℝ) :
    cosSolZaPixel jday daytime none = 0 ∧
    (cosSolZa jday daytime lat lon ≤ 0 → cosSolZaPixel jday daytime (some (lat, lon)) = 0) ∧
    (tinyDouble ≤ cosSolZa jday daytime lat lon →
      cosSolZaPixel jday daytime (some (lat, lon)) = cosSolZa jday daytime lat lon) := by
  have hr := C68_range jday daytime lat lon
  have ht : 0 < tinyDouble := by unfold tinyDouble; exact pow_pos (by norm_num) _
  refine ⟨rfl, fun h => ?_, fun h => ?_⟩
  · show normalise tinyDouble 1 (.fin (cosSolZa jday daytime lat lon)) = _
    rw [normalise_fin]
    split
    · rfl
    · split
      · rfl
      · rw [if_neg (by linarith)]
        linarith
  · show normalise tinyDouble 1 (.fin (cosSolZa jday daytime lat lon)) = _
    rw [normalise_fin, if_neg (by rw [abs_of_nonneg (by linarith)]; linarith), if_neg (by linarith), if_neg (by linarith)]

/-! ## C69 -/

theorem rrh_bounds : 0 < rrh ∧ rrh < 1 := by
  unfold rrh
  constructor <;> norm_num

theorem cos_satZa (g : ℝ) (hg : g ^ 2 ≤ 1) :
    cos (π / 2 - atanDiv (g - rrh) (√(1 - g * g))) * √(1 - 2 * rrh * g + rrh ^ 2) = g - rrh := by
  obtain ⟨r0, r1⟩ := rrh_bounds
  have hs : (√(1 - g * g)) ^ 2 = 1 - g * g := sq_sqrt (by nlinarith)
  have hs0 : 0 ≤ √(1 - g * g) := sqrt_nonneg _
  rw [cos_pi_div_two_sub]
  unfold atanDiv
  by_cases c : √(1 - g * g) = 0
  · rw [if_pos c]
    have hg1 : g ^ 2 = 1 := by rw [c] at hs; nlinarith
    have : g = 1 ∨ g = -1 := by
      have : (g - 1) * (g + 1) = 0 := by nlinarith
      rcases mul_eq_zero.1 this with h | h
      · left; linarith
      · right; linarith
    rcases this with rfl | rfl
    · rw [if_pos (by linarith), sin_pi_div_two, one_mul, show 1 - 2 * rrh * 1 + rrh ^ 2 = (1 - rrh) ^ 2 by ring,
        sqrt_sq (by linarith)]
    · rw [if_neg (by linarith), sin_neg, sin_pi_div_two, show 1 - 2 * rrh * (-1) + rrh ^ 2 = (1 + rrh) ^ 2 by ring,
        sqrt_sq (by linarith)]
      ring
  · rw [if_neg c]
    have hs1 : 0 < √(1 - g * g) := lt_of_le_of_ne hs0 (Ne.symm c)
    rw [sin_arctan]
    have e : 1 + ((g - rrh) / √(1 - g * g)) ^ 2 = (1 - 2 * rrh * g + rrh ^ 2) / (√(1 - g * g)) ^ 2 := by
      generalize √(1 - g * g) = w at *
      field_simp
      rw [hs]
      ring
    have hp : 0 < 1 - 2 * rrh * g + rrh ^ 2 := by nlinarith [sq_nonneg (g - rrh)]
    rw [e, sqrt_div' _ (sq_nonneg _), sqrt_sq hs0]
    have hq : √(1 - 2 * rrh * g + rrh ^ 2) ≠ 0 := (sqrt_pos.2 hp).ne'
    generalize √(1 - 2 * rrh * g + rrh ^ 2) = q at *
    generalize √(1 - g * g) = w at *
    field_simp

/-- `sat_za` is the angle between the vertical of a point and the line from it to a satellite on the equator at longitude 0,
for every point of the earth. -/
theorem C69_zenith (lat lon : ℝ) : IsZenithAngle lat lon (satellite 0 (1 / rrh)) (satZa lat lon) := by
  obtain ⟨r0, r1⟩ := rrh_bounds
  have hdeg : ∀ d : ℝ, d * π / 180.0 = deg d := fun d => by unfold deg; norm_num
  have ha : ∀ a b : ℝ, -(π / 2) ≤ atanDiv a b ∧ atanDiv a b ≤ π / 2 := by
    intro a b
    unfold atanDiv
    have := pi_pos
    split
    · split <;> constructor <;> linarith
    · exact ⟨(neg_pi_div_two_lt_arctan _).le, (arctan_lt_pi_div_two _).le⟩
  unfold IsZenithAngle satZa
  simp only [hdeg]
  set g := cos (deg lon) * cos (deg lat) with hg
  have hg1 : g ^ 2 ≤ 1 := by
    rw [hg, mul_pow]
    have := cos_sq_le_one (deg lon)
    have := cos_sq_le_one (deg lat)
    nlinarith [sq_nonneg (cos (deg lon)), sq_nonneg (cos (deg lat))]
  have h1 := ha (g - rrh) (√(1 - g * g))
  refine ⟨by linarith, by linarith, ?_⟩
  have h0 : deg 0 = 0 := by unfold deg; norm_num
  have hv := vertical_norm lat lon
  have e1 : dot (vertical lat lon) (sub (satellite 0 (1 / rrh)) (vertical lat lon)) = (g - rrh) / rrh := by
    have : dot (vertical lat lon) (sub (satellite 0 (1 / rrh)) (vertical lat lon)) =
        dot (vertical lat lon) (satellite 0 (1 / rrh)) - dot (vertical lat lon) (vertical lat lon) := by
      unfold dot sub
      ring
    rw [this, hv]
    unfold dot satellite vertical
    dsimp only
    rw [h0, cos_zero, sin_zero, hg]
    field_simp
    ring
  have e2 : len (sub (satellite 0 (1 / rrh)) (vertical lat lon)) = √(1 - 2 * rrh * g + rrh ^ 2) / rrh := by
    unfold len
    have : dot (sub (satellite 0 (1 / rrh)) (vertical lat lon)) (sub (satellite 0 (1 / rrh)) (vertical lat lon)) =
        (1 - 2 * rrh * g + rrh ^ 2) / rrh ^ 2 := by
      have : dot (sub (satellite 0 (1 / rrh)) (vertical lat lon)) (sub (satellite 0 (1 / rrh)) (vertical lat lon)) =
          dot (satellite 0 (1 / rrh)) (satellite 0 (1 / rrh)) - 2 * dot (vertical lat lon) (satellite 0 (1 / rrh)) +
            dot (vertical lat lon) (vertical lat lon) := by
        unfold dot sub
        ring
      rw [this, hv]
      unfold dot satellite vertical
      dsimp only
      rw [h0, cos_zero, sin_zero, hg]
      field_simp
      ring
    rw [this, sqrt_div' _ (sq_nonneg _), sqrt_sq r0.le]
  rw [e1, e2, ← mul_div_assoc, cos_satZa g hg1]

/-- The band of zenith angles has the angle for the points where it is at most 1 radian, and 0 in space.  Missing for the full
property: larger angles. -/
theorem C69_band_partial (lat lon : ℝ) :
    satZaPixel none = 0 ∧ (tinyDouble ≤ satZa lat lon → satZa lat lon ≤ 1 → satZaPixel (some (lat, lon)) = satZa lat lon) := by
  refine ⟨rfl, fun h1 h2 => ?_⟩
  have ht : 0 < tinyDouble := by unfold tinyDouble; exact pow_pos (by norm_num) _
  show normalise tinyDouble 1 (.fin (satZa lat lon)) = _
  rw [normalise_fin, if_neg (by rw [abs_of_nonneg (by linarith)]; linarith), if_neg (by linarith), if_neg (by linarith)]

/-- Zenith angles of the satellite are cut at 1 radian (57 degrees), as if they were cosines: all the points from which the satellite
is seen lower than that, down to the horizon, have the same value. -/
theorem C69_violated_cut (lat lon : ℝ) (h : 1 < satZa lat lon) : satZaPixel (some (lat, lon)) = 1 := by
  have ht : tinyDouble ≤ 1 := by unfold tinyDouble; exact pow_le_one₀ (by norm_num) (by norm_num)
  show normalise tinyDouble 1 (.fin (satZa lat lon)) = _
  rw [normalise_fin, if_neg (by rw [abs_of_nonneg (by linarith)]; linarith), if_neg (by linarith), if_pos h]

/-- The zenith angle is computed for a satellite at longitude 0, also for images of satellites at other longitudes: where a satellite at
90 degrees east is at the zenith, the angle given is more than a right angle. -/
theorem C69_violated_longitude :
    IsZenithAngle 0 90 (satellite 90 (1 / rrh)) 0 ∧ π / 2 < satZa 0 90 := by
  obtain ⟨r0, r1⟩ := rrh_bounds
  have h0 : deg 0 = 0 := by unfold deg; norm_num
  have h90 : deg 90 = π / 2 := by unfold deg; ring
  constructor
  · refine ⟨le_refl _, pi_pos.le, ?_⟩
    unfold len dot sub satellite vertical
    dsimp only
    rw [h0, h90, cos_zero, sin_zero, cos_pi_div_two, sin_pi_div_two]
    have : 1 / rrh - 1 > 0 := by
      rw [gt_iff_lt, sub_pos, lt_div_iff₀ r0]
      linarith
    simp only [mul_zero, mul_one, sub_zero, zero_add, add_zero, one_mul]
    rw [sqrt_mul_self this.le]
  · unfold satZa
    dsimp only
    rw [show (90 : ℝ) * π / 180.0 = π / 2 by norm_num; ring, show (0 : ℝ) * π / 180.0 = 0 by norm_num, cos_pi_div_two, zero_mul]
    have : atanDiv (0 - rrh) √(1 - 0 * 0) < 0 := by
      unfold atanDiv
      norm_num
      exact r0
    generalize atanDiv (0 - rrh) √(1 - 0 * 0) = z at *
    linarith

/-! ### Examples -/

/-- Every day and hour there is a point where the sun is at the zenith. -/
theorem subsolar (jday : ℤ) (hour : ℝ) : ∃ lat lon, cosSolZa jday hour lat lon = 1 := by
  refine ⟨arcsin (sindlt jday) * 180 / π, -(dph * (hour - homp jday)), ?_⟩
  have hp := pi_pos.ne'
  have e1 : rpd * (arcsin (sindlt jday) * 180 / π) = arcsin (sindlt jday) := by
    rw [rpd_deg]
    unfold deg
    field_simp
  have e2 : rpd * hang jday hour (-(dph * (hour - homp jday))) = 0 := by
    unfold hang
    ring
  have h1 := cosdlt_sq jday
  have h2 := sindlt_sq jday
  unfold cosSolZa
  rw [e1, e2, cos_zero, sin_arcsin (by nlinarith) (by nlinarith), cos_arcsin]
  have : √(1 - sindlt jday ^ 2) = cosdlt jday := by
    unfold cosdlt
    congr 1
    norm_num
    ring
  rw [this]
  nlinarith

example : irradiance 1 = some 20.76 ∧ ∃ lat lon, cos80 ≤ cosSolZa 172 12 lat lon := by
  refine ⟨rfl, ?_⟩
  obtain ⟨lat, lon, h⟩ := subsolar 172 12
  refine ⟨lat, lon, ?_⟩
  rw [h]
  unfold cos80
  norm_num

/-- Temperatures of 300 K below the satellite. -/
example : Regular 300 300 300 (satZa 0 0) := by
  have e : co2Base 300 300 300 = 300 ^ 4 := by unfold co2Base; norm_num
  have r : ((300 : ℝ) ^ 4) ^ (0.25 : ℝ) = 300 := by
    rw [← rpow_natCast, ← rpow_mul (by norm_num)]
    norm_num
  have z : satZa 0 0 = 0 := by
    unfold satZa atanDiv
    have := rrh_bounds.2
    norm_num
    rw [if_pos this]
    ring
  unfold Regular
  rw [e, r, z, cos_zero]
  unfold A B
  norm_num

/-- From the pole the satellite is below the horizon. -/
example : 1 < satZa 90 0 := by
  have hp := pi_gt_three
  have h90 : (90 : ℝ) * π / 180.0 = π / 2 := by norm_num; ring
  have : satZa 90 0 = π / 2 + arctan rrh := by
    unfold satZa atanDiv
    dsimp only
    rw [h90, cos_pi_div_two]
    norm_num
  have h2 : 0 < arctan rrh := arctan_pos.2 rrh_bounds.1
  rw [this]
  linarith

end Msat.Props
