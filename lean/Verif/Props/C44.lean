import Verif.Lemmas.PixelSize
import Verif.Spec.Georef

/-
C44 NetCDF and GRIB export keep the georeference.
-/
namespace Msat.Props
open Msat PixelSize Georef GeorefSpec Real

theorem standard_iff (ps : ℝ) : Standard ps ↔ ps = sizeX ∨ ps = sizeXHrv := Iff.rfl

theorem standard_pos {ps : ℝ} (h : Standard ps) : 0 < ps := by
  rcases h with rfl | rfl <;> norm_num

/-- A standard size is read back from the scale factor. -/
theorem standard_scale {ps : ℝ} (h : Standard ps) :
    ∃ n : ℤ, cfacFromPixelHSize ps * 2 ^ 16 = n ∧ 0 ≤ n ∧ n < 2 ^ 31 ∧ pixelHSizeFromCFAC ((n : ℝ) * (2 ^ 16)⁻¹) = .ok ps := by
  rcases (standard_iff ps).1 h with rfl | rfl
  · refine ⟨13642337, ?_, by norm_num, by norm_num, ?_⟩
    · rw [cfac_sizeX]; push_cast; field_simp
    · push_cast; exact pixelH_sizeX
  · refine ⟨40927000, ?_, by norm_num, by norm_num, ?_⟩
    · rw [cfac_sizeXHrv]; push_cast; field_simp
    · push_cast; exact pixelH_sizeXHrv

theorem ncOffset_cases (ps hrv : ℝ) : ncOffset ps hrv = 3712 ∨ ncOffset ps hrv = 1856 := by
  unfold ncOffset; split <;> simp

/-- What is written for an image on the grid. -/
theorem exportNetcdf_onGrid (single : ℝ → ℝ) (s : Source) (psx psy : ℝ) (cx cy : ℤ) (hg : OnGrid s.gt psx psy cx cy)
    (hh : s.height = 35785831) (hx : 0 < psx) (hy : 0 < psy) (hcx : Near cx) (hcy : Near cy) :
    exportNetcdf single s = .ok (some {
      columnScale := cfacFromPixelHSize psx * 2 ^ 16
      lineScale := lfacFromPixelVSize psy * 2 ^ 16
      areaStartPix := ncOffset psx sizeXHrv - cx + 1
      areaStartLin := ncOffset psy sizeYHrv - cy + 1
      columnOffset := ncOffset psx sizeXHrv
      lineOffset := ncOffset psy sizeYHrv
      longitude := single s.lon }) := by
  unfold exportNetcdf
  unfold OnGrid at hg
  rw [if_neg (by rw [hh]; simp [orbitRadiusForGdal]), if_neg (by rw [hg]; simp), if_neg (by rw [hg]; simp), hg]
  dsimp only
  rw [neg_neg]
  have e1 : ((ncOffset psx sizeXHrv : ℤ) : ℝ) + -(cx : ℝ) * psx / psx = ((ncOffset psx sizeXHrv - cx : ℤ) : ℝ) := by
    push_cast; field_simp; ring
  have e2 : ((ncOffset psy sizeYHrv : ℤ) : ℝ) - (cy : ℝ) * psy / psy = ((ncOffset psy sizeYHrv - cy : ℤ) : ℝ) := by
    push_cast; field_simp
  have b1 := ncOffset_cases psx sizeXHrv
  have b2 := ncOffset_cases psy sizeYHrv
  unfold Near at hcx hcy
  rw [e1, e2, nearbyint_int, nearbyint_int, toInt_int _ (by omega) (by omega), toInt_int _ (by omega) (by omega)]
  rfl

/-- NetCDF: an image of Meteosat, at either resolution, has the same geotransform when it is read back, wherever it was
cropped; so has the projection. -/
theorem C44_netcdf (single : ℝ → ℝ) (s : Source) (psx psy : ℝ) (cx cy : ℤ) (hg : OnGrid s.gt psx psy cx cy)
    (hh : s.height = 35785831) (hx : Standard psx) (hy : Standard psy) (hcx : Near cx) (hcy : Near cy) :
    ∃ f, exportNetcdf single s = .ok (some f) ∧ openNetcdf f = .ok s.gt ∧ f.longitude = single s.lon := by
  refine ⟨_, exportNetcdf_onGrid single s psx psy cx cy hg hh (standard_pos hx) (standard_pos hy) hcx hcy, ?_, rfl⟩
  obtain ⟨n, n1, n2, n3, n4⟩ := standard_scale hx
  obtain ⟨m, m1, m2, m3, m4⟩ := standard_scale hy
  unfold openNetcdf
  dsimp only
  rw [lfac_eq_cfac, n1, m1, toInt_int n (by omega) n3, toInt_int m (by omega) m3]
  simp only [Outcome.ok_bind]
  rw [abs_of_nonneg (by exact_mod_cast n2 : (0:ℝ) ≤ n), abs_of_nonneg (by exact_mod_cast m2 : (0:ℝ) ≤ m), n4, pixelV_eq_pixelH, m4]
  simp only [Outcome.ok_bind]
  unfold OnGrid at hg
  rw [hg]
  refine congrArg Outcome.ok ?_
  congr 1
  · push_cast; ring
  · push_cast; ring

/-- Scale factors of pixel sizes from 100 m to 100 km. -/
theorem scale_bounds0 (ps : ℝ) (h1 : 100 ≤ ps) (h2 : ps ≤ 100000) :
    1000 ≤ cfacFromPixelHSize ps * 2 ^ 16 ∧ cfacFromPixelHSize ps * 2 ^ 16 < 2000000000 := by
  have hu : cfacFromPixelHSize ps = 13642337 * (2 ^ 16)⁻¹ ∨ cfacFromPixelHSize ps = 40927000 * (2 ^ 16)⁻¹ ∨
      cfacFromPixelHSize ps = π / arctan (ps / ((orbitRadius - earthRadius) * 1000.0)) / 180.0 := by
    by_cases a : |ps - sizeX| < 0.001
    · left; unfold cfacFromPixelHSize; rw [if_pos a]
    by_cases b : |ps - sizeXHrv| < 0.001
    · right; left
      unfold cfacFromPixelHSize
      rw [if_neg a, if_neg, if_pos b]
      unfold sizeX; rw [abs_of_pos] <;> norm_num <;> linarith
    · right; right
      exact cfac_unknown ps (by linarith) ⟨not_lt.1 a, not_lt.1 b⟩
  rcases hu with h | h | h
  · rw [h]; constructor <;> norm_num
  · rw [h]; constructor <;> norm_num
  · rw [h]
    have hx : ps / ((orbitRadius - earthRadius) * 1000.0) = ps / 35785863 := by
      unfold orbitRadius earthRadius; norm_num
    rw [hx]
    have x0 : 0 < ps / 35785863 := by positivity
    have x1 : ps / 35785863 ≤ 0.003 := by rw [div_le_iff₀ (by norm_num)]; norm_num; linarith
    have x2 : 0.0000027 ≤ ps / 35785863 := by rw [le_div_iff₀ (by norm_num)]; norm_num; linarith
    generalize ps / 35785863 = x at *
    have hu := arctan_upper x x0
    have hl := arctan_lower x x0
    have hl2 : x / 2 ≤ arctan x := by
      refine le_trans ?_ hl
      have : x ^ 2 ≤ 1 := by norm_num at x1; nlinarith
      nlinarith
    have ha : 0 < arctan x := by linarith
    have p1 := pi_gt_three
    have p2 := pi_lt_four
    generalize arctan x = y at *
    have e : π / y / 180.0 * 2 ^ 16 = π * 65536 / (180 * y) := by field_simp; norm_num
    rw [e]
    constructor
    · rw [le_div_iff₀ (by positivity)]
      norm_num at x1; linarith
    · rw [div_lt_iff₀ (by positivity)]
      norm_num at x2 ⊢; linarith

theorem scale_bounds (ps : ℝ) (h1 : 100 ≤ ps) (h2 : ps ≤ 100000) :
    1000 ≤ cfacFromPixelHSize ps * 2 ^ 16 ∧ cfacFromPixelHSize ps * 2 ^ 16 < 2 ^ 31 :=
  ⟨(scale_bounds0 ps h1 h2).1, lt_trans (scale_bounds0 ps h1 h2).2 (by norm_num)⟩

/-- The pixel size for a stored factor. -/
theorem pixelH_pos (n : ℤ) (h1 : 1000 ≤ n) (h2 : n < 2 ^ 31) :
    ∃ p, pixelHSizeFromCFAC ((n : ℝ) * (2 ^ 16)⁻¹) = .ok p ∧ 0 < p := by
  refine ⟨_, pixelH_int n (by omega) h2, ?_⟩
  have hn : (1000 : ℝ) ≤ n := by exact_mod_cast h1
  rw [if_neg (show ¬ n = -13642337 by omega), if_neg (show ¬ n = -40927000 by omega)]
  split
  · unfold sizeX; norm_num
  split
  · unfold sizeXHrv; norm_num
  · have hh := height_pos
    have ht : 0 < tan (π / 180.0 / ((n : ℝ) * (2 ^ 16)⁻¹)) := by
      apply tan_pos_of_pos_of_lt_pi_div_two
      · have := pi_pos; positivity
      · rw [div_lt_iff₀ (by positivity), div_lt_iff₀ (by norm_num)]
        have : π / 2 * ((n : ℝ) * (2 ^ 16)⁻¹) * 180.0 = π * ((n : ℝ) * (90 / 65536)) := by norm_num; ring
        rw [this]
        have p := pi_pos
        have : 1 < (n : ℝ) * (90 / 65536) := by linarith
        nlinarith
    rw [mul_right_comm]
    positivity

/-- NetCDF: an image with any pixel size, on the grid of the satellite, has the same origin, in pixels from the point below the
satellite, when it is read back. -/
theorem C44_netcdf_origin (single : ℝ → ℝ) (s : Source) (psx psy : ℝ) (cx cy : ℤ) (hg : OnGrid s.gt psx psy cx cy)
    (hh : s.height = 35785831) (hx : 100 ≤ psx ∧ psx ≤ 100000) (hy : 100 ≤ psy ∧ psy ≤ 100000) (hcx : Near cx) (hcy : Near cy) :
    ∃ f gt psx' psy', exportNetcdf single s = .ok (some f) ∧ openNetcdf f = .ok gt ∧ OnGrid gt psx' psy' cx cy ∧ 0 < psx' ∧
      0 < psy' := by
  have px : 0 < psx := by linarith [hx.1]
  have py : 0 < psy := by linarith [hy.1]
  obtain ⟨bx1, bx2⟩ := scale_bounds psx hx.1 hx.2
  obtain ⟨by1, by2⟩ := scale_bounds psy hy.1 hy.2
  have nx1 : 1000 ≤ ⌊cfacFromPixelHSize psx * 2 ^ 16⌋ := Int.le_floor.2 (by exact_mod_cast bx1)
  have ny1 : 1000 ≤ ⌊cfacFromPixelHSize psy * 2 ^ 16⌋ := Int.le_floor.2 (by exact_mod_cast by1)
  have nx2 : ⌊cfacFromPixelHSize psx * 2 ^ 16⌋ < 2 ^ 31 := Int.floor_lt.2 (by exact_mod_cast bx2)
  have ny2 : ⌊cfacFromPixelHSize psy * 2 ^ 16⌋ < 2 ^ 31 := Int.floor_lt.2 (by exact_mod_cast by2)
  obtain ⟨p, e1, p0⟩ := pixelH_pos _ nx1 nx2
  obtain ⟨q, e2, q0⟩ := pixelH_pos _ ny1 ny2
  refine ⟨_, { x0 := -(cx : ℝ) * p, dx := p, rx := 0, y0 := (cy : ℝ) * q, ry := 0, dy := -q }, p, q,
    exportNetcdf_onGrid single s psx psy cx cy hg hh px py hcx hcy, ?_, rfl, p0, q0⟩
  unfold openNetcdf
  dsimp only
  rw [lfac_eq_cfac, toInt_pos _ (by linarith) bx2, toInt_pos _ (by linarith) by2]
  simp only [Outcome.ok_bind]
  have nx0 : (0 : ℝ) ≤ ⌊cfacFromPixelHSize psx * 2 ^ 16⌋ := Int.cast_nonneg (by omega)
  have ny0 : (0 : ℝ) ≤ ⌊cfacFromPixelHSize psy * 2 ^ 16⌋ := Int.cast_nonneg (by omega)
  rw [abs_of_nonneg nx0, abs_of_nonneg ny0, e1, pixelV_eq_pixelH, e2]
  simp only [Outcome.ok_bind]
  refine congrArg Outcome.ok ?_
  congr 1
  · push_cast; ring
  · push_cast; ring

/-! ### NetCDF-24 and GRIB -/

/-- What is written for an image on the grid. -/
theorem gridOf_onGrid (lon : ℝ → ℝ) (s : Source) (ps : ℝ) (cx cy : ℤ) (hg : OnGrid s.gt ps ps cx cy)
    (hs : Standard ps) (hcx : Near cx) (hcy : Near cy) (d : ℤ) (hd : seviriDXFromPixelHSize ps = .ok d) :
    ∃ c : ℤ, gridOf lon s = .ok (some ⟨c - cx, c - cy, d, d, c, c, lon s.lon⟩) ∧ (ps = sizeX → c = 1856) ∧
      (ps = sizeXHrv → c = 5568) := by
  have hne : sizeX ≠ sizeXHrv := by unfold sizeX sizeXHrv; norm_num
  have key : ∃ c : ℤ, gridOffset s.gt = some c ∧ (ps = sizeX → c = 1856) ∧ (ps = sizeXHrv → c = 5568) ∧ 0 ≤ c ∧ c ≤ 6000 := by
    unfold OnGrid at hg
    unfold gridOffset
    rw [hg]
    dsimp only
    rcases (standard_iff ps).1 hs with rfl | rfl
    · refine ⟨1856, ?_, fun _ => rfl, fun h => absurd h hne, by norm_num, by norm_num⟩
      rw [if_pos, if_neg, if_neg]
      · rfl
      · unfold sizeX sizeY; norm_num
      · rw [sub_self, abs_zero]; norm_num
      · unfold sizeX sizeXHrv; rw [abs_of_pos] <;> norm_num
    · refine ⟨5568, ?_, fun h => absurd h.symm hne, fun _ => rfl, by norm_num, by norm_num⟩
      rw [if_neg, if_neg]
      · rfl
      · unfold sizeXHrv sizeYHrv; norm_num
      · rw [sub_self, abs_zero]; norm_num
  obtain ⟨c, hc, c1, c2, c3, c4⟩ := key
  refine ⟨c, ?_, c1, c2⟩
  unfold gridOf
  rw [hc]
  unfold OnGrid at hg
  rw [hg]
  dsimp only
  rw [if_neg (by simp), if_neg (by simp), neg_neg]
  have h0 := standard_pos hs
  have e1 : (c : ℝ) + -(cx : ℝ) * ps / ps = ((c - cx : ℤ) : ℝ) := by
    push_cast; field_simp; ring
  have e2 : (c : ℝ) - (cy : ℝ) * ps / ps = ((c - cy : ℤ) : ℝ) := by
    push_cast; field_simp
  unfold Near at hcx hcy
  rw [e1, e2, nearbyint_int, nearbyint_int, toInt_int _ (by omega) (by omega), toInt_int _ (by omega) (by omega), seviriDY_eq_seviriDX, hd]
  rfl

theorem gtOf_onGrid (c cx cy d : ℤ) (l ps : ℝ) (hd : pixelHSizeFromSeviriDX d = .ok ps) :
    ∃ gt, gtOf ⟨c - cx, c - cy, d, d, c, c, l⟩ = .ok gt ∧ OnGrid gt ps ps cx cy := by
  unfold gtOf
  dsimp only
  rw [pixelV_eq_pixelH_seviri, hd]
  simp only [Outcome.ok_bind]
  refine ⟨_, rfl, ?_⟩
  unfold OnGrid
  congr 1
  · push_cast; ring
  · push_cast; ring

theorem dx_sizeX : seviriDXFromPixelHSize sizeX = .ok 3622 ∧ pixelHSizeFromSeviriDX 3622 = .ok sizeX := by
  constructor
  · unfold seviriDXFromPixelHSize
    rw [if_pos (by rw [sub_self, abs_zero]; norm_num)]
  · unfold pixelHSizeFromSeviriDX
    rw [if_neg (by norm_num), if_pos rfl]

theorem onGrid_unique {gt gt' : Gt} {a b : ℝ} {x y : ℤ} (h : OnGrid gt a b x y) (h' : OnGrid gt' a b x y) : gt = gt' := by
  unfold OnGrid at h h'; rw [h, h']

/-- GRIB: an image at the low resolution has the same geotransform when it is read back, wherever it was cropped; the
longitude of the satellite is the same. -/
theorem C44_grib (s : Source) (cx cy : ℤ) (hg : OnGrid s.gt 3000.40307617188 3000.40307617188 cx cy)
    (hh : s.height = 35785831) (hcx : Near cx) (hcy : Near cy) :
    ∃ g, exportGrib s = .ok (some g) ∧ openGrib g = .ok s.gt ∧ g.lon = s.lon := by
  obtain ⟨c, hc, _⟩ := gridOf_onGrid id s sizeX cx cy hg (.inl rfl) hcx hcy 3622 dx_sizeX.1
  obtain ⟨gt, hgt, hgt'⟩ := gtOf_onGrid c cx cy 3622 s.lon sizeX dx_sizeX.2
  refine ⟨⟨c - cx, c - cy, 3622, 3622, c, c, s.lon⟩, ?_, ?_, rfl⟩
  · unfold exportGrib
    rw [if_neg (by rw [hh]; simp [orbitRadiusForGdal])]
    exact hc
  · unfold openGrib
    rw [onGrid_unique hg hgt']
    exact hgt

/-- NetCDF-24: an image of Meteosat 8 or 9 at the low resolution has the same geotransform when it is read back, wherever it was
cropped.  Missing for the full property: other satellites. -/
theorem C44_netcdf24_partial (single : ℝ → ℝ) (s : Source) (cx cy : ℤ) (hg : OnGrid s.gt 3000.40307617188 3000.40307617188 cx cy)
    (hh : s.height = 35785831) (hcx : Near cx) (hcy : Near cy) (hsat : s.spacecraft = 55 ∨ s.spacecraft = 56) :
    ∃ f, exportNetcdf24 single s = .ok (some f) ∧ openNetcdf24 f = .ok (some s.gt) ∧ f.grid.lon = single s.lon := by
  obtain ⟨c, hc, _⟩ := gridOf_onGrid single s sizeX cx cy hg (.inl rfl) hcx hcy 3622 dx_sizeX.1
  obtain ⟨gt, hgt, hgt'⟩ := gtOf_onGrid c cx cy 3622 (single s.lon) sizeX dx_sizeX.2
  refine ⟨⟨s.spacecraft, s.spacecraft, ⟨c - cx + 1, c - cy + 1, 3622, 3622, c, c, single s.lon⟩⟩, ?_, ?_, rfl⟩
  · unfold exportNetcdf24
    rw [if_neg (by rw [hh]; simp [orbitRadiusForGdal]), hc]
    rfl
  · unfold openNetcdf24
    dsimp only
    rw [if_neg (by omega), add_sub_cancel_right, add_sub_cancel_right, hgt, onGrid_unique hg hgt']
    rfl

theorem dx_sizeXHrv : seviriDXFromPixelHSize sizeXHrv = .ok 10867 ∧ pixelHSizeFromSeviriDX 10867 = .ok (gridSize 10867) :=
  ⟨dx_hrv, pixelH_seviri 10867 (by norm_num) (by norm_num) (by norm_num) (by norm_num)⟩

/-- GRIB: an image at the high resolution has the same origin when it is read back, in pixels from the point below the satellite, and
nearly the same pixel size. -/
theorem C44_grib_hrv (s : Source) (cx cy : ℤ) (hg : OnGrid s.gt 1000.13433837891 1000.13433837891 cx cy)
    (hh : s.height = 35785831) (hcx : Near cx) (hcy : Near cy) :
    ∃ g gt ps, exportGrib s = .ok (some g) ∧ openGrib g = .ok gt ∧ OnGrid gt ps ps cx cy ∧ |ps - 1000.13433837891| < 0.011 ∧
      g.lon = s.lon := by
  obtain ⟨c, hc, _⟩ := gridOf_onGrid id s sizeXHrv cx cy hg (.inr rfl) hcx hcy 10867 dx_sizeXHrv.1
  obtain ⟨gt, hgt, hgt'⟩ := gtOf_onGrid c cx cy 10867 s.lon _ dx_sizeXHrv.2
  refine ⟨⟨c - cx, c - cy, 10867, 10867, c, c, s.lon⟩, gt, _, ?_, hgt, hgt', ?_, rfl⟩
  · unfold exportGrib
    rw [if_neg (by rw [hh]; simp [orbitRadiusForGdal])]
    exact hc
  · obtain ⟨h1, h2⟩ := hrv_size
    rw [abs_lt]
    norm_num at *
    constructor <;> linarith

/-- NetCDF-24: the same, for Meteosat 8 and 9. -/
theorem C44_netcdf24_hrv_partial (single : ℝ → ℝ) (s : Source) (cx cy : ℤ)
    (hg : OnGrid s.gt 1000.13433837891 1000.13433837891 cx cy) (hh : s.height = 35785831) (hcx : Near cx) (hcy : Near cy)
    (hsat : s.spacecraft = 55 ∨ s.spacecraft = 56) :
    ∃ f gt ps, exportNetcdf24 single s = .ok (some f) ∧ openNetcdf24 f = .ok (some gt) ∧ OnGrid gt ps ps cx cy ∧
      |ps - 1000.13433837891| < 0.011 ∧ f.grid.lon = single s.lon := by
  obtain ⟨c, hc, _⟩ := gridOf_onGrid single s sizeXHrv cx cy hg (.inr rfl) hcx hcy 10867 dx_sizeXHrv.1
  obtain ⟨gt, hgt, hgt'⟩ := gtOf_onGrid c cx cy 10867 (single s.lon) _ dx_sizeXHrv.2
  refine ⟨⟨s.spacecraft, s.spacecraft, ⟨c - cx + 1, c - cy + 1, 10867, 10867, c, c, single s.lon⟩⟩, gt, _, ?_, ?_, hgt', ?_, rfl⟩
  · unfold exportNetcdf24
    rw [if_neg (by rw [hh]; simp [orbitRadiusForGdal]), hc]
    rfl
  · unfold openNetcdf24
    dsimp only
    rw [if_neg (by omega), add_sub_cancel_right, add_sub_cancel_right, hgt]
    rfl
  · obtain ⟨h1, h2⟩ := hrv_size
    rw [abs_lt]
    norm_num at *
    constructor <;> linarith

/-- Where the origin is stored: the first column and line of the image, counted from the upper left corner of the full disk. -/
theorem C44_grib_start (s : Source) (x y : ℤ) (hh : s.height = 35785831) (hx : 0 ≤ x ∧ x ≤ 11136) (hy : 0 ≤ y ∧ y ≤ 11136) :
    (OnGrid s.gt 3000.40307617188 3000.40307617188 (1856 - x) (1856 - y) →
      ∃ g, exportGrib s = .ok (some g) ∧ g.x0 = x ∧ g.y0 = y ∧ g.xp = 1856 ∧ g.yp = 1856) ∧
    (OnGrid s.gt 1000.13433837891 1000.13433837891 (5568 - x) (5568 - y) →
      ∃ g, exportGrib s = .ok (some g) ∧ g.x0 = x ∧ g.y0 = y ∧ g.xp = 5568 ∧ g.yp = 5568) := by
  have hex : exportGrib s = gridOf id s := by
    unfold exportGrib
    rw [if_neg (by rw [hh]; simp [orbitRadiusForGdal])]
  constructor
  · intro hg
    obtain ⟨c, hc, c1, _⟩ := gridOf_onGrid id s sizeX _ _ hg (.inl rfl) (by unfold Near; omega) (by unfold Near; omega) 3622 dx_sizeX.1
    have := c1 rfl
    subst this
    exact ⟨_, hex.trans hc, by ring, by ring, rfl, rfl⟩
  · intro hg
    obtain ⟨c, hc, _, c1⟩ := gridOf_onGrid id s sizeXHrv _ _ hg (.inr rfl) (by unfold Near; omega) (by unfold Near; omega) 10867
      dx_sizeXHrv.1
    have := c1 rfl
    subst this
    exact ⟨_, hex.trans hc, by ring, by ring, rfl, rfl⟩

/-! ### What is wrong -/

/-- NetCDF-24: a file with an image of any satellite but Meteosat 8 and 9 is written, and cannot be opened. -/
theorem C44_violated_satellite (single : ℝ → ℝ) (s : Source) (cx cy : ℤ) (hg : OnGrid s.gt 3000.40307617188 3000.40307617188 cx cy)
    (hh : s.height = 35785831) (hcx : Near cx) (hcy : Near cy) (h1 : s.spacecraft ≠ 55) (h2 : s.spacecraft ≠ 56) :
    ∃ f, exportNetcdf24 single s = .ok (some f) ∧ openNetcdf24 f = .ok none := by
  obtain ⟨c, hc, _⟩ := gridOf_onGrid single s sizeX cx cy hg (.inl rfl) hcx hcy 3622 dx_sizeX.1
  refine ⟨⟨s.spacecraft, s.spacecraft, ⟨c - cx + 1, c - cy + 1, 3622, 3622, c, c, single s.lon⟩⟩, ?_, ?_⟩
  · unfold exportNetcdf24
    rw [if_neg (by rw [hh]; simp [orbitRadiusForGdal]), hc]
    rfl
  · unfold openNetcdf24
    rw [if_pos ⟨h1, h2⟩]

/-- GRIB: the pixel size of an image at the high resolution is not the same when it is read back, and the image that is read back cannot
be written to GRIB again: its pixel size is not expected. -/
theorem C44_violated_hrv (s : Source) (cx cy : ℤ) (hg : OnGrid s.gt 1000.13433837891 1000.13433837891 cx cy)
    (hh : s.height = 35785831) (hcx : Near cx) (hcy : Near cy) :
    ∃ g gt, exportGrib s = .ok (some g) ∧ openGrib g = .ok gt ∧ gt.dx ≠ s.gt.dx ∧ exportGrib { s with gt := gt } = .ok none := by
  obtain ⟨c, hc, _⟩ := gridOf_onGrid id s sizeXHrv cx cy hg (.inr rfl) hcx hcy 10867 dx_sizeXHrv.1
  obtain ⟨gt, hgt, hgt'⟩ := gtOf_onGrid c cx cy 10867 s.lon _ dx_sizeXHrv.2
  obtain ⟨h1, h2⟩ := hrv_size
  unfold OnGrid at hgt' hg
  refine ⟨⟨c - cx, c - cy, 10867, 10867, c, c, s.lon⟩, gt, ?_, hgt, ?_, ?_⟩
  · unfold exportGrib
    rw [if_neg (by rw [hh]; simp [orbitRadiusForGdal])]
    exact hc
  · rw [hgt', hg]
    dsimp only
    intro e
    rw [e] at h2
    norm_num at h2
  · unfold exportGrib
    rw [if_neg (by simp [hh, orbitRadiusForGdal])]
    unfold gridOf gridOffset
    dsimp only
    rw [hgt']
    dsimp only
    rw [if_neg (by simp), if_neg (by simp), if_pos, if_pos]
    · refine lt_of_lt_of_le ?_ (neg_le_abs _)
      unfold sizeX; norm_num at *; linarith
    · refine lt_of_lt_of_le ?_ (neg_le_abs _)
      unfold sizeXHrv; norm_num at *; linarith

/-- The pixel size that is read back for a size that is not known. -/
theorem scale_readback (ps : ℝ) (h1 : 100 ≤ ps) (h2 : ps ≤ 100000) (hu : Unknown ps) (n : ℤ) (p : ℝ)
    (hn : ⌊cfacFromPixelHSize ps * 2 ^ 16⌋ = n) (hp : pixelHSizeFromCFAC ((n : ℝ) * (2 ^ 16)⁻¹) = .ok p) :
    p = ps → cfacFromPixelHSize ps * 2 ^ 16 = n := by
  intro he
  obtain ⟨b1, b2⟩ := scale_bounds ps h1 h2
  have n1 : 1000 ≤ n := by rw [← hn]; exact Int.le_floor.2 (by exact_mod_cast b1)
  have n2 : n < 2 ^ 31 := by rw [← hn]; exact Int.floor_lt.2 (by exact_mod_cast b2)
  have hnr : (1000 : ℝ) ≤ n := by exact_mod_cast n1
  rw [pixelH_int n (by omega) n2, if_neg (show ¬ n = -13642337 by omega), if_neg (show ¬ n = -40927000 by omega)] at hp
  have hp := Outcome.ok.inj hp
  have p0 : 0 < ps := by linarith
  split at hp
  · exfalso
    have := hu.1
    rw [← he, ← hp, sub_self, abs_zero] at this
    norm_num at this
  split at hp
  · exfalso
    have := hu.2
    rw [← he, ← hp, sub_self, abs_zero] at this
    norm_num at this
  · rw [cfac_unknown ps p0 hu]
    have hh := height_pos
    have hq : ps / ((orbitRadius - earthRadius) * 1000.0) = tan (π / 180.0 / ((n : ℝ) * (2 ^ 16)⁻¹)) := by
      rw [← he, ← hp, div_eq_iff hh.ne', mul_right_comm, mul_comm]
    have hlt : π / 180.0 / ((n : ℝ) * (2 ^ 16)⁻¹) < π / 2 := by
      rw [div_lt_iff₀ (by positivity), div_lt_iff₀ (by norm_num)]
      have : π / 2 * ((n : ℝ) * (2 ^ 16)⁻¹) * 180.0 = π * ((n : ℝ) * (90 / 65536)) := by norm_num; ring
      rw [this]
      have p := pi_pos
      have : 1 < (n : ℝ) * (90 / 65536) := by linarith
      nlinarith
    have hpos : 0 < π / 180.0 / ((n : ℝ) * (2 ^ 16)⁻¹) := by
      have := pi_pos
      positivity
    rw [hq, arctan_tan (by linarith [pi_pos]) hlt]
    have hpi := pi_pos.ne'
    have hn0 : (n : ℝ) ≠ 0 := by linarith
    rw [div_div_eq_mul_div, div_div_eq_mul_div, mul_div_assoc]
    field_simp

/-- NetCDF: pixel sizes other than those of Meteosat are read back as they were only if their scale factor is a whole number, since
the factor is written as a floating point number and read as an integer. -/
theorem C44_netcdf_size (single : ℝ → ℝ) (s : Source) (psx psy : ℝ) (cx cy : ℤ) (hg : OnGrid s.gt psx psy cx cy)
    (hh : s.height = 35785831) (hx : 100 ≤ psx ∧ psx ≤ 100000) (hy : 100 ≤ psy ∧ psy ≤ 100000) (hcx : Near cx) (hcy : Near cy)
    (hux : Unknown psx) (f : NcFile) (gt : Gt) (he : exportNetcdf single s = .ok (some f)) (ho : openNetcdf f = .ok gt)
    (heq : gt.dx = s.gt.dx) : ∃ n : ℤ, f.columnScale = n := by
  have px : 0 < psx := by linarith [hx.1]
  have py : 0 < psy := by linarith [hy.1]
  rw [exportNetcdf_onGrid single s psx psy cx cy hg hh px py hcx hcy] at he
  have he := Option.some.inj (Outcome.ok.inj he)
  subst he
  obtain ⟨bx1, bx2⟩ := scale_bounds psx hx.1 hx.2
  obtain ⟨by1, by2⟩ := scale_bounds psy hy.1 hy.2
  have nx1 : 1000 ≤ ⌊cfacFromPixelHSize psx * 2 ^ 16⌋ := Int.le_floor.2 (by exact_mod_cast bx1)
  have ny1 : 1000 ≤ ⌊cfacFromPixelHSize psy * 2 ^ 16⌋ := Int.le_floor.2 (by exact_mod_cast by1)
  have nx2 : ⌊cfacFromPixelHSize psx * 2 ^ 16⌋ < 2 ^ 31 := Int.floor_lt.2 (by exact_mod_cast bx2)
  have ny2 : ⌊cfacFromPixelHSize psy * 2 ^ 16⌋ < 2 ^ 31 := Int.floor_lt.2 (by exact_mod_cast by2)
  obtain ⟨p, e1, p0⟩ := pixelH_pos _ nx1 nx2
  obtain ⟨q, e2, q0⟩ := pixelH_pos _ ny1 ny2
  have nx0 : (0 : ℝ) ≤ ⌊cfacFromPixelHSize psx * 2 ^ 16⌋ := Int.cast_nonneg (by omega)
  have ny0 : (0 : ℝ) ≤ ⌊cfacFromPixelHSize psy * 2 ^ 16⌋ := Int.cast_nonneg (by omega)
  unfold openNetcdf at ho
  dsimp only at ho
  rw [lfac_eq_cfac, toInt_pos _ (by linarith) bx2, toInt_pos _ (by linarith) by2] at ho
  simp only [Outcome.ok_bind] at ho
  rw [abs_of_nonneg nx0, abs_of_nonneg ny0, e1, pixelV_eq_pixelH, e2] at ho
  simp only [Outcome.ok_bind] at ho
  have ho := Outcome.ok.inj ho
  subst ho
  unfold OnGrid at hg
  rw [hg] at heq
  exact ⟨_, scale_readback psx hx.1 hx.2 hux _ p rfl e1 heq⟩

/-- NetCDF: the pixel size of an image at half the low resolution changes. -/
theorem C44_violated_scale (single : ℝ → ℝ) (s : Source) (cx cy : ℤ) (hg : OnGrid s.gt 6000.80615234376 6000.80615234376 cx cy)
    (hh : s.height = 35785831) (hcx : Near cx) (hcy : Near cy) :
    ∃ f gt, exportNetcdf single s = .ok (some f) ∧ openNetcdf f = .ok gt ∧ gt.dx ≠ s.gt.dx := by
  have hr : (100 : ℝ) ≤ 6000.80615234376 ∧ (6000.80615234376 : ℝ) ≤ 100000 := by norm_num
  obtain ⟨f, gt, p, q, e1, e2, e3, _, _⟩ := C44_netcdf_origin single s _ _ cx cy hg hh hr hr hcx hcy
  refine ⟨f, gt, e1, e2, fun heq => ?_⟩
  have hu : Unknown 6000.80615234376 := by
    constructor
    · refine le_trans ?_ (le_abs_self _); unfold sizeX; norm_num
    · refine le_trans ?_ (le_abs_self _); unfold sizeXHrv; norm_num
  obtain ⟨n, hn⟩ := C44_netcdf_size single s _ _ cx cy hg hh hr hr hcx hcy hu f gt e1 e2 heq
  rw [exportNetcdf_onGrid single s _ _ cx cy hg hh (by norm_num) (by norm_num) hcx hcy] at e1
  have e1 := Option.some.inj (Outcome.ok.inj e1)
  subst e1
  dsimp only at hn
  rw [cfac_unknown _ (by norm_num) hu] at hn
  have hx : (6000.80615234376 : ℝ) / ((orbitRadius - earthRadius) * 1000.0) = 6000.80615234376 / 35785863 := by
    unfold orbitRadius earthRadius; norm_num
  rw [hx] at hn
  have hl := arctan_lower (6000.80615234376 / 35785863) (by norm_num)
  have hu := arctan_upper (6000.80615234376 / 35785863) (by norm_num)
  generalize arctan (6000.80615234376 / 35785863) = y at *
  have p1 := pi_gt_d20
  have p2 := pi_lt_d20
  have y0 : 0 < y := by norm_num at hl; linarith
  have e : π / y / 180.0 * 2 ^ 16 = π * 65536 / (180 * y) := by field_simp; norm_num
  rw [e] at hn
  have b1 : (6821175 : ℝ) < π * 65536 / (180 * y) := by
    rw [lt_div_iff₀ (by positivity)]
    norm_num at hu p1
    linarith
  have b2 : π * 65536 / (180 * y) < (6821176 : ℝ) := by
    rw [div_lt_iff₀ (by positivity)]
    norm_num at hl p2
    linarith
  rw [hn] at b1 b2
  have c1 : 6821175 < n := by exact_mod_cast b1
  have c2 : n < 6821176 := by exact_mod_cast b2
  omega

/-! ### A case -/

/-- Meteosat 8, cropped to start at column 100 and line 200. -/
noncomputable def cropped : Source where
  gt := { x0 := -((1756 : ℤ) : ℝ) * 3000.40307617188, dx := 3000.40307617188, rx := 0, y0 := ((1656 : ℤ) : ℝ) * 3000.40307617188, ry := 0,
          dy := -3000.40307617188 }
  height := 35785831
  lon := 0
  spacecraft := 55

example : OnGrid cropped.gt 3000.40307617188 3000.40307617188 1756 1656 ∧ Near 1756 ∧ Near 1656 ∧ Standard 3000.40307617188 :=
  ⟨rfl, by unfold Near; omega, by unfold Near; omega, .inl rfl⟩

example : ∃ g, exportGrib cropped = .ok (some g) ∧ g.x0 = 100 ∧ g.y0 = 200 := by
  obtain ⟨g, h, h1, h2, _⟩ := (C44_grib_start cropped 100 200 rfl (by omega) (by omega)).1 rfl
  exact ⟨g, h, h1, h2⟩

end Msat.Props
