import Mathlib.Tactic.IntervalCases
import Verif.Model.Computed
import Verif.Spec.Computed
import Verif.Spec.Solar
import Verif.Props.C17_C20
import Verif.Props.C48
import Verif.Props.C79
import Verif.Props.C84

/-
C106: every pixel of a computed image is computed for its place on earth; the place of a pixel and the pixel of a place.
-/
namespace Msat.Props
open Msat Geo GeoSpec Solar SolarSpec Computed ComputedSpec

/-! ### Windows line by line -/

theorem grid_get {α : Type} (f : Nat → Nat → α) (x w i : Nat) (hi : i < w) : ∀ (h y j : Nat), j < h →
    ((List.range' y h).flatMap fun iy => (List.range' x w).map fun ix => f ix iy)[j * w + i]? = some (f (x + i) (y + j))
  | 0, _, _, hj => by omega
  | h + 1, y, j, hj => by
    rw [List.range'_succ, List.flatMap_cons]
    cases j with
    | zero =>
      rw [List.getElem?_append_left (by rw [List.length_map, List.length_range']; omega), List.getElem?_map,
        List.getElem?_range' (by omega)]
      simp
    | succ j =>
      have e : (j + 1) * w = j * w + w := by rw [Nat.add_mul, Nat.one_mul]
      rw [List.getElem?_append_right (by rw [List.length_map, List.length_range']; omega), List.length_map, List.length_range',
        show (j + 1) * w + i - w = j * w + i by omega, grid_get f x w i hi h (y + 1) j (by omega)]
      congr 2
      omega

theorem grid_map {α β : Type} (f : Nat → Nat → α) (g : α → β) (x w y h : Nat) :
    ((List.range' y h).flatMap fun iy => (List.range' x w).map fun ix => f ix iy).map g =
      (List.range' y h).flatMap fun iy => (List.range' x w).map fun ix => g (f ix iy) := by
  rw [List.map_flatMap]
  congr 1
  funext iy
  rw [List.map_map]
  rfl

theorem compute_get (p : PixelToLatlon) (x y w h i j : Nat) (hi : i < w) (hj : j < h) :
    (compute p x y w h)[j * w + i]? = some (place p.gt p.toGeo (x + i) (y + j)) := by
  unfold compute projected
  rw [grid_map, grid_get _ x w i hi h y j hj]
  rfl

theorem in_block (c b : Nat) : c / b * b + c % b = c := by rw [Nat.mul_comm]; exact Nat.div_add_mod c b

theorem compute_pixel (p : PixelToLatlon) (bx bz : Nat) (hx : 0 < bx) (hz : 0 < bz) (c l : Nat) :
    (compute p (c / bx * bx) (l / bz * bz) bx bz)[l % bz * bx + c % bx]? = some (place p.gt p.toGeo c l) := by
  rw [compute_get p _ _ bx bz _ _ (Nat.mod_lt _ hx) (Nat.mod_lt _ hz), in_block, in_block]

theorem window_pixel (r : Raster) (bx bz : Nat) (hx : 0 < bx) (hz : 0 < bz) (c l : Nat) (raw : List ℝ)
    (h : readWindow r (c / bx * bx) (l / bz * bz) bx bz = some raw) : raw[l % bz * bx + c % bx]? = some (r.value c l) := by
  unfold readWindow at h
  split at h
  · rw [← Option.some.inj h, grid_get _ _ bx _ (Nat.mod_lt _ hx) bz _ _ (Nat.mod_lt _ hz), in_block, in_block]
  · cases h

theorem window_read (r : Raster) (bx bz : Nat) (hdx : bx ∣ r.sx) (hdz : bz ∣ r.sy) (hx : 0 < bx) (hz : 0 < bz) (c l : Nat)
    (hc : c < r.sx) (hl : l < r.sy) : ∃ raw, readWindow r (c / bx * bx) (l / bz * bz) bx bz = some raw := by
  have key : ∀ n b c : Nat, b ∣ n → 0 < b → c < n → c / b * b + b ≤ n := by
    rintro n b c ⟨k, rfl⟩ hb hc
    have : c / b < k := Nat.div_lt_of_lt_mul hc
    calc c / b * b + b = (c / b + 1) * b := by rw [Nat.add_mul, Nat.one_mul]
      _ ≤ k * b := Nat.mul_le_mul_right _ this
      _ = b * k := Nat.mul_comm _ _
  unfold readWindow Sources.rasterIO
  rw [if_pos (decide_eq_true ⟨key _ _ _ hdx hx hc, key _ _ _ hdz hz hl⟩)]
  exact ⟨_, rfl⟩

/-- A dataset with the date `d`, a geotransform, a projection that can be inverted by the library, and blocks. -/
def ReadyImage (proto : Prototype) (d : ToolSpec.Date) (gt : GT) (unproject : Rat × Rat → Option (ℝ × ℝ)) : Prop :=
  d.Valid ∧ (1 ≤ ToolSpec.decimal d.month ∧ ToolSpec.decimal d.month ≤ 12) ∧ proto.datetime = XritOpenSpec.bytes d.text ∧
    proto.geo.gt = some gt ∧ (∃ srs, proto.geo.srs = some srs ∧ srs.geographic = true ∧ srs.toGeo = some unproject) ∧
    0 < proto.bx ∧ 0 < proto.bz

/-- Day of the year and hour of a date. -/
def dayOf (d : ToolSpec.Date) : Int :=
  (Spec.daysBeforeMonth (ToolSpec.decimal d.year) (ToolSpec.decimal d.month) : Int) + ToolSpec.decimal d.day
noncomputable def hourOf (d : ToolSpec.Date) : ℝ := (ToolSpec.decimal d.hour : ℝ) + (ToolSpec.decimal d.minute : ℝ) / 60

theorem new_p2ll {proto : Prototype} {d gt unproject} (h : ReadyImage proto d gt unproject) :
    newPixelToLatlon proto.geo = .ok ⟨gt, unproject⟩ := by
  obtain ⟨_, _, _, h1, ⟨srs, h2, h3, h4⟩, _⟩ := h
  unfold newPixelToLatlon
  rw [h1]
  dsimp only
  rw [h2]
  dsimp only
  rw [if_pos h3, h4]

theorem time_ready {proto : Prototype} {d gt unproject} (h : ReadyImage proto d gt unproject) :
    ∃ q : Rat, XritOpen.timeOf proto.datetime = .ok (dayOf d, q) ∧ (q : ℝ) = hourOf d := by
  obtain ⟨hv, hm, hd, _⟩ := h
  refine ⟨_, by rw [hd]; exact C84_time d hv hm, ?_⟩
  unfold hourOf
  push_cast
  ring

/-! ### Images -/

/-- The image of the cosine of the zenith angle of the sun has, at every pixel, the value for the place of that pixel on the day and at the
hour of the dataset, for every size of blocks. -/
theorem C106_sun (proto : Prototype) (d : ToolSpec.Date) (gt : GT) (unproject : Rat × Rat → Option (ℝ × ℝ))
    (h : ReadyImage proto d gt unproject) :
    ∃ img, cosImage proto = .ok img ∧
      ∀ c l, img c l = some (cosSolZaPixel (dayOf d) (hourOf d) (place gt unproject c l)) := by
  obtain ⟨q, e1, e2⟩ := time_ready h
  refine ⟨_, by unfold cosImage; rw [e1, Outcome.ok_bind, new_p2ll h]; rfl, fun c l => ?_⟩
  obtain ⟨_, _, _, _, _, hx, hz⟩ := h
  unfold pixelOf cosBlock
  dsimp only
  rw [List.getElem?_map, compute_pixel _ _ _ hx hz, e2]
  rfl

/-- In other words: there is a direction of the sun such that every pixel on earth has the cosine of the angle between that direction and
the vertical of its place, and 0 if the sun is not over the horizon; pixels in space have 0. -/
theorem C106_sun_direction (proto : Prototype) (d : ToolSpec.Date) (gt : GT) (unproject : Rat × Rat → Option (ℝ × ℝ))
    (h : ReadyImage proto d gt unproject) :
    ∃ img sun, cosImage proto = .ok img ∧ len sun = 1 ∧ ∀ c l,
      (place gt unproject c l = none → img c l = some 0) ∧
      ∀ lat lon, place gt unproject c l = some (lat, lon) →
        (dot (vertical lat lon) sun ≤ 0 → img c l = some 0) ∧
        (tinyDouble ≤ dot (vertical lat lon) sun → img c l = some (dot (vertical lat lon) sun)) := by
  obtain ⟨img, e, hi⟩ := C106_sun proto d gt unproject h
  obtain ⟨sun, h1, h2⟩ := C68_direction (dayOf d) (hourOf d)
  refine ⟨img, sun, e, h1, fun c l => ⟨fun hp => ?_, fun lat lon hp => ?_⟩⟩
  · rw [hi, hp, (C68_band _ _ 0 0).1]
  · obtain ⟨_, b1, b2⟩ := C68_band (dayOf d) (hourOf d) lat lon
    rw [hi, hp, ← h2]
    exact ⟨fun g => by rw [b1 g], fun g => by rw [b2 g]⟩

theorem month_days (y m : Nat) (h1 : 1 ≤ m) (h2 : m ≤ 12) : 1 ≤ Spec.daysInMonth y m := by
  interval_cases m <;>
    first
    | exact (by decide : 1 ≤ 31)
    | exact (by decide : 1 ≤ 30)
    | (show 1 ≤ if Spec.isLeap y then 29 else 28; split <;> omega)

theorem int16_small (a : Int) (h0 : 0 ≤ a) (h : a < 32768) : Int.bmod a (2 ^ 16) = a := Int.bmod_eq_of_le (by omega) (by omega)

/-- The image of the day has the day of the year at every pixel. -/
theorem C106_day (proto : Prototype) (d : ToolSpec.Date) (hv : d.Valid)
    (hm : 1 ≤ ToolSpec.decimal d.month ∧ ToolSpec.decimal d.month ≤ 12) (hd : proto.datetime = XritOpenSpec.bytes d.text)
    (hx : 0 < proto.bx) (hz : 0 < proto.bz) :
    ∃ img, jdayImage proto = .ok img ∧ ∀ c l, img c l = some (dayOf d) := by
  have e := C84_time d hv hm
  rw [← hd] at e
  refine ⟨_, by unfold jdayImage; rw [e]; rfl, fun c l => ?_⟩
  unfold pixelOf jdayBlock
  dsimp only
  have hlt : l % proto.bz * proto.bx + c % proto.bx < proto.bx * proto.bz := by
    have h1 := Nat.mod_lt l hz
    have h2 := Nat.mod_lt c hx
    calc l % proto.bz * proto.bx + c % proto.bx < l % proto.bz * proto.bx + proto.bx := by omega
      _ = (l % proto.bz + 1) * proto.bx := by rw [Nat.add_mul, Nat.one_mul]
      _ ≤ proto.bz * proto.bx := Nat.mul_le_mul_right _ h1
      _ = proto.bx * proto.bz := Nat.mul_comm _ _
  rw [List.getElem?_replicate, if_pos hlt]
  have hday : ToolSpec.decimal d.day < 10 ^ 2 := (bytes_digits 2 d.day hv.1.2.2.1 (fun c h => hv.2 c (.inr (.inr (.inl h))))).2
  have hb : Spec.daysBeforeMonth (ToolSpec.decimal d.year) (ToolSpec.decimal d.month) ≤ 366 := by
    have := dayOfYear_lt (ToolSpec.decimal d.year) (ToolSpec.decimal d.month) 1 ⟨hm.1, hm.2, le_refl _,
      month_days _ _ hm.1 hm.2⟩
    have : Spec.yearLen (ToolSpec.decimal d.year) ≤ 366 := by unfold Spec.yearLen; split <;> omega
    omega
  exact congrArg some (int16_small _ (by omega) (by omega))

/-- The image of the zenith angle of the satellite has, at every pixel whose place is not more than 1 radian away from it, the angle between the
vertical and a satellite over longitude 0; pixels in space have 0. -/
theorem C106_satellite_partial (proto : Prototype) (d : ToolSpec.Date) (gt : GT) (unproject : Rat × Rat → Option (ℝ × ℝ))
    (h : ReadyImage proto d gt unproject) :
    ∃ img, satImage proto = .ok img ∧ ∀ c l,
      (place gt unproject c l = none → img c l = some 0) ∧
      ∀ lat lon, place gt unproject c l = some (lat, lon) →
        ∃ z, IsZenithAngle lat lon (satellite 0 (1 / rrh)) z ∧ (tinyDouble ≤ z → z ≤ 1 → img c l = some z) := by
  refine ⟨_, by unfold satImage; rw [new_p2ll h]; rfl, fun c l => ?_⟩
  obtain ⟨_, _, _, _, _, hx, hz⟩ := h
  unfold pixelOf satBlock
  dsimp only
  rw [List.getElem?_map, compute_pixel _ _ _ hx hz]
  refine ⟨fun hp => ?_, fun lat lon hp => ?_⟩
  · show some (satZaPixel (place gt unproject c l)) = _
    rw [hp]
    rfl
  · refine ⟨satZa lat lon, C69_zenith lat lon, fun g1 g2 => ?_⟩
    show some (satZaPixel (place gt unproject c l)) = _
    rw [hp, (C69_band_partial lat lon).2 g1 g2]

/-- The reflectance of channels 1, 2, 3 and 12: if the blocks divide the image, every pixel has the reflectance for the radiance there, the irradiance
of the channel, the distance of the sun on that day, and the position of the sun at its place and at that hour, if this is at least ten degrees
over the horizon and the reflectance is between 0 and 100 percent; pixels in space have 0. -/
theorem C106_reflectance_partial (channel : Int) (E : ℝ) (hE : irradiance channel = some E) (proto : Prototype) (d : ToolSpec.Date) (gt : GT)
    (unproject : Rat × Rat → Option (ℝ × ℝ)) (h : ReadyImage proto d gt unproject) (src : Raster) (hdx : proto.bx ∣ src.sx)
    (hdz : proto.bz ∣ src.sy) :
    ∃ img, reflectanceImage channel proto src = .ok img ∧ ∀ c l, c < src.sx → l < src.sy →
      (place gt unproject c l = none → img c l = some 0) ∧
      ∀ lat lon, place gt unproject c l = some (lat, lon) → cos80 ≤ cosSolZa (dayOf d) (hourOf d) lat lon →
        (let r := reflectance (src.value c l * src.slope + src.offset) E (esd (dayOf d)) (cosSolZa (dayOf d) (hourOf d) lat lon)
         tinyFloat ≤ r → r ≤ 100 → img c l = some r) := by
  obtain ⟨q, e1, e2⟩ := time_ready h
  have htr : Solar.tr channel (dayOf d) = some (E / esd (dayOf d) ^ 2) := by rw [C48_channels, hE]; rfl
  refine ⟨_, by unfold reflectanceImage; rw [e1, Outcome.ok_bind, new_p2ll h, Outcome.ok_bind]; dsimp only; rw [htr]; rfl, ?_⟩
  intro c l hc hl
  have key : pixelOf (singleBlock ⟨gt, unproject⟩ (E / esd (dayOf d) ^ 2) (dayOf d) (q : ℝ) src proto.bx proto.bz) proto.bx proto.bz c l =
      some (singlePixel (E / esd (dayOf d) ^ 2) (dayOf d) (hourOf d) (src.value c l) src.slope src.offset (place gt unproject c l)) := by
    obtain ⟨raw, hr⟩ := window_read src proto.bx proto.bz hdx hdz h.2.2.2.2.2.1 h.2.2.2.2.2.2 c l hc hl
    unfold pixelOf singleBlock
    rw [hr]
    dsimp only
    rw [List.getElem?_zipWith, window_pixel src _ _ h.2.2.2.2.2.1 h.2.2.2.2.2.2 c l raw hr, compute_pixel _ _ _ h.2.2.2.2.2.1 h.2.2.2.2.2.2, e2]
  refine ⟨fun hp => ?_, fun lat lon hp hcos => ?_⟩
  · refine key.trans ?_
    rw [hp]
    rfl
  · intro r g1 g2
    obtain ⟨t, ht, hv⟩ := C48_value channel E hE (dayOf d) (hourOf d) (src.value c l) src.slope src.offset lat lon hcos
    rw [htr] at ht
    refine key.trans ?_
    rw [hp, Option.some.inj ht, hv g1 g2]

/-- The reflectance of channel IR 3.9: if the blocks divide the three images, every pixel has the value for the brightness temperatures of the same
pixel of the three images, its place, the day and the hour. -/
theorem C106_reflectance39_partial (other : Fp) (proto : Prototype) (d : ToolSpec.Date) (gt : GT)
    (unproject : Rat × Rat → Option (ℝ × ℝ)) (h : ReadyImage proto d gt unproject) (r039 r108 r134 : Raster)
    (hs1 : r108.sx = r039.sx ∧ r108.sy = r039.sy) (hs2 : r134.sx = r039.sx ∧ r134.sy = r039.sy) (hdx : proto.bx ∣ r039.sx)
    (hdz : proto.bz ∣ r039.sy) :
    ∃ img, reflectance39Image other proto r039 r108 r134 = .ok img ∧ ∀ c l, c < r039.sx → l < r039.sy →
      img c l = some (pixel39 other (dayOf d) (hourOf d) (r039.value c l * r039.slope + r039.offset)
        (r108.value c l * r108.slope + r108.offset) (r134.value c l * r134.slope + r134.offset) (place gt unproject c l)) := by
  obtain ⟨q, e1, e2⟩ := time_ready h
  refine ⟨_, by unfold reflectance39Image; rw [e1, Outcome.ok_bind, new_p2ll h]; rfl, fun c l hc hl => ?_⟩
  have hx := h.2.2.2.2.2.1
  have hz := h.2.2.2.2.2.2
  obtain ⟨a, ha⟩ := window_read r039 proto.bx proto.bz hdx hdz hx hz c l hc hl
  obtain ⟨b, hb⟩ := window_read r108 proto.bx proto.bz (hs1.1 ▸ hdx) (hs1.2 ▸ hdz) hx hz c l (by omega) (by omega)
  obtain ⟨e, he⟩ := window_read r134 proto.bx proto.bz (hs2.1 ▸ hdx) (hs2.2 ▸ hdz) hx hz c l (by omega) (by omega)
  unfold pixelOf block39
  dsimp only
  rw [ha]
  dsimp only
  rw [hb]
  dsimp only
  rw [he]
  dsimp only
  rw [List.getElem?_zipWith, (List.getElem?_zip_eq_some (z := (r039.value c l, r108.value c l, r134.value c l))).mpr ⟨?_, ?_⟩,
    compute_pixel _ _ _ hx hz, e2]
  · rfl
  · exact window_pixel _ _ _ hx hz c l a ha
  · exact List.getElem?_zip_eq_some.mpr ⟨window_pixel _ _ _ hx hz c l b hb, window_pixel _ _ _ hx hz c l e he⟩

/-! ### Places and pixels -/

/-- A dataset with a geotransform that can be inverted and a projection that the library can transform in both directions. -/
def Referenced (g : Georeference) (gt : GT) (unproject : Rat × Rat → Option (ℝ × ℝ)) (project : ℝ × ℝ → Option (Rat × Rat)) : Prop :=
  g.gt = some gt ∧ ¬ |det gt| < 1 / 10 ^ 15 ∧ g.srs = some ⟨true, some unproject, some project⟩

theorem init_referenced {g gt unproject project} (h : Referenced g gt unproject project) :
    ∃ inv, invert gt = some inv ∧ initGeoReferencer g = .ok (some ⟨gt, inv, some unproject, some project⟩) := by
  obtain ⟨h1, h2, h3⟩ := h
  cases e : invert gt with
  | none => exact absurd ((C17_fails_iff gt).mp e) h2
  | some inv =>
    refine ⟨inv, rfl, ?_⟩
    unfold initGeoReferencer
    rw [h1]
    dsimp only
    rw [e]
    dsimp only
    rw [h3]
    rfl

/-- The place of a pixel is the same as the one that computed images are made for; and the pixel of that place is that pixel, if the library projects
it back. -/
theorem C106_pixel_and_place (g : Georeference) (gt : GT) (unproject : Rat × Rat → Option (ℝ × ℝ)) (project : ℝ × ℝ → Option (Rat × Rat))
    (h : Referenced g gt unproject project) :
    ∃ r, initGeoReferencer g = .ok (some r) ∧
      (∀ c l : Nat, pixelToLatlon r c l = .ok (place gt unproject c l)) ∧
      (Inverse unproject project → ∀ (c l : Nat) p, place gt unproject c l = some p → latlonToPixel r p = .ok (some ((c : Int), (l : Int)))) := by
  obtain ⟨inv, e, hr⟩ := init_referenced h
  refine ⟨_, hr, fun c l => ?_, fun hi c l p hp => ?_⟩
  · unfold pixelToLatlon projectedToLatlon place pixelToProjected affine
    simp only [Int.cast_natCast]
  · unfold place at hp
    obtain ⟨q, hq, rfl⟩ := Option.map_eq_some_iff.mp hp
    unfold latlonToPixel latlonToProjected
    dsimp only
    rw [hi _ _ hq, Outcome.ok_bind]
    have := C18_pixel_round_trip e (c : Int) (l : Int)
    unfold pixelToProjected at this
    simp only [Int.cast_natCast] at this
    unfold affine
    dsimp only
    rw [this]
    rfl

/-- The pixel of a place is the nearest one: a place that is projected less than half a pixel away from the position of a pixel is given that pixel. -/
theorem C106_nearest (g : Georeference) (gt : GT) (unproject : Rat × Rat → Option (ℝ × ℝ)) (project : ℝ × ℝ → Option (Rat × Rat))
    (h : Referenced g gt unproject project) (lat lon : ℝ) (u v : Rat) (hp : project (lon, lat) = some (affine gt (u, v))) (x y : Int)
    (hu : |u - x| < 1 / 2) (hv : |v - y| < 1 / 2) :
    ∃ r, initGeoReferencer g = .ok (some r) ∧ latlonToPixel r (lat, lon) = .ok (some (x, y)) := by
  obtain ⟨inv, e, hr⟩ := init_referenced h
  refine ⟨_, hr, ?_⟩
  unfold latlonToPixel latlonToProjected
  dsimp only
  rw [hp, Outcome.ok_bind]
  dsimp only
  rw [C18_nearest_pixel e x y u v hu hv]
  rfl

/-- Images computed for places refuse a dataset without geotransform or without spatial reference. -/
theorem C106_refused_places (g : Georeference) (h : g.gt = none ∨ g.srs = none) : Outcome.Throws (newPixelToLatlon g) := by
  unfold newPixelToLatlon
  cases e : g.gt with
  | none => exact trivial
  | some gt =>
    dsimp only
    rcases h with h | h
    · rw [h] at e; cases e
    · rw [h]; exact trivial

/-- A dataset without georeference, or whose geotransform cannot be inverted, is refused. -/
theorem C106_refused (g : Georeference) (h : g.gt = none ∨ g.srs = none ∨ ∃ gt, g.gt = some gt ∧ |det gt| < 1 / 10 ^ 15)  :
    initGeoReferencer g = .ok none := by
  unfold initGeoReferencer
  cases e : g.gt with
  | none => rfl
  | some gt =>
    dsimp only
    cases ei : invert gt with
    | none => rfl
    | some inv =>
      dsimp only
      rcases h with h | h | ⟨gt', h, hd⟩
      · rw [h] at e; cases e
      · rw [h]
      · rw [h] at e
        rw [← C17_fails_iff, Option.some.inj e, ei] at hd
        cases hd

/-- Discrepancy: a spatial reference without a geographic coordinate system (such as a local one) is not refused: the null pointer given by the library
is used, by images computed for places and by the georeferencer; so is the null pointer for a transformation that the library does not
have, and the georeferencer then uses it when it is asked for a place or a pixel. -/
theorem C106_violated_null (gt inv : GT) (hinv : invert gt = some inv) (unproject : Option (Rat × Rat → Option (ℝ × ℝ)))
    (project : Option (ℝ × ℝ → Option (Rat × Rat))) :
    newPixelToLatlon ⟨some gt, some ⟨false, unproject, project⟩⟩ = .ub ∧
    initGeoReferencer ⟨some gt, some ⟨false, unproject, project⟩⟩ = .ub ∧
    newPixelToLatlon ⟨some gt, some ⟨true, none, project⟩⟩ = .ub ∧
    ∃ r, initGeoReferencer ⟨some gt, some ⟨true, none, none⟩⟩ = .ok (some r) ∧
      (∀ x y, pixelToLatlon r x y = .ub) ∧ ∀ p, latlonToPixel r p = .ub := by
  refine ⟨rfl, ?_, rfl, ⟨gt, inv, none, none⟩, ?_, fun _ _ => rfl, fun _ => rfl⟩ <;>
  · unfold initGeoReferencer
    dsimp only
    rw [hinv]
    rfl

/-! ### Copies -/

theorem verify_inside (w : Win) (nx ny : Int) (hb : nx ≤ 2147483647 ∧ ny ≤ 2147483647) (h : Inside w nx ny) :
    verifyWin w nx ny = .ok (some w) := by
  obtain ⟨h1, h2, h3, h4, h5, h6⟩ := h
  unfold verifyWin
  rw [if_neg (by omega)]
  have hbey : ∀ o s n : Int, 0 ≤ o → 0 < s → o + s ≤ n → n ≤ 2147483647 → beyond o s n = .ok false := by
    intro o s n p1 p2 p3 p4
    unfold beyond addInt isInt
    rw [if_pos (by simp only [Bool.and_eq_true, decide_eq_true_eq]; omega), Outcome.ok_bind, decide_eq_false (by omega)]
    rfl
  rw [hbey _ _ _ h1 h3 h5 hb.1, Outcome.ok_bind, if_neg (by simp), hbey _ _ _ h2 h4 h6 hb.2, Outcome.ok_bind, if_neg (by simp)]

theorem recode_inside (img : MsatTool.Image) (x0 y0 x1 y1 sx sy : Int) (hn : img.names ≠ [])
    (hb : img.nx ≤ 2147483647 ∧ img.ny ≤ 2147483647) (hin : Inside ⟨x0, y0, x1 - x0, y1 - y0⟩ img.nx img.ny) :
    recode img x0 y0 x1 y1 sx sy =
      .ok (some ⟨MsatTool.allBands img.names.length, ⟨x0, y0, x1 - x0, y1 - y0⟩, x1 - x0, y1 - y0⟩) := by
  have hw : defaultWin ⟨x0, y0, x1 - x0, y1 - y0⟩ img.nx img.ny = ⟨x0, y0, x1 - x0, y1 - y0⟩ := by
    unfold defaultWin
    rw [if_neg]
    rintro ⟨e, -⟩
    have := hin.2.2.1
    dsimp only at e this
    omega
  have hlen : img.names.length ≠ 0 := fun e => hn (List.length_eq_zero_iff.mp e)
  unfold recode MsatTool.translate MsatTool.start
  dsimp only
  rw [hw]
  unfold MsatTool.bandList
  dsimp only
  rw [if_pos rfl, if_neg hlen]
  dsimp only
  rw [verify_inside _ _ _ hb hin, Outcome.ok_bind]
  dsimp only
  split
  · rename_i g
    have g2 := g.2.1
    simp only [Win.mk.injEq] at g2
    obtain ⟨ga, gb, gc, gd⟩ := g2
    rw [Outcome.pure_eq, Outcome.ok_bind, gc, gd]
    rfl
  · rfl

/-- A copy of an area inside of an image has all the bands, the pixels of that area, and its size. -/
theorem C106_copy (img : MsatTool.Image) (x0 y0 x1 y1 : Int) (hn : img.names ≠ []) (hb : img.nx ≤ 2147483647 ∧ img.ny ≤ 2147483647)
    (hin : Inside ⟨x0, y0, x1 - x0, y1 - y0⟩ img.nx img.ny) :
    recodeArea img x0 y0 x1 y1 =
      .ok (some ⟨MsatTool.allBands img.names.length, ⟨x0, y0, x1 - x0, y1 - y0⟩, x1 - x0, y1 - y0⟩) :=
  recode_inside img x0 y0 x1 y1 _ _ hn hb hin

example : Inside ⟨10, 20, 110 - 10, 220 - 20⟩ 3712 3712 := by unfold Inside; decide

/-- An area that begins before the image, or that is empty in one direction only, or that ends before it begins, gives no copy. -/
theorem C106_copy_refused (img : MsatTool.Image) (x0 y0 x1 y1 : Int) (hn : img.names ≠ [])
    (h : x0 < 0 ∨ y0 < 0 ∨ x1 < x0 ∨ y1 < y0 ∨ (x1 = x0 ∧ y1 ≠ y0) ∨ (y1 = y0 ∧ x1 ≠ x0)) : recodeArea img x0 y0 x1 y1 = .ok none := by
  have hlen : img.names.length ≠ 0 := fun e => hn (List.length_eq_zero_iff.mp e)
  unfold recodeArea recode MsatTool.translate MsatTool.start
  dsimp only
  unfold MsatTool.bandList
  dsimp only
  rw [if_pos rfl, if_neg hlen]
  dsimp only
  have hv : verifyWin (defaultWin ⟨x0, y0, x1 - x0, y1 - y0⟩ img.nx img.ny) img.nx img.ny = .ok none := by
    unfold verifyWin defaultWin
    apply if_pos
    split
    · dsimp only at *
      omega
    · dsimp only at *
      omega
  rw [hv]
  rfl

example : recodeArea ⟨100, 100, ["a".toList]⟩ 10 10 5 20 = .ok none := C106_copy_refused _ _ _ _ _ (by simp) (by omega)

/-- Discrepancy: the functions that copy an image with a given size ignore it: the copy has the size of the area, or of the whole image. -/
theorem C106_violated_size (img : MsatTool.Image) (x0 y0 x1 y1 sx sy : Int) (hn : img.names ≠ []) (h0 : 0 < img.nx ∧ 0 < img.ny)
    (hb : img.nx ≤ 2147483647 ∧ img.ny ≤ 2147483647) :
    (Inside ⟨x0, y0, x1 - x0, y1 - y0⟩ img.nx img.ny → recode img x0 y0 x1 y1 sx sy =
      .ok (some ⟨MsatTool.allBands img.names.length, ⟨x0, y0, x1 - x0, y1 - y0⟩, x1 - x0, y1 - y0⟩)) ∧
    recodeSize img sx sy = .ok (some ⟨MsatTool.allBands img.names.length, ⟨0, 0, img.nx, img.ny⟩, img.nx, img.ny⟩) := by
  refine ⟨recode_inside img x0 y0 x1 y1 sx sy hn hb, ?_⟩
  have := recode_inside img 0 0 img.nx img.ny sx sy hn hb ⟨by simp, by simp, by simpa using h0.1, by simpa using h0.2, by simp, by simp⟩
  simp only [sub_zero] at this
  exact this

/-! ### A case -/

/-- A geotransform with pixels of 3 km, the corner at the middle of a disk of 3712 pixels. -/
def gt106 : GT := ⟨-5568000, 3000, 0, 5568000, 0, -3000⟩

/-- A projection: equidistant from the origin, on earth within 60 degrees. -/
noncomputable def unproject106 (p : Rat × Rat) : Option (ℝ × ℝ) :=
  if |p.1| ≤ 6000000 ∧ |p.2| ≤ 6000000 then some ((p.1 : ℝ) / 100000, (p.2 : ℝ) / 100000) else none

def date106 : ToolSpec.Date := ⟨"2010".toList, "06".toList, "21".toList, "12".toList, "00".toList, "00".toList⟩

noncomputable def proto106 : Prototype := ⟨XritOpenSpec.bytes date106.text, ⟨some gt106, some ⟨true, some unproject106, none⟩⟩, 3712, 1⟩

theorem valid106 : date106.Valid := by
  refine ⟨by decide, fun c h => ?_⟩
  have key : ∀ c ∈ date106.year ++ date106.month ++ date106.day ++ date106.hour ++ date106.minute ++ date106.second, '0' ≤ c ∧ c ≤ '9' := by
    decide
  apply key
  simp only [List.mem_append]
  tauto

theorem ready106 : ReadyImage proto106 date106 gt106 unproject106 :=
  ⟨valid106, by decide, rfl, rfl, ⟨_, rfl, rfl, rfl⟩, by decide, by decide⟩

example : dayOf date106 = 172 := by decide

/-- The pixel in column 1856 and line 1856 is at latitude 0 and longitude 0. -/
example : place gt106 unproject106 1856 1856 = some (0, 0) := by
  unfold place affine gt106 unproject106
  norm_num

/-- The pixel in column 1889 and line 1756 is at latitude 3 and longitude 0.99. -/
example : place gt106 unproject106 1889 1756 = some (3, 0.99) := by
  unfold place affine gt106 unproject106
  norm_num

open Classical in
/-- The projection that goes with it. -/
noncomputable def project106 (q : ℝ × ℝ) : Option (Rat × Rat) := if h : ∃ p, unproject106 p = some q then some h.choose else none

example : Inverse unproject106 project106 := by
  intro p q h
  have hinj : ∀ p p' : Rat × Rat, unproject106 p = some q → unproject106 p' = some q → p = p' := by
    intro p p' h h'
    unfold unproject106 at h h'
    split at h
    · split at h'
      · have e := Option.some.inj (h.trans h'.symm)
        simp only [Prod.mk.injEq] at e
        obtain ⟨e1, e2⟩ := e
        have e1 : (p.1 : ℝ) = p'.1 := by linarith
        have e2 : (p.2 : ℝ) = p'.2 := by linarith
        exact Prod.ext (by exact_mod_cast e1) (by exact_mod_cast e2)
      · cases h'
    · cases h
  have hex : ∃ p, unproject106 p = some q := ⟨p, h⟩
  unfold project106
  rw [dif_pos hex, hinj _ p hex.choose_spec h]

example : ¬ |det gt106| < 1 / 10 ^ 15 := by unfold det gt106; norm_num

example : ∃ src : Raster, proto106.bx ∣ src.sx ∧ proto106.bz ∣ src.sy ∧ 0 < src.sx := ⟨⟨3712, 3712, fun _ _ => 100, 1, 0⟩, by decide⟩

end Msat.Props
