import Mathlib.Tactic.Linarith
import Mathlib.Tactic.Positivity
import Mathlib.Algebra.Order.Field.Basic
import Verif.Model.Calibrated
import Verif.Spec.GribFile

/-
C81: forced calibration.
-/
namespace Msat.Props
open Msat Msat.Calibrated

/-- What a pixel of a band says: `none` if it is missing. -/
def bandMeasure (b : Band) (v : Rat) : Option Rat := GribSpec.measure b.nodata b.scale b.offset v

/-- The image has the same size, as many bands, with the same names, units and blocks; and the bands that are not counts are the same. -/
theorem C81_same (stack : Nat) (ds : Dataset) : (calibrated stack ds).nx = ds.nx ∧ (calibrated stack ds).ny = ds.ny ∧
    (calibrated stack ds).bands.length = ds.bands.length ∧
    ∀ (i : Nat) (b : Band), ds.bands[i]? = some b → ∃ b', (calibrated stack ds).bands[i]? = some b' ∧
      b'.name = b.name ∧ b'.units = b.units ∧ b'.bx = b.bx ∧ b'.by' = b.by' ∧ b'.uint16 = false ∧ (b.uint16 = false → b' = b) := by
  refine ⟨rfl, rfl, by simp [calibrated], ?_⟩
  intro i b h
  by_cases hu : b.uint16 = true
  · exact ⟨calibratedBand stack b, by simp [calibrated, h, hu], rfl, rfl, rfl, rfl, rfl, fun e => absurd (hu.symm.trans e) (by decide)⟩
  · exact ⟨proxyBand b, by simp [calibrated, h, hu], rfl, rfl, rfl, rfl, by simpa [proxyBand] using hu, fun _ => rfl⟩

/-- The block of counts that the band has, with as many pixels as a block has. -/
def HasBlock (b : Band) (x y : Nat) (raw : List Rat) : Prop := b.block x y = .ok (some raw) ∧ raw.length = b.bx * b.by'

/-- A block of the calibrated image has one pixel for each one of the block of the counts, which says the same of it if and only if the
missing counts are those whose calibrated value is zero.  Missing for the full property: the other images, see below. -/
theorem C81_measure_partial (stack : Nat) (b : Band) (hs : 2 * (b.bx * b.by') ≤ stack) (x y : Nat) (raw : List Rat)
    (hb : HasBlock b x y raw) :
    ∃ vs, (calibratedBand stack b).block x y = .ok (some vs) ∧ vs.length = raw.length ∧
      ∀ (i : Nat) (r v : Rat), raw[i]? = some r → vs[i]? = some v →
        (bandMeasure (calibratedBand stack b) v = bandMeasure b r ↔ (some r = b.nodata ↔ r * b.scale + b.offset = 0)) := by
  obtain ⟨hb, hl⟩ := hb
  refine ⟨raw.map fun v => v * b.scale + b.offset, ?_, by simp, ?_⟩
  · show calibratedBlock stack b x y = _
    unfold calibratedBlock
    rw [if_neg (by omega), show (proxyBand b).block x y = .ok (some raw) from hb]
    simp only [Outcome.ok_bind, Outcome.pure_eq]
    rw [← hl, List.take_length]
  · intro i r v hr hv
    rw [List.getElem?_map, hr] at hv
    simp only [Option.map_some, Option.some.injEq] at hv
    subst hv
    unfold bandMeasure GribSpec.measure
    show ((if some (r * b.scale + b.offset) = some 0 then none else some ((r * b.scale + b.offset) * 1 + 0)) = _) ↔ _
    simp only [Option.some.injEq, mul_one, add_zero]
    by_cases h1 : r * b.scale + b.offset = 0 <;> by_cases h2 : some r = b.nodata <;> simp [h1, h2]

/-- In particular: an image with positive scale whose missing count is -offset/scale, that is, the count of no radiance. -/
theorem C81_dark_partial (stack : Nat) (b : Band) (hs : 2 * (b.bx * b.by') ≤ stack) (hc : b.scale ≠ 0)
    (hn : b.nodata = some (-b.offset / b.scale)) (x y : Nat) (raw : List Rat) (hb : HasBlock b x y raw) :
    ∃ vs, (calibratedBand stack b).block x y = .ok (some vs) ∧ vs.map (bandMeasure (calibratedBand stack b)) = raw.map (bandMeasure b) := by
  obtain ⟨vs, e, hl, h⟩ := C81_measure_partial stack b hs x y raw hb
  refine ⟨vs, e, ?_⟩
  apply List.ext_getElem?
  intro i
  rw [List.getElem?_map, List.getElem?_map]
  rcases lt_or_ge i raw.length with hi | hi
  · rw [List.getElem?_eq_getElem hi, List.getElem?_eq_getElem (hl ▸ hi), Option.map_some, Option.map_some]
    congr 1
    refine (h i _ _ (List.getElem?_eq_getElem hi) (List.getElem?_eq_getElem (hl ▸ hi))).mpr ?_
    rw [hn, Option.some.injEq, eq_div_iff hc]
    constructor
    · intro h; linarith
    · intro h; linarith
  · rw [List.getElem?_eq_none hi, List.getElem?_eq_none (hl ▸ hi)]
    rfl

/-- A block that cannot be read is not made up. -/
theorem C81_failure (stack : Nat) (b : Band) (hs : 2 * (b.bx * b.by') ≤ stack) (x y : Nat) (h : b.block x y = .ok none) :
    (calibratedBand stack b).block x y = .ok none := by
  show calibratedBlock stack b x y = _
  unfold calibratedBlock
  rw [if_neg (by omega), show (proxyBand b).block x y = .ok none from h]
  rfl

/-- The range that the calibrated band gives has all the values, if the scale is not negative and that of the counts has all the counts. -/
theorem C81_range_partial (stack : Nat) (b : Band) (hs : 0 ≤ b.scale) (lo hi r : Rat) (h0 : b.min = some lo) (h1 : b.max = some hi)
    (hlo : lo ≤ r) (hhi : r ≤ hi) :
    ∃ lo' hi', (calibratedBand stack b).min = some lo' ∧ (calibratedBand stack b).max = some hi' ∧
      lo' ≤ r * b.scale + b.offset ∧ r * b.scale + b.offset ≤ hi' := by
  refine ⟨lo * b.scale + b.offset, hi * b.scale + b.offset, ?_, ?_, ?_, ?_⟩
  · show b.min.map _ = _
    rw [h0]; rfl
  · show b.max.map _ = _
    rw [h1]; rfl
  · have := mul_le_mul_of_nonneg_right hlo hs
    linarith
  · have := mul_le_mul_of_nonneg_right hhi hs
    linarith

/-- A band of an image with two pixels, with the calibration of a visible channel; 0 is missing. -/
def aVisible : Band :=
  ⟨true, 2, 1, 1 / 2, -25, some 0, none, none, [], [], fun _ _ => .ok (some [0, 300])⟩

example : HasBlock aVisible 0 0 [0, 300] ∧ 2 * (aVisible.bx * aVisible.by') ≤ 8388608 := by
  unfold HasBlock; exact ⟨⟨rfl, rfl⟩, by decide⟩

/-- The case of `C81_dark_partial`. -/
example : (⟨true, 2, 1, 1 / 2, -25, some 50, none, none, [], [], fun _ _ => .ok (some [50, 300])⟩ : Band).nodata =
    some (-(-25) / (1 / 2)) := by decide +kernel

example : (0 : Rat) ≤ aVisible.scale := by decide +kernel

/-! ### What is wrong -/

/-- Forced calibration: missing pixels of the counts, like the space around the Earth, become measures unless their calibrated value is
zero: the missing value is 0 for all bands, but it is the missing count times scale plus offset that is written. -/
theorem C81_violated_missing (stack : Nat) (b : Band) (hs : 2 * (b.bx * b.by') ≤ stack) (x y : Nat) (raw : List Rat)
    (hb : HasBlock b x y raw) (n : Rat) (hn : b.nodata = some n) (h0 : n * b.scale + b.offset ≠ 0) (i : Nat) (hi : raw[i]? = some n) :
    ∃ vs v, (calibratedBand stack b).block x y = .ok (some vs) ∧ vs[i]? = some v ∧ bandMeasure b n = none ∧
      bandMeasure (calibratedBand stack b) v = some (n * b.scale + b.offset) := by
  obtain ⟨hb, hl⟩ := hb
  refine ⟨raw.map fun v => v * b.scale + b.offset, n * b.scale + b.offset, ?_, by simp [hi], by simp [bandMeasure, GribSpec.measure, hn], ?_⟩
  · show calibratedBlock stack b x y = _
    unfold calibratedBlock
    rw [if_neg (by omega), show (proxyBand b).block x y = .ok (some raw) from hb]
    simp only [Outcome.ok_bind, Outcome.pure_eq]
    rw [← hl, List.take_length]
  · unfold bandMeasure GribSpec.measure
    show (if some (n * b.scale + b.offset) = some 0 then none else some ((n * b.scale + b.offset) * 1 + 0)) = _
    rw [if_neg (fun e => h0 (Option.some.inj e)), mul_one, add_zero]

example : HasBlock aVisible 0 0 [0, 300] ∧ (0 : Rat) * aVisible.scale + aVisible.offset ≠ 0 := by
  unfold HasBlock; exact ⟨⟨rfl, rfl⟩, by decide +kernel⟩

/-- Forced calibration: a pixel whose measure is zero becomes missing. -/
theorem C81_violated_zero (stack : Nat) (b : Band) (r : Rat) (hr : some r ≠ b.nodata) (h0 : r * b.scale + b.offset = 0) :
    bandMeasure b r = some 0 ∧ bandMeasure (calibratedBand stack b) (r * b.scale + b.offset) = none := by
  constructor
  · unfold bandMeasure GribSpec.measure
    rw [if_neg hr, h0]
  · rw [h0]
    rfl

example : some (50 : Rat) ≠ aVisible.nodata ∧ (50 : Rat) * aVisible.scale + aVisible.offset = 0 := by decide +kernel

/-- Forced calibration: the block of the counts is kept on the stack, which has no room for it if the band has one block for all the image,
like the bands of NetCDF files: a full disk image of 3712x3712 pixels needs 27 MB, and the stack usually has 8. -/
theorem C81_violated_stack (b : Band) (hx : b.bx = 3712) (hy : b.by' = 3712) (x y : Nat) : (calibratedBand 8388608 b).block x y = .ub := by
  show calibratedBlock 8388608 b x y = _
  unfold calibratedBlock
  rw [if_pos (by rw [hx, hy]; decide)]

/-- Forced calibration: with a negative scale the minimum is greater than the maximum. -/
theorem C81_violated_range (stack : Nat) (b : Band) (hs : b.scale < 0) (lo hi : Rat) (h0 : b.min = some lo) (h1 : b.max = some hi)
    (h : lo < hi) :
    ∃ lo' hi', (calibratedBand stack b).min = some lo' ∧ (calibratedBand stack b).max = some hi' ∧ hi' < lo' := by
  refine ⟨lo * b.scale + b.offset, hi * b.scale + b.offset, ?_, ?_, ?_⟩
  · show b.min.map _ = _
    rw [h0]; rfl
  · show b.max.map _ = _
    rw [h1]; rfl
  · have := mul_lt_mul_of_neg_right h hs
    linarith

end Msat.Props
