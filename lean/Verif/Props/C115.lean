import Mathlib.Tactic.Linarith
import Verif.Lemmas.Outcome
import Verif.Spec.Boxes

/-
C115 Boxes of points.
-/
namespace Msat.Props
open Msat Boxes BoxesSpec

theorem min'_eq {α : Type} [LinearOrder α] (a b : α) : min' a b = min a b := by
  unfold min'
  exact min_def a b ▸ rfl

theorem max'_eq {α : Type} [LinearOrder α] (a b : α) : max' a b = max a b := by
  unfold max'
  split
  · next h => exact (max_eq_left h).symm
  · next h => exact (max_eq_right (le_of_not_ge h)).symm

theorem int_column {v : Int} (h : Column v) : toInt v = v := by
  unfold toInt
  obtain ⟨h1, h2⟩ := h
  omega

theorem column_min {a b : Int} (ha : Column a) (hb : Column b) : Column (min a b) := ⟨le_min ha.1 hb.1, lt_of_le_of_lt (min_le_left a b) ha.2⟩

theorem column_max {a b : Int} (ha : Column a) (hb : Column b) : Column (max a b) := ⟨le_trans ha.1 (le_max_left a b), max_lt ha.2 hb.2⟩

/-- For corners in an image, in any order, the bounding box is the smallest rectangle with both of them. -/
theorem C115_image (p q : Pt Int) (hp : Column p.x ∧ Column p.y) (hq : Column q.x ∧ Column q.y) :
    ∃ r, imageBounds ⟨p, q⟩ = .ok r ∧ 0 ≤ r.w ∧ 0 ≤ r.h ∧ Smallest r p q := by
  have w : ∀ {a b : Int}, Column a → Column b → minus (max a b) (min a b) = .ok (max a b - min a b) := by
    intro a b ha hb
    have h1 := column_min ha hb
    have h2 := column_max ha hb
    obtain ⟨⟨a1, a2⟩, b1, b2⟩ := And.intro h1 h2
    exact if_pos ⟨by omega, by omega⟩
  refine ⟨⟨min p.x q.x, min p.y q.y, max p.x q.x - min p.x q.x, max p.y q.y - min p.y q.y⟩, ?_, ?_, ?_, ?_⟩
  · unfold imageBounds
    simp only [min'_eq, max'_eq, int_column (column_min hp.1 hq.1), int_column (column_min hp.2 hq.2), int_column (column_max hp.1 hq.1),
      int_column (column_max hp.2 hq.2), w hp.1 hq.1, w hp.2 hq.2, Outcome.ok_bind, Outcome.pure_eq]
  · simp only; omega
  · simp only; omega
  · unfold Smallest Contains
    simp only
    refine ⟨⟨by omega, by omega, by omega, by omega⟩, ⟨by omega, by omega, by omega, by omega⟩, fun r' h1 h2 s hs => ⟨by omega, by omega, by omega, by omega⟩⟩

/-- The corners may be given in any order, and any two opposite corners of the rectangle will do. -/
theorem C115_image_order (b : Box (Pt Int)) : imageBounds ⟨b.bottomRight, b.topLeft⟩ = imageBounds b ∧
    imageBounds ⟨⟨b.topLeft.x, b.bottomRight.y⟩, ⟨b.bottomRight.x, b.topLeft.y⟩⟩ = imageBounds b := by
  unfold imageBounds
  simp only [min'_eq, max'_eq]
  exact ⟨by rw [min_comm b.bottomRight.x, min_comm b.bottomRight.y, max_comm b.bottomRight.x, max_comm b.bottomRight.y],
    by rw [min_comm b.bottomRight.y, max_comm b.bottomRight.y]⟩

/-- The same for projected coordinates, without limits. -/
theorem C115_projected (p q : Pt Rat) :
    0 ≤ (projectedBounds ⟨p, q⟩).w ∧ 0 ≤ (projectedBounds ⟨p, q⟩).h ∧ Smallest (projectedBounds ⟨p, q⟩) p q ∧
    projectedBounds ⟨q, p⟩ = projectedBounds ⟨p, q⟩ := by
  unfold projectedBounds Smallest Contains
  simp only [min'_eq, max'_eq]
  have a1 := min_le_left p.x q.x
  have a2 := min_le_right p.x q.x
  have a3 := le_max_left p.x q.x
  have a4 := le_max_right p.x q.x
  have b1 := min_le_left p.y q.y
  have b2 := min_le_right p.y q.y
  have b3 := le_max_left p.y q.y
  have b4 := le_max_right p.y q.y
  refine ⟨by linarith, by linarith, ⟨⟨a1, by linarith, b1, by linarith⟩, ⟨a2, by linarith, b2, by linarith⟩, fun r' h1 h2 s hs => ?_⟩, ?_⟩
  · obtain ⟨u1, u2, u3, u4⟩ := h1
    obtain ⟨v1, v2, v3, v4⟩ := h2
    obtain ⟨s1, s2, s3, s4⟩ := hs
    have m1 := le_min u1 v1
    have m2 := max_le u2 v2
    have m3 := le_min u3 v3
    have m4 := max_le u4 v4
    exact ⟨by linarith, by linarith, by linarith, by linarith⟩
  · rw [min_comm q.x, min_comm q.y, max_comm q.x, max_comm q.y]

/-- The bounding box of an area of the earth is the smallest one between two parallels and two meridians with both of the corners, in any order,
where the date line is at the edge of the map: see `C115_violated_date_line`. -/
theorem C115_map_partial (p q : MapPoint) : MapSmallest (mapBounds ⟨p, q⟩) p q ∧ mapBounds ⟨q, p⟩ = mapBounds ⟨p, q⟩ := by
  unfold mapBounds MapSmallest MapContains
  simp only [min'_eq, max'_eq]
  refine ⟨⟨⟨min_le_left _ _, le_max_left _ _, min_le_left _ _, le_max_left _ _⟩, ⟨min_le_right _ _, le_max_right _ _, min_le_right _ _, le_max_right _ _⟩,
    fun r' h1 h2 s hs => ⟨le_trans (le_min h1.1 h2.1) hs.1, le_trans hs.2.1 (max_le h1.2.1 h2.2.1), le_trans (le_min h1.2.2.1 h2.2.2.1) hs.2.2.1,
      le_trans hs.2.2.2 (max_le h1.2.2.2 h2.2.2.2)⟩⟩, ?_⟩
  rw [min_comm q.lat, min_comm q.lon, max_comm q.lat, max_comm q.lon]

/-- A box is said to be set exactly if it is not the one that is made without arguments. -/
theorem C115_set (b : Box (Pt Int)) (c : Box (Pt Rat)) (d : Box MapPoint) :
    (imageNonZero b = true ↔ b ≠ ⟨origin, origin⟩) ∧ (projectedNonZero c = true ↔ c ≠ ⟨projectedOrigin, projectedOrigin⟩) ∧
    (mapNonZero d = true ↔ d ≠ ⟨mapOrigin, mapOrigin⟩) := by
  obtain ⟨⟨b1, b2⟩, b3, b4⟩ := b
  obtain ⟨⟨c1, c2⟩, c3, c4⟩ := c
  obtain ⟨⟨d1, d2⟩, d3, d4⟩ := d
  unfold imageNonZero projectedNonZero mapNonZero origin projectedOrigin mapOrigin
  simp only [Bool.or_eq_true, bne_iff_ne, ne_eq, Box.mk.injEq, Pt.mk.injEq, MapPoint.mk.injEq]
  refine ⟨?_, ?_, ?_⟩ <;> tauto

/-- An area of an image, with the corners the other way round. -/
example : (Column 4200 ∧ Column 300) ∧ (Column 150 ∧ Column 500) ∧ imageBounds ⟨⟨4200, 300⟩, ⟨150, 500⟩⟩ = .ok ⟨150, 300, 4050, 200⟩ := by
  refine ⟨⟨⟨by decide, by decide⟩, by decide, by decide⟩, ⟨⟨by decide, by decide⟩, by decide, by decide⟩, by decide +kernel⟩

/-- Discrepancy: columns are `long` but the bounding box has `int`s: a corner in a column that is not an `int` is never in the rectangle. -/
theorem C115_violated_narrow (p q : Pt Int) (h : p.x < -2 ^ 31 ∨ 2 ^ 31 ≤ p.x) (r : Bounds Int) (hr : imageBounds ⟨p, q⟩ = .ok r) :
    ¬ Contains r p := by
  unfold imageBounds at hr
  obtain ⟨w, hw, hr⟩ := Outcome.of_bind_ok hr
  obtain ⟨z, hz, hr⟩ := Outcome.of_bind_ok hr
  injection hr with hr
  subst hr
  unfold minus at hw
  split at hw
  · injection hw with hw
    subst hw
    rintro ⟨h1, h2, -, -⟩
    simp only at h1 h2
    generalize min' p.x q.x = a at h1 h2
    generalize max' p.x q.x = b at h1 h2
    unfold toInt at h1 h2
    omega
  · cases hw

/-- A column that is not an `int`. -/
example : (2 : Int) ^ 31 ≤ 2 ^ 31 + 5 ∧ imageBounds ⟨⟨2 ^ 31 + 5, 0⟩, ⟨2 ^ 31 + 5, 7⟩⟩ = .ok ⟨-2 ^ 31 + 5, 0, 0, 7⟩ := by decide +kernel

/-- Discrepancy: a box that is 2^31 columns wide, or wider, has an undefined width, also if its columns are `int`s. -/
theorem C115_violated_overflow (p q : Pt Int) (h1 : -2 ^ 31 ≤ p.x) (h2 : q.x < 2 ^ 31) (h : 2 ^ 31 ≤ q.x - p.x) : imageBounds ⟨p, q⟩ = .ub := by
  unfold imageBounds
  have e1 : min p.x q.x = p.x := min_eq_left (by omega)
  have e2 : max p.x q.x = q.x := max_eq_right (by omega)
  have t1 : toInt p.x = p.x := by unfold toInt; omega
  have t2 : toInt q.x = q.x := by unfold toInt; omega
  simp only [min'_eq, max'_eq, e1, e2, t1, t2]
  have : minus q.x p.x = .ub := if_neg (by omega)
  rw [this]
  rfl

/-- Such a box. -/
example : -2 ^ 31 ≤ (-1 : Int) ∧ (2 ^ 31 - 1 : Int) < 2 ^ 31 ∧ 2 ^ 31 ≤ (2 ^ 31 - 1 : Int) - (-1) := by decide

/-- Discrepancy: for an area over the date line, from `west` eastwards to a smaller longitude, the bounding box is its complement: of all the
longitudes only the two of the corners are in both. -/
theorem C115_violated_date_line (p q : MapPoint) (h : q.lon < p.lon) (lat lon : Rat) (hlat : min p.lat q.lat ≤ lat ∧ lat ≤ max p.lat q.lat)
    (h1 : lon ≠ p.lon) (h2 : lon ≠ q.lon) : Eastwards p.lon q.lon lon ↔ ¬ MapContains (mapBounds ⟨p, q⟩) ⟨lat, lon⟩ := by
  unfold Eastwards mapBounds MapContains
  simp only [min'_eq, max'_eq]
  rw [if_neg (not_le.2 h), min_eq_right (le_of_lt h), max_eq_left (le_of_lt h)]
  constructor
  · rintro (h3 | h3) ⟨-, -, h4, h5⟩
    · exact h1 (le_antisymm h5 h3)
    · exact h2 (le_antisymm h3 h4)
  · intro hn
    by_contra hc
    rw [not_or, not_le, not_le] at hc
    exact hn ⟨hlat.1, hlat.2, le_of_lt hc.2, le_of_lt hc.1⟩

/-- An area in the Pacific: Fiji is in it, Europe is not, and the bounding box says the contrary. -/
example : Eastwards 170 (-170) 178 ∧ ¬ MapContains (mapBounds ⟨⟨10, 170⟩, ⟨-30, -170⟩⟩) ⟨-18, 178⟩ ∧
    ¬ Eastwards 170 (-170) 10 ∧ MapContains (mapBounds ⟨⟨10, 170⟩, ⟨-30, -170⟩⟩) ⟨-18, 10⟩ := by
  unfold Eastwards MapContains mapBounds min' max'
  norm_num

end Msat.Props
