import Mathlib.Tactic.FieldSimp
import Mathlib.Tactic.Ring
import Mathlib.Tactic.Linarith
import Mathlib.Tactic.NormNum
import Mathlib.Tactic.SplitIfs
import Verif.Spec.Geo

/-
C17 Inverted geotransforms.
C18 Pixel and projected coordinates.
C19 Crop windows lie inside the image.
C20 Crop and resize keep the georeference.
-/
namespace Msat.Props
open Msat Geo GeoSpec

theorem invert_some {n m : GT} (h : invert n = some m) :
    det n ≠ 0 ∧ m = ⟨(n.g2 * n.g3 - n.g0 * n.g5) / det n, n.g5 / det n, -n.g2 / det n,
      (-n.g1 * n.g3 + n.g0 * n.g4) / det n, -n.g4 / det n, n.g1 / det n⟩ := by
  unfold invert at h
  simp only at h
  split at h
  · cases h
  · rename_i hd
    have h0 : det n ≠ 0 := by
      intro h0
      apply hd
      rw [show n.g1 * n.g5 - n.g2 * n.g4 = det n from rfl, h0, abs_zero]
      norm_num
    refine ⟨h0, ?_⟩
    simp only [Option.some.injEq] at h
    rw [← h]
    simp only [mul_one_div, show n.g1 * n.g5 - n.g2 * n.g4 = det n from rfl]

/-- When the inversion succeeds, the two maps undo each other, at every point and both ways. -/
theorem C17_mutual_inverses {n m : GT} (h : invert n = some m) (p : Rat × Rat) :
    affine m (affine n p) = p ∧ affine n (affine m p) = p := by
  obtain ⟨h0, rfl⟩ := invert_some h
  obtain ⟨x, y⟩ := p
  have hd : det n = n.g1 * n.g5 - n.g2 * n.g4 := rfl
  simp only [affine, Prod.mk.injEq]
  refine ⟨⟨?_, ?_⟩, ?_, ?_⟩ <;> field_simp <;> rw [hd] <;> ring

/-- The inversion fails exactly when the determinant is smaller than 10⁻¹⁵ in absolute value. -/
theorem C17_fails_iff (n : GT) : invert n = none ↔ |det n| < 1 / 10 ^ 15 := by
  rw [show (1 : Rat) / 10 ^ 15 = 1 / 1000000000000000 by norm_num]
  unfold invert
  simp only [show n.g1 * n.g5 - n.g2 * n.g4 = det n from rfl]
  split
  · rename_i h; simp only [h]
  · rename_i h; simp only [h, reduceCtorEq]

/-- A singular matrix is never inverted. -/
theorem C17_singular (n : GT) (h : det n = 0) : invert n = none := by
  rw [C17_fails_iff, h]; norm_num

/-- Inverting twice gives the matrix back, unless the inverse is too flat to be inverted. -/
theorem C17_involution {n m : GT} (h : invert n = some m) (hd : |det n| ≤ 10 ^ 15) : invert m = some n := by
  obtain ⟨h0, hm⟩ := invert_some h
  have hdm : det m = 1 / det n := by
    rw [hm]
    have hd : det n = n.g1 * n.g5 - n.g2 * n.g4 := rfl
    rw [show det (GT.mk ((n.g2 * n.g3 - n.g0 * n.g5) / det n) (n.g5 / det n) (-n.g2 / det n)
      ((-n.g1 * n.g3 + n.g0 * n.g4) / det n) (-n.g4 / det n) (n.g1 / det n)) =
      n.g5 / det n * (n.g1 / det n) - -n.g2 / det n * (-n.g4 / det n) from rfl]
    field_simp
    rw [hd]; ring
  cases hi : invert m with
  | none =>
    rw [C17_fails_iff, hdm, abs_div, abs_one, div_lt_div_iff₀ (abs_pos.2 h0) (by norm_num)] at hi
    linarith
  | some k =>
    obtain ⟨_, hk⟩ := invert_some hi
    rw [hk, hdm, hm]
    have hd : det n = n.g1 * n.g5 - n.g2 * n.g4 := rfl
    obtain ⟨a, b, c, d, e, f⟩ := n
    simp only [Option.some.injEq, GT.mk.injEq]
    simp only at hd
    refine ⟨?_, ?_, ?_, ?_, ?_, ?_⟩ <;> field_simp <;> rw [hd] <;> ring

example : invert ⟨-5568000, 3000, 0, 5568000, 0, -3000⟩ = some ⟨1856, 1 / 3000, 0, 1856, 0, -1 / 3000⟩ := by
  decide +kernel

/-! ## C18 -/

theorem lrint_near (q : Rat) (n : Int) (h : |q - n| < 1 / 2) : lrint q = n := by
  rw [abs_lt] at h
  have f1 := Int.floor_le q
  have f2 := Int.lt_floor_add_one q
  have h1 : ⌊q⌋ ≤ n := by
    have : ((⌊q⌋ : Int) : Rat) < (n : Rat) + 1 := by linarith
    have : ⌊q⌋ < n + 1 := by exact_mod_cast this
    omega
  have h2 : n ≤ ⌊q⌋ + 1 := by
    have : (n : Rat) < (⌊q⌋ : Rat) + 2 := by linarith
    have : n < ⌊q⌋ + 2 := by exact_mod_cast this
    omega
  unfold lrint
  simp only
  rcases (by omega : ⌊q⌋ = n ∨ ⌊q⌋ = n - 1) with e | e
  · rw [e, if_pos (by linarith)]
  · have : ((n - 1 : Int) : Rat) = (n : Rat) - 1 := by push_cast; ring
    rw [e, if_neg (by rw [this]; linarith), if_pos (by rw [this]; linarith)]
    omega

theorem lrint_int (n : Int) : lrint (n : Rat) = n := lrint_near _ _ (by simp)

/-- A pixel converted to projected coordinates and back is the same pixel, for every georeference that
can be inverted. -/
theorem C18_pixel_round_trip {gt inv : GT} (h : invert gt = some inv) (x y : Int) :
    projectedToPixel inv (pixelToProjected gt x y).1 (pixelToProjected gt x y).2 = (x, y) := by
  have e := (C17_mutual_inverses h ((x : Rat), (y : Rat))).1
  simp only [affine, Prod.mk.injEq] at e
  obtain ⟨e1, e2⟩ := e
  unfold projectedToPixel pixelToProjected
  simp only [Prod.mk.injEq]
  constructor
  · rw [mul_comm _ inv.g1, mul_comm _ inv.g2, e1, lrint_int]
  · rw [mul_comm _ inv.g4, mul_comm _ inv.g5, e2, lrint_int]

/-- More generally every point that lies less than half a pixel away from the centre of a pixel, in the
coordinates of the image, is converted to that pixel. -/
theorem C18_nearest_pixel {gt inv : GT} (h : invert gt = some inv) (x y : Int) (u v : Rat)
    (hu : |u - x| < 1 / 2) (hv : |v - y| < 1 / 2) :
    projectedToPixel inv (affine gt (u, v)).1 (affine gt (u, v)).2 = (x, y) := by
  have e := (C17_mutual_inverses h (u, v)).1
  simp only [affine, Prod.mk.injEq] at e
  obtain ⟨e1, e2⟩ := e
  unfold projectedToPixel
  simp only [affine, Prod.mk.injEq]
  constructor
  · rw [mul_comm _ inv.g1, mul_comm _ inv.g2, e1, lrint_near _ _ hu]
  · rw [mul_comm _ inv.g4, mul_comm _ inv.g5, e2, lrint_near _ _ hv]

/-- Offsets and pixel sizes are recovered from the matrix they define. -/
theorem C18_offsets_recovered (xs ys : Int) (psx psy : Rat) (hx : psx ≠ 0) (hy : psy ≠ 0) :
    decodeGeotransform ⟨-(xs * psx), psx, 0, ys * psy, 0, -psy⟩ = (xs, ys, psx, psy) := by
  unfold decodeGeotransform
  simp only [neg_neg, Prod.mk.injEq, and_true]
  constructor
  · rw [mul_div_assoc, div_self hx, mul_one, lrint_int]
  · rw [mul_div_assoc, div_self hy, mul_one, lrint_int]

/-- Every georeference with a pixel size of at least a millionth can be inverted. -/
theorem C18_invertible (xs ys : Int) (psx psy : Rat) (hx : 1 / 10 ^ 6 ≤ |psx|) (hy : 1 / 10 ^ 6 ≤ |psy|) :
    ∃ inv, invert ⟨-(xs * psx), psx, 0, ys * psy, 0, -psy⟩ = some inv := by
  cases h : invert ⟨-(xs * psx), psx, 0, ys * psy, 0, -psy⟩ with
  | some m => exact ⟨m, rfl⟩
  | none =>
    rw [C17_fails_iff] at h
    simp only [det, zero_mul, sub_zero, abs_mul, abs_neg] at h
    have : (1 / 10 ^ 6 : Rat) * (1 / 10 ^ 6) ≤ |psx| * |psy| :=
      mul_le_mul hx hy (by norm_num) (abs_nonneg _)
    exfalso
    norm_num at h this
    linarith

example : projectedToPixel ⟨1856, 1 / 3000, 0, 1856, 0, -1 / 3000⟩ (-5568000 + 3000 * 7) (5568000 - 3000 * 9)
    = (7, 9) := by decide +kernel

/-! ## C19 -/

theorem beyond_ok {off size limit : Int} {b : Bool} (h : beyond off size limit = .ok b) :
    b = decide (limit < off + size) := by
  unfold beyond addInt at h
  split at h
  · simp only [Outcome.ok_bind, Outcome.pure_eq, Outcome.ok.injEq] at h
    exact h.symm
  · cases h

theorem bind_ok {α β : Type} {o : Outcome α} {f : α → Outcome β} {b : β} (h : (o >>= f) = .ok b) :
    ∃ a, o = .ok a ∧ f a = .ok b := by
  cases o with
  | ok a => exact ⟨a, rfl, h⟩
  | throws m => cases h
  | ub => cases h
  | terminate => cases h
  | diverges => cases h

theorem verifyWin_inside {w w' : Win} {nx ny : Int} (h : verifyWin w nx ny = .ok (some w')) :
    w' = w ∧ Inside w nx ny := by
  unfold verifyWin at h
  split at h
  · cases h
  · rename_i hn
    obtain ⟨b, hb, h⟩ := bind_ok h
    have := beyond_ok hb
    cases b with
    | true => cases h
    | false =>
      simp only [Bool.false_eq_true, if_false] at h
      obtain ⟨b', hb', h⟩ := bind_ok h
      have h2 := beyond_ok hb'
      cases b' with
      | true => cases h
      | false =>
        simp only [Bool.false_eq_true, if_false, Outcome.ok.injEq, Option.some.injEq] at h
        have a1 : ¬ nx < w.xoff + w.xsize := by simpa using this.symm
        have a2 : ¬ ny < w.yoff + w.ysize := by simpa using h2.symm
        refine ⟨h.symm, ?_⟩
        unfold Inside
        omega

/-- Whatever was requested, as pixels or as projected coordinates, the window that is used lies inside of
the image and has positive size. -/
theorem C19_window_inside {w : Win} {p : ProjWin} {gt : GT} {nx ny : Int} {w' : Win}
    (h : sourceWin w p gt nx ny = .ok (some w')) : Inside w' nx ny := by
  unfold sourceWin at h
  obtain ⟨o, _, h⟩ := bind_ok h
  cases o with
  | none => cases h
  | some v =>
    obtain ⟨e, hi⟩ := verifyWin_inside h
    rw [e]; exact hi

theorem beyond_small {off size limit : Int} (h2 : -2147483648 ≤ off + size)
    (h3 : off + size ≤ 2147483647) : beyond off size limit = .ok (decide (limit < off + size)) := by
  unfold beyond addInt isInt
  rw [if_pos (by simp only [Bool.and_eq_true, decide_eq_true_eq]; omega)]
  rfl

/-- A window given in pixels is used as it is when it lies inside of the image, and is rejected
otherwise; no window stands for the whole image.  This holds when offset plus size does not overflow. -/
theorem C19_pixel_window_partial (w : Win) (gt : GT) (nx ny : Int)
    (hx : w.xoff + w.xsize ≤ 2147483647) (hy : w.yoff + w.ysize ≤ 2147483647)
    (hs : ¬ (w.xsize = 0 ∧ w.ysize = 0)) :
    (Inside w nx ny → sourceWin w {} gt nx ny = .ok (some w)) ∧
    (¬ Inside w nx ny → sourceWin w {} gt nx ny = .ok none) := by
  have e : sourceWin w {} gt nx ny = verifyWin w nx ny := by
    unfold sourceWin projectedWin defaultWin
    simp only [if_neg hs]
    rw [if_neg (by decide)]
    rfl
  rw [e]
  unfold verifyWin
  by_cases hn : w.xoff < 0 ∨ w.yoff < 0 ∨ w.xsize ≤ 0 ∨ w.ysize ≤ 0
  · rw [if_pos hn]
    refine ⟨fun hi => ?_, fun _ => rfl⟩
    unfold Inside at hi
    omega
  · rw [if_neg hn, beyond_small (by omega) hx, beyond_small (by omega) hy]
    simp only [Outcome.ok_bind]
    unfold Inside
    constructor
    · intro hi
      rw [if_neg (by simpa using (by omega : w.xoff + w.xsize ≤ nx)),
        if_neg (by simpa using (by omega : w.yoff + w.ysize ≤ ny))]
    · intro hi
      by_cases h1 : nx < w.xoff + w.xsize
      · rw [if_pos (by simpa using h1)]
      · rw [if_neg (by simpa using h1), if_pos (by simp only [decide_eq_true_eq]; omega)]

/-- When nothing is requested the whole image is selected. -/
theorem C19_whole_image (gt : GT) (nx ny : Int) (hx : 0 < nx ∧ nx ≤ 2147483647)
    (hy : 0 < ny ∧ ny ≤ 2147483647) : sourceWin ⟨0, 0, 0, 0⟩ {} gt nx ny = .ok (some ⟨0, 0, nx, ny⟩) := by
  have := (C19_pixel_window_partial ⟨0, 0, nx, ny⟩ gt nx ny (by simp; omega) (by simp; omega) (by simp; omega)).1
    (by unfold Inside; simp only; omega)
  rw [← this]
  unfold sourceWin projectedWin defaultWin
  simp only [and_self, if_true]
  rw [if_neg (by decide), if_neg (by decide), if_neg (by omega)]

theorem toInt_floor {q : Rat} {x : Int} (h0 : 0 ≤ x) (hx : x ≤ 2147483647) (h1 : (x : Rat) ≤ q)
    (h2 : q < (x : Rat) + 1) : toInt q = .ok x := by
  have e : ⌊q⌋ = x := Int.floor_eq_iff.2 ⟨h1, h2⟩
  have hq : 0 ≤ q := le_trans (by exact_mod_cast h0) h1
  unfold toInt
  simp only [if_pos hq, e]
  rw [if_pos (by unfold isInt; simp only [Bool.and_eq_true, decide_eq_true_eq]; omega)]

/-- A window given in projected coordinates on an image with the north up: the pixels selected are those
whose offsets are the requested corner in pixel units, cut to whole pixels (with a tolerance of a
thousandth), and whose numbers are the requested sizes in pixel units, rounded to whole pixels. -/
theorem C19_projected_window (p : ProjWin) (gt : GT) (nx ny : Int) (w0 w : Win)
    (hp : p.given = true) (hn : gt.g2 = 0 ∧ gt.g4 = 0) (h1 : gt.g1 ≠ 0) (h5 : gt.g5 ≠ 0)
    (hx : nx ≤ 2147483647) (hy : ny ≤ 2147483647) (hw : Inside w nx ny)
    (ex : (w.xoff : Rat) ≤ (p.ulx - gt.g0) / gt.g1 + 1 / 1000 ∧ (p.ulx - gt.g0) / gt.g1 + 1 / 1000 < w.xoff + 1)
    (ey : (w.yoff : Rat) ≤ (p.uly - gt.g3) / gt.g5 + 1 / 1000 ∧ (p.uly - gt.g3) / gt.g5 + 1 / 1000 < w.yoff + 1)
    (sx : (w.xsize : Rat) ≤ (p.lrx - p.ulx) / gt.g1 + 1 / 2 ∧ (p.lrx - p.ulx) / gt.g1 + 1 / 2 < w.xsize + 1)
    (sy : (w.ysize : Rat) ≤ (p.lry - p.uly) / gt.g5 + 1 / 2 ∧ (p.lry - p.uly) / gt.g5 + 1 / 2 < w.ysize + 1) :
    sourceWin w0 p gt nx ny = .ok (some w) := by
  unfold Inside at hw
  have e : projectedWin p gt nx ny (defaultWin w0 nx ny) = .ok (some w) := by
    unfold projectedWin divThenInt
    rw [if_pos hp, if_neg (by simp [hn.1, hn.2]), if_neg h1, if_neg h5, if_neg h1, if_neg h5,
      toInt_floor (by omega) (by omega) ex.1 ex.2, toInt_floor (by omega) (by omega) ey.1 ey.2,
      toInt_floor (by omega) (by omega) sx.1 sx.2, toInt_floor (by omega) (by omega) sy.1 sy.2]
    simp only [Outcome.ok_bind]
    rw [if_neg (by omega), beyond_small (by omega) (by omega), beyond_small (by omega) (by omega)]
    simp only [Outcome.ok_bind]
    rw [if_neg (by simp only [decide_eq_true_eq]; omega), if_neg (by simp only [decide_eq_true_eq]; omega)]
  unfold sourceWin
  rw [e, Outcome.ok_bind]
  dsimp only
  unfold verifyWin
  rw [if_neg (by omega), beyond_small (by omega) (by omega), beyond_small (by omega) (by omega)]
  simp only [Outcome.ok_bind]
  rw [if_neg (by simp only [decide_eq_true_eq]; omega), if_neg (by simp only [decide_eq_true_eq]; omega)]

/-- In particular, asking for the rectangle between two pixel corners, in projected coordinates, selects
exactly the pixels between them. -/
theorem C19_aligned_projected_window (gt : GT) (nx ny : Int) (w0 w : Win)
    (hn : gt.g2 = 0 ∧ gt.g4 = 0) (h1 : gt.g1 ≠ 0) (h5 : gt.g5 ≠ 0)
    (hx : nx ≤ 2147483647) (hy : ny ≤ 2147483647) (hw : Inside w nx ny) (ul lr : Rat × Rat)
    (hul : ul = affine gt (w.xoff, w.yoff))
    (hlr : lr = affine gt (w.xoff + w.xsize, w.yoff + w.ysize)) :
    sourceWin w0 ⟨ul.1, ul.2, lr.1, lr.2⟩ gt nx ny = .ok (some w) := by
  obtain ⟨h2, h4⟩ := hn
  have hpos : (0 : Rat) < w.xsize := by
    unfold Inside at hw
    exact_mod_cast hw.2.2.1
  have a1 : ul.1 = gt.g0 + gt.g1 * w.xoff := by rw [hul]; simp [affine, h2]
  have a2 : ul.2 = gt.g3 + gt.g5 * w.yoff := by rw [hul]; simp [affine, h4]
  have b1 : lr.1 = gt.g0 + gt.g1 * (w.xoff + w.xsize) := by rw [hlr]; simp [affine, h2]
  have b2 : lr.2 = gt.g3 + gt.g5 * (w.yoff + w.ysize) := by rw [hlr]; simp [affine, h4]
  have c1 : (ul.1 - gt.g0) / gt.g1 = w.xoff := by rw [a1]; field_simp; ring
  have c2 : (ul.2 - gt.g3) / gt.g5 = w.yoff := by rw [a2]; field_simp; ring
  have c3 : (lr.1 - ul.1) / gt.g1 = w.xsize := by rw [a1, b1]; field_simp; ring
  have c4 : (lr.2 - ul.2) / gt.g5 = w.ysize := by rw [a2, b2]; field_simp; ring
  refine C19_projected_window _ gt nx ny w0 w ?_ ⟨h2, h4⟩ h1 h5 hx hy hw ?_ ?_ ?_ ?_
  · by_contra hg
    simp only [ProjWin.given, ne_eq, Bool.or_eq_true, decide_eq_true_eq, not_or, Decidable.not_not] at hg
    obtain ⟨⟨⟨g1, _⟩, g3⟩, _⟩ := hg
    rw [g1, g3] at c3
    simp at c3
    rw [← c3] at hpos
    exact lt_irrefl _ hpos
  all_goals dsimp only
  · rw [c1]; constructor <;> linarith
  · rw [c2]; constructor <;> linarith
  · rw [c3]; constructor <;> linarith
  · rw [c4]; constructor <;> linarith

example : sourceWin ⟨0, 0, 0, 0⟩ ⟨-5568000 + 3000 * 100, 5568000 - 3000 * 50, -5568000 + 3000 * 110, 5568000 - 3000 * 70⟩
    ⟨-5568000, 3000, 0, 5568000, 0, -3000⟩ 3712 3712 = .ok (some ⟨100, 50, 10, 20⟩) := by decide +kernel

/-- An offset near the end of the `int` range makes the check itself overflow: undefined behaviour, not a
rejection. -/
theorem C19_violated_overflow (gt : GT) : sourceWin ⟨2147483647, 0, 1, 1⟩ {} gt 3712 3712 = .ub := by
  unfold sourceWin projectedWin
  rw [if_neg (by decide)]
  decide +kernel

theorem areaFold (corners : List (Int × Int)) : ∀ a b c d : Int,
    let r := corners.foldl (fun (st : Int × Int × Int × Int) (q : Int × Int) =>
      (if q.1 < st.1 then q.1 else st.1, if q.2 < st.2.1 then q.2 else st.2.1,
       if st.2.2.1 < q.1 then q.1 else st.2.2.1, if st.2.2.2 < q.2 then q.2 else st.2.2.2)) (a, b, c, d)
    r.1 ≤ a ∧ r.2.1 ≤ b ∧ c ≤ r.2.2.1 ∧ d ≤ r.2.2.2 ∧
    ∀ q ∈ corners, r.1 ≤ q.1 ∧ r.2.1 ≤ q.2 ∧ q.1 ≤ r.2.2.1 ∧ q.2 ≤ r.2.2.2 := by
  induction corners with
  | nil => intro a b c d; simp
  | cons q qs ih =>
    intro a b c d
    simp only [List.foldl_cons]
    have h := ih (if q.1 < a then q.1 else a) (if q.2 < b then q.2 else b)
      (if c < q.1 then q.1 else c) (if d < q.2 then q.2 else d)
    simp only at h
    generalize List.foldl _ _ qs = r at h ⊢
    obtain ⟨r1, r2, r3, r4⟩ := r
    obtain ⟨h1, h2, h3, h4, h5⟩ := h
    dsimp only at h1 h2 h3 h4 h5
    have e : r1 ≤ a ∧ r2 ≤ b ∧ c ≤ r3 ∧ d ≤ r4 ∧ r1 ≤ q.1 ∧ r2 ≤ q.2 ∧ q.1 ≤ r3 ∧ q.2 ≤ r4 := by
      split at h1 <;> split at h2 <;> split at h3 <;> split at h4 <;> omega
    refine ⟨e.1, e.2.1, e.2.2.1, e.2.2.2.1, ?_⟩
    intro p hp
    rcases List.mem_cons.1 hp with rfl | hp
    · exact e.2.2.2.2
    · exact h5 p hp

/-- The window of an area given by its corners encloses all the corners. -/
theorem C19_area_encloses_corners (nx ny : Int) (corners : List (Int × Int)) :
    ∀ q ∈ corners, (areaWin nx ny corners).xoff ≤ q.1 ∧ (areaWin nx ny corners).yoff ≤ q.2 ∧
      q.1 ≤ (areaWin nx ny corners).xoff + (areaWin nx ny corners).xsize ∧
      q.2 ≤ (areaWin nx ny corners).yoff + (areaWin nx ny corners).ysize := by
  intro q hq
  have := (areaFold corners nx ny 0 0).2.2.2.2 q hq
  simp only [areaWin]
  refine ⟨this.1, this.2.1, ?_, ?_⟩
  · rw [add_sub_cancel]; exact this.2.2.1
  · rw [add_sub_cancel]; exact this.2.2.2

example : sourceWin ⟨100, 200, 50, 60⟩ {} ⟨0, 1, 0, 0, 0, 1⟩ 3712 3712 = .ok (some ⟨100, 200, 50, 60⟩) := by
  decide +kernel

example : sourceWin ⟨0, 0, 0, 0⟩ ⟨1000, 2000, 4000, 500⟩ ⟨0, 10, 0, 3000, 0, -10⟩ 500 300
    = .ok (some ⟨100, 100, 300, 150⟩) := by decide +kernel

/-! ## C20 -/

/-- Every point of the output is georeferenced where the point of the source that it shows was. -/
theorem C20_crop_resize (gt : GT) (w : Win) (nox noy : Int) (p : Rat × Rat) :
    affine (outTransform gt w nox noy) p = affine gt (sourcePoint w nox noy p) := by
  simp only [affine, outTransform, sourcePoint, Prod.mk.injEq]
  constructor <;> ring

/-- In particular a crop without resize moves the origin only. -/
theorem C20_crop_only (gt : GT) (w : Win) (hx : w.xsize ≠ 0) (hy : w.ysize ≠ 0) (x y : Int) :
    pixelToProjected (outTransform gt w w.xsize w.ysize) x y
      = pixelToProjected gt (w.xoff + x) (w.yoff + y) := by
  have hx' : (w.xsize : Rat) ≠ 0 := by exact_mod_cast hx
  have hy' : (w.ysize : Rat) ≠ 0 := by exact_mod_cast hy
  simp only [pixelToProjected, outTransform, Prod.mk.injEq, div_self hx', div_self hy']
  push_cast
  constructor <;> ring

/-- The corners of the output are the corners of the source window. -/
theorem C20_corners (gt : GT) (w : Win) (nox noy : Int) (hx : nox ≠ 0) (hy : noy ≠ 0) :
    affine (outTransform gt w nox noy) (0, 0) = affine gt ((w.xoff : Rat), (w.yoff : Rat)) ∧
    affine (outTransform gt w nox noy) ((nox : Rat), (noy : Rat))
      = affine gt ((w.xoff : Rat) + w.xsize, (w.yoff : Rat) + w.ysize) := by
  have hx' : (nox : Rat) ≠ 0 := by exact_mod_cast hx
  have hy' : (noy : Rat) ≠ 0 := by exact_mod_cast hy
  rw [C20_crop_resize, C20_crop_resize]
  simp only [sourcePoint]
  rw [mul_div_right_comm, mul_div_right_comm, mul_div_right_comm (nox : Rat), mul_div_right_comm (noy : Rat),
    div_self hx', div_self hy']
  simp

/-- When bounds are given, the corners of the output are the bounds. -/
theorem C20_bounds (ulx uly lrx lry : Rat) (nox noy : Int) (hx : nox ≠ 0) (hy : noy ≠ 0) :
    affine (boundsTransform ulx uly lrx lry nox noy) (0, 0) = (ulx, uly) ∧
    affine (boundsTransform ulx uly lrx lry nox noy) ((nox : Rat), (noy : Rat)) = (lrx, lry) := by
  have hx' : (nox : Rat) ≠ 0 := by exact_mod_cast hx
  have hy' : (noy : Rat) ≠ 0 := by exact_mod_cast hy
  simp only [affine, boundsTransform, Prod.mk.injEq]
  refine ⟨⟨by ring, by ring⟩, ?_, ?_⟩ <;> field_simp <;> ring

/-- A ground control point stays on the point of the source it refers to. -/
theorem C20_control_points (w : Win) (nox noy : Int) (hx : nox ≠ 0) (hy : noy ≠ 0) (hw : w.xsize ≠ 0)
    (hh : w.ysize ≠ 0) (pixel line : Rat) :
    sourcePoint w nox noy (outGCP w nox noy pixel line) = (pixel, line) := by
  have hx' : (nox : Rat) ≠ 0 := by exact_mod_cast hx
  have hy' : (noy : Rat) ≠ 0 := by exact_mod_cast hy
  have hw' : (w.xsize : Rat) ≠ 0 := by exact_mod_cast hw
  have hh' : (w.ysize : Rat) ≠ 0 := by exact_mod_cast hh
  simp only [sourcePoint, outGCP, Prod.mk.injEq]
  constructor <;> field_simp <;> ring

/-- The output stays invertible: crop and resize never make a georeference singular. -/
theorem C20_determinant (gt : GT) (w : Win) (nox noy : Int) :
    det (outTransform gt w nox noy) = det gt * (w.xsize / nox) * (w.ysize / noy) := by
  simp only [det, outTransform]; ring

example : outTransform ⟨-5568000, 3000, 0, 5568000, 0, -3000⟩ ⟨100, 200, 50, 60⟩ 25 30
    = ⟨-5268000, 6000, 0, 4968000, 0, -6000⟩ := by decide +kernel

end Msat.Props
