import Mathlib.Tactic.FieldSimp
import Mathlib.Tactic.Ring
import Mathlib.Tactic.Linarith
import Mathlib.Tactic.NormNum
import Verif.Props.C17_C20

/-
C53 Several images on one command line.
C54 Scaling of sample values.
C55 Limits on the size of the output image.
-/
namespace Msat.Props
open Msat Geo GeoSpec

/-! ## C53 -/

/-- What the program does with each image when it is alone on the command line. -/
def eachAlone (w : Win) : List (Int × Int) → Outcome (List (Option Win))
  | [] => .ok []
  | (nx, ny) :: rest => do
    let r ← sourceWin w {} ⟨0, 1, 0, 0, 0, 1⟩ nx ny
    let rs ← eachAlone w rest
    pure (r :: rs)

theorem sourceWin_pixel (w : Win) (gt : GT) (nx ny : Int) :
    sourceWin w {} gt nx ny = verifyWin (defaultWin w nx ny) nx ny := by
  unfold sourceWin projectedWin
  rw [if_neg (by decide)]
  rfl

/-- When a window is requested, each image is cropped as if it was the only one.  The full property, for
requests without a window too, does not hold: see below. -/
theorem C53_explicit_window_partial (w : Win) (hw : ¬ (w.xsize = 0 ∧ w.ysize = 0)) (images : List (Int × Int)) :
    mainWindows w images = eachAlone w images := by
  induction images with
  | nil => rfl
  | cons i is ih =>
    obtain ⟨nx, ny⟩ := i
    unfold mainWindows eachAlone
    rw [sourceWin_pixel]
    simp only [defaultWin, if_neg hw, ih]

/-- When no window is requested, and all the images have the same size, each is processed as if it was
the only one. -/
theorem C53_same_size_partial (nx ny : Int) (images : List (Int × Int)) (h : ∀ i ∈ images, i = (nx, ny)) :
    mainWindows ⟨0, 0, 0, 0⟩ images = eachAlone ⟨0, 0, 0, 0⟩ images := by
  by_cases h0 : nx = 0 ∧ ny = 0
  · induction images with
    | nil => rfl
    | cons i is ih =>
      have e := h i List.mem_cons_self
      subst e
      have hd : defaultWin ⟨0, 0, 0, 0⟩ nx ny = ⟨0, 0, 0, 0⟩ := by
        obtain ⟨rfl, rfl⟩ := h0; rfl
      unfold mainWindows eachAlone
      rw [sourceWin_pixel]
      simp only [hd, ih (fun j hj => h j (List.mem_cons_of_mem _ hj))]
  · have key : ∀ is : List (Int × Int), (∀ i ∈ is, i = (nx, ny)) →
        mainWindows ⟨0, 0, nx, ny⟩ is = eachAlone ⟨0, 0, 0, 0⟩ is := by
      intro is
      induction is with
      | nil => intro _; rfl
      | cons i is ih =>
        intro h
        have e := h i List.mem_cons_self
        subst e
        unfold mainWindows eachAlone
        rw [sourceWin_pixel]
        have hd : defaultWin ⟨0, 0, nx, ny⟩ nx ny = ⟨0, 0, nx, ny⟩ := by
          unfold defaultWin; rw [if_neg h0]
        have hd' : defaultWin ⟨0, 0, 0, 0⟩ nx ny = ⟨0, 0, nx, ny⟩ := by
          unfold defaultWin; rw [if_pos ⟨rfl, rfl⟩]
        simp only [hd, hd', ih (fun j hj => h j (List.mem_cons_of_mem _ hj))]
    cases images with
    | nil => rfl
    | cons i is =>
      have e := h i List.mem_cons_self
      subst e
      unfold mainWindows eachAlone
      rw [sourceWin_pixel]
      have hd' : defaultWin ⟨0, 0, 0, 0⟩ nx ny = ⟨0, 0, nx, ny⟩ := by
        unfold defaultWin; rw [if_pos ⟨rfl, rfl⟩]
      simp only [hd', key is (fun j hj => h j (List.mem_cons_of_mem _ hj))]

/-- Without a window, an image after a smaller one is cropped to the size of the first, and an image
after a larger one is rejected. -/
theorem C53_violated_different_sizes :
    mainWindows ⟨0, 0, 0, 0⟩ [(50, 40), (100, 80)] = .ok [some ⟨0, 0, 50, 40⟩, some ⟨0, 0, 50, 40⟩] ∧
    eachAlone ⟨0, 0, 0, 0⟩ [(50, 40), (100, 80)] = .ok [some ⟨0, 0, 50, 40⟩, some ⟨0, 0, 100, 80⟩] ∧
    mainWindows ⟨0, 0, 0, 0⟩ [(100, 80), (50, 40)] = .ok [some ⟨0, 0, 100, 80⟩, none] := by
  decide +kernel

example : mainWindows ⟨10, 10, 20, 20⟩ [(50, 40), (100, 80)]
    = .ok [some ⟨10, 10, 20, 20⟩, some ⟨10, 10, 20, 20⟩] := by decide +kernel

/-! ## C54 -/

/-- The sample written for a source sample. -/
def scaled (s : Rat × Rat) (v : Rat) : Rat := v * s.1 + s.2

/-- The ends of the source range go to the ends of the destination range, and everything in between goes
in between, in proportion. -/
theorem C54_range (a b c d : Rat) (hab : a ≠ b) (hcd : c ≠ d) (t : Rat) :
    scaled (scaling a b c d) (a + t * (b - a)) = c + t * (d - c) := by
  have h : b - a ≠ 0 := sub_ne_zero.2 (Ne.symm hab)
  simp only [scaled, scaling, if_neg (Ne.symm hab), if_neg (Ne.symm hcd)]
  field_simp
  ring

theorem C54_ends (a b c d : Rat) (hab : a ≠ b) (hcd : c ≠ d) :
    scaled (scaling a b c d) a = c ∧ scaled (scaling a b c d) b = d := by
  have h0 := C54_range a b c d hab hcd 0
  have h1 := C54_range a b c d hab hcd 1
  simp only [zero_mul, add_zero, one_mul, add_sub_cancel] at h0 h1
  exact ⟨h0, h1⟩

/-- Scaling keeps the order of the samples when both ranges are given in increasing order. -/
theorem C54_monotone (a b c d : Rat) (hab : a ≤ b) (hcd : c ≤ d) {v w : Rat} (h : v < w) :
    scaled (scaling a b c d) v < scaled (scaling a b c d) w := by
  have hs : 0 < (scaling a b c d).1 := by
    simp only [scaling]
    apply div_pos
    · split
      · rename_i e; rw [e]; norm_num
      · rename_i e; exact sub_pos.2 (lt_of_le_of_ne hcd (fun x => e x.symm))
    · split
      · rename_i e; rw [e]; norm_num
      · rename_i e; exact sub_pos.2 (lt_of_le_of_ne hab (fun x => e x.symm))
  simp only [scaled]
  have := mul_lt_mul_of_pos_right h hs
  linarith

/-- A source range of a single value still goes to the start of the destination range: there is no
division by zero. -/
theorem C54_flat_source (a c d : Rat) : scaled (scaling a a c d) a = c := by
  simp only [scaled, scaling, if_true]
  ring

example : scaling 0 1023 0 255 = (255 / 1023, 0) := by decide +kernel
example : scaled (scaling 5 5 0 255) 5 = 0 := by decide +kernel

/-! ## C55 -/

/-- The limits: 0 stands for no limit. -/
def Fits (limit size : Nat) : Prop := limit = 0 ∨ size ≤ limit

theorem scaleIfNeeded_cases {maxx maxy sx sy : Nat} :
    let t1 := if maxx ≠ 0 ∧ maxx < sx then (maxx, sy * maxx / sx) else (sx, sy)
    let t2 := if maxy ≠ 0 ∧ maxy < t1.2 then (t1.1 * maxy / t1.2, maxy) else t1
    scaleIfNeeded maxx maxy sx sy = if t2.1 ≠ sx ∧ t2.2 ≠ sy then some t2 else none := by
  unfold scaleIfNeeded
  rfl

theorem div_lt_of {a b c : Nat} (ha : 0 < a) (h : b < c) : a * b / c < a := by
  rw [Nat.div_lt_iff_lt_mul (by omega)]
  exact Nat.mul_lt_mul_of_pos_left h ha

theorem div_le_of {a b c : Nat} (h : b ≤ c) (hc : 0 < c) : a * b / c ≤ a := by
  rw [Nat.div_le_iff_le_mul_add_pred hc]
  have : a * b ≤ a * c := Nat.mul_le_mul_left _ h
  rw [Nat.mul_comm c a]; omega

/-- An image that fits is not scaled. -/
theorem C55_fitting_images_untouched {maxx maxy sx sy : Nat} (hx : Fits maxx sx) (hy : Fits maxy sy) :
    scaleIfNeeded maxx maxy sx sy = none := by
  unfold Fits at hx hy
  rw [scaleIfNeeded_cases]
  rw [if_neg (by omega : ¬ (maxx ≠ 0 ∧ maxx < sx))]
  dsimp only
  rw [if_neg (by omega : ¬ (maxy ≠ 0 ∧ maxy < sy)), if_neg (by simp)]

/-- An image that does not fit is scaled down in both dimensions, to a size that fits. -/
theorem C55_scaled_down_to_fit {maxx maxy sx sy : Nat} (h0 : 0 < sx) (h1 : 0 < sy)
    (h : ¬ (Fits maxx sx ∧ Fits maxy sy)) :
    ∃ tx ty, scaleIfNeeded maxx maxy sx sy = some (tx, ty) ∧ tx < sx ∧ ty < sy ∧ Fits maxx tx ∧ Fits maxy ty := by
  unfold Fits at h ⊢
  rw [scaleIfNeeded_cases]
  by_cases hx : maxx ≠ 0 ∧ maxx < sx
  · rw [if_pos hx]
    dsimp only
    have hlt : sy * maxx / sx < sy := div_lt_of h1 hx.2
    by_cases hy : maxy ≠ 0 ∧ maxy < sy * maxx / sx
    · rw [if_pos hy]
      dsimp only
      have hlt2 : maxx * maxy / (sy * maxx / sx) < maxx := div_lt_of (by omega) hy.2
      rw [if_pos (by omega)]
      exact ⟨_, _, rfl, by omega, by omega, by omega, by omega⟩
    · rw [if_neg hy]
      dsimp only
      rw [if_pos (by omega)]
      exact ⟨_, _, rfl, by omega, by omega, by omega, by omega⟩
  · rw [if_neg hx]
    dsimp only
    have hy : maxy ≠ 0 ∧ maxy < sy := by omega
    rw [if_pos hy]
    dsimp only
    have hlt2 : sx * maxy / sy < sx := div_lt_of h0 hy.2
    rw [if_pos (by omega)]
    exact ⟨_, _, rfl, by omega, by omega, by omega, by omega⟩

/-- A very elongated image is scaled to an empty one: the size asked for is zero in one dimension. -/
theorem C55_violated_elongated_image : scaleIfNeeded 1280 1280 3712 2 = some (1280, 0) := by decide

/-- A single line limit keeps the aspect ratio up to the rounding of one pixel. -/
theorem C55_aspect_ratio {maxx sx sy tx ty : Nat} (h0 : 0 < sx)
    (h : scaleIfNeeded maxx 0 sx sy = some (tx, ty)) :
    ty * sx ≤ sy * tx ∧ sy * tx < (ty + 1) * sx := by
  rw [scaleIfNeeded_cases] at h
  by_cases hx : maxx ≠ 0 ∧ maxx < sx
  · rw [if_pos hx, if_neg (by omega : ¬ (0 ≠ 0 ∧ 0 < (maxx, sy * maxx / sx).2))] at h
    dsimp only at h
    split at h
    · simp only [Option.some.injEq, Prod.mk.injEq] at h
      obtain ⟨rfl, rfl⟩ := h
      exact ⟨Nat.div_mul_le_self _ _, by rw [Nat.mul_comm (_ + 1)]; exact Nat.lt_mul_div_succ _ h0⟩
    · cases h
  · rw [if_neg hx, if_neg (by omega : ¬ (0 ≠ 0 ∧ 0 < (sx, sy).2)), if_neg (by simp)] at h
    cases h

example : scaleIfNeeded 1280 1280 3712 3712 = some (1280, 1280) := by decide
example : scaleIfNeeded 1280 1280 3712 1392 = some (1280, 480) := by decide

end Msat.Props
