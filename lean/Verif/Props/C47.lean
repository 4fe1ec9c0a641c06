import Verif.Spec.Stretch
import Mathlib.Tactic.Linarith
import Mathlib.Tactic.NormNum
import Mathlib.Tactic.FieldSimp
import Mathlib.Algebra.Order.Floor.Ring

/-
C47 Grey stretch is bounded and monotone.
-/
namespace Msat.Props
open Msat Stretch StretchSpec

theorem trunc_int (n : Int) : trunc (n : Rat) = n := by
  unfold trunc
  split
  · exact Int.floor_intCast n
  · exact Int.ceil_intCast n

theorem toUnsigned_some (n : Int) (q : Rat) :
    toUnsigned n (some q) = if 0 ≤ trunc q ∧ trunc q < n then .ok (trunc q) else .ub := rfl

/-- The grey of a value is between 0 and 255, and grows with the value. -/
theorem C47_grey (a b : Rat) (h : a < b) :
    (∀ v, 0 ≤ grey a b v ∧ grey a b v ≤ 255) ∧ ∀ v w, v ≤ w → grey a b v ≤ grey a b w := by
  have hd : 0 < b - a := by linarith
  have h0 : ∀ v, ¬ v ≤ a → 0 ≤ (v - a) * 255 / (b - a) := by
    intro v hv
    apply div_nonneg _ hd.le
    linarith
  have h1 : ∀ v, ¬ b ≤ v → (v - a) * 255 / (b - a) ≤ 255 := by
    intro v hv
    rw [div_le_iff₀ hd]
    linarith
  have hr : ∀ v, 0 ≤ grey a b v ∧ grey a b v ≤ 255 := by
    intro v
    unfold grey
    split
    · omega
    · rename_i hv
      split
      · omega
      · rename_i hw
        refine ⟨Int.floor_nonneg.2 (h0 v hv), ?_⟩
        have := (Int.floor_mono (h1 v hw))
        simpa using this
  refine ⟨hr, ?_⟩
  intro v w hvw
  by_cases c1 : v ≤ a
  · rw [show grey a b v = 0 by unfold grey; rw [if_pos c1]]
    exact (hr w).1
  by_cases c2 : b ≤ w
  · rw [show grey a b w = 255 by unfold grey; rw [if_neg (by linarith), if_pos c2]]
    exact (hr v).2
  have c3 : ¬ b ≤ v := by linarith
  have c4 : ¬ w ≤ a := by linarith
  unfold grey
  rw [if_neg c1, if_neg c3, if_neg c4, if_neg c2]
  apply Int.floor_mono
  rw [div_le_div_iff_of_pos_right hd]
  linarith

theorem rescaleOne_grey (k : Kind) (a b v : Rat) (h : a < b) :
    rescaleOne k (some a) (some b) (some v) = .ok (UInt8.ofNat (grey a b v).toNat) := by
  obtain ⟨hr, _⟩ := C47_grey a b h
  have hr := hr v
  have hd : 0 < b - a := by linarith
  unfold rescaleOne
  have e1 : eqv (some b) (some a) = false := by
    unfold eqv
    simp only [decide_eq_false_iff_not]
    intro e; linarith
  rw [e1]
  simp only [Bool.false_eq_true, if_false, lt, decide_eq_true_eq]
  by_cases c1 : v < a
  · rw [if_pos c1]
    unfold grey
    rw [if_pos c1.le]
    rfl
  rw [if_neg c1]
  by_cases c2 : b < v
  · rw [if_pos c2]
    unfold grey
    rw [if_neg (by linarith), if_pos c2.le]
    rfl
  rw [if_neg c2]
  have hq : ⌊(v - a) * 255 / (b - a)⌋ = grey a b v := by
    unfold grey
    split
    · rename_i c
      rw [show v = a by linarith]
      simp
    · split
      · rw [show v = b by linarith, show (b - a) * 255 / (b - a) = 255 by field_simp]
        rfl
      · rfl
  have hn : 0 ≤ (v - a) * 255 / (b - a) := by
    apply div_nonneg _ hd.le
    linarith
  have ht : trunc ((v - a) * 255 / (b - a)) = grey a b v := by
    unfold trunc
    rw [if_pos hn, hq]
  have hm : grey a b v % 256 = grey a b v := Int.emod_eq_of_lt hr.1 (by omega)
  cases k
  · show Outcome.ok (UInt8.ofNat (trunc (trunc _ : Rat) % 256).toNat) = _
    rw [trunc_int, ht, hm]
  · show Outcome.ok (UInt8.ofNat (trunc (trunc _ : Rat) % 256).toNat) = _
    rw [trunc_int, ht, hm]
  · show (toUnsigned 256 (some _) >>= fun n => pure (UInt8.ofNat n.toNat)) = _
    rw [toUnsigned_some]
    rw [ht, if_pos ⟨hr.1, by omega⟩]
    rfl

theorem rescale_grey (k : Kind) (a b : Rat) (h : a < b) : ∀ vals : List Rat,
    rescale k (some a) (some b) (vals.map some) = .ok (vals.map fun v => UInt8.ofNat (grey a b v).toNat)
  | [] => rfl
  | v :: vs => by
    show (rescaleOne k (some a) (some b) (some v) >>= fun x => rescale k (some a) (some b) (vs.map some) >>= fun xs =>
      pure (x :: xs)) = _
    rw [rescaleOne_grey k a b v h, rescale_grey k a b h vs]
    rfl

theorem minMax_fold (m : Rat) : ∀ (vals : List Rat) (a b : Rat), a ≠ m → b ≠ m → a ≤ b →
    ∃ a' b', (vals.map some).foldl (minMaxStep (some m)) (some a, some b) = (some a', some b') ∧ a' ≤ a ∧ b ≤ b' ∧
      (a' = a ∨ (a' ∈ vals ∧ a' ≠ m)) ∧ (b' = b ∨ (b' ∈ vals ∧ b' ≠ m)) ∧ ∀ v ∈ vals, v ≠ m → a' ≤ v ∧ v ≤ b'
  | [], a, b, _, _, hab => ⟨a, b, rfl, le_refl a, le_refl b, .inl rfl, .inl rfl, fun _ h => by cases h⟩
  | v :: vs, a, b, ha, hb, hab => by
    have hs : minMaxStep (some m) (some a, some b) (some v) =
        if v = m then (some a, some b) else (some (if v < a then v else a), some (if b < v then v else b)) := by
      unfold minMaxStep eqv lt
      simp only [decide_eq_true_eq, ha, if_false]
      split
      · rfl
      · split <;> split <;> rfl
    rw [List.map_cons, List.foldl_cons, hs]
    by_cases hv : v = m
    · rw [if_pos hv]
      obtain ⟨a', b', e, h1, h2, h3, h4, h5⟩ := minMax_fold m vs a b ha hb hab
      refine ⟨a', b', e, h1, h2, ?_, ?_, ?_⟩
      · exact h3.imp_right fun h => ⟨List.mem_cons_of_mem _ h.1, h.2⟩
      · exact h4.imp_right fun h => ⟨List.mem_cons_of_mem _ h.1, h.2⟩
      · intro w hw hm
        rcases List.mem_cons.1 hw with rfl | hw
        · exact absurd hv hm
        · exact h5 w hw hm
    · rw [if_neg hv]
      have la : (if v < a then v else a) ≤ a ∧ (if v < a then v else a) ≤ v := by split <;> constructor <;> linarith
      have lb : b ≤ (if b < v then v else b) ∧ v ≤ (if b < v then v else b) := by split <;> constructor <;> linarith
      have ca : (if v < a then v else a) = v ∨ (if v < a then v else a) = a := by split <;> simp
      have cb : (if b < v then v else b) = v ∨ (if b < v then v else b) = b := by split <;> simp
      generalize (if v < a then v else a) = x at *
      generalize (if b < v then v else b) = y at *
      have hx : x ≠ m := by rcases ca with rfl | rfl <;> assumption
      have hy : y ≠ m := by rcases cb with rfl | rfl <;> assumption
      obtain ⟨a', b', e, h1, h2, h3, h4, h5⟩ := minMax_fold m vs x y hx hy (by linarith)
      refine ⟨a', b', e, by linarith, by linarith, ?_, ?_, ?_⟩
      · rcases h3 with rfl | h3
        · rcases ca with rfl | rfl
          · exact .inr ⟨by simp, hx⟩
          · exact .inl rfl
        · exact .inr ⟨List.mem_cons_of_mem _ h3.1, h3.2⟩
      · rcases h4 with rfl | h4
        · rcases cb with rfl | rfl
          · exact .inr ⟨by simp, hy⟩
          · exact .inl rfl
        · exact .inr ⟨List.mem_cons_of_mem _ h4.1, h4.2⟩
      · intro w hw hm
        rcases List.mem_cons.1 hw with rfl | hw
        · exact ⟨by linarith, by linarith⟩
        · exact h5 w hw hm

theorem minMax_start (m : Rat) : ∀ vals : List Rat, (∃ v ∈ vals, v ≠ m) →
    ∃ a b, (vals.map some).foldl (minMaxStep (some m)) (some m, some m) = (some a, some b) ∧ Extremes m vals a b
  | [], h => by obtain ⟨_, h, _⟩ := h; cases h
  | v :: vs, h => by
    have hs : minMaxStep (some m) (some m, some m) (some v) = if v = m then (some m, some m) else (some v, some v) := by
      unfold minMaxStep eqv
      simp
    rw [List.map_cons, List.foldl_cons, hs]
    by_cases hv : v = m
    · rw [if_pos hv]
      obtain ⟨a, b, e, h1, h2, h3⟩ := minMax_start m vs (by
        obtain ⟨w, hw, hm⟩ := h
        rcases List.mem_cons.1 hw with rfl | hw
        · exact absurd hv hm
        · exact ⟨w, hw, hm⟩)
      refine ⟨a, b, e, ⟨List.mem_cons_of_mem _ h1.1, h1.2⟩, ⟨List.mem_cons_of_mem _ h2.1, h2.2⟩, ?_⟩
      intro w hw hm
      rcases List.mem_cons.1 hw with rfl | hw
      · exact absurd hv hm
      · exact h3 w hw hm
    · rw [if_neg hv]
      obtain ⟨a, b, e, h1, h2, h3, h4, h5⟩ := minMax_fold m vs v v hv hv (le_refl v)
      refine ⟨a, b, e, ?_, ?_, ?_⟩
      · rcases h3 with rfl | h3
        · exact ⟨by simp, hv⟩
        · exact ⟨List.mem_cons_of_mem _ h3.1, h3.2⟩
      · rcases h4 with rfl | h4
        · exact ⟨by simp, hv⟩
        · exact ⟨List.mem_cons_of_mem _ h4.1, h4.2⟩
      · intro w hw hm
        rcases List.mem_cons.1 hw with rfl | hw
        · exact ⟨h1, h2⟩
        · exact h5 w hw hm

theorem convert_pixel (k : Kind) (v : Rat) (h : IsPixel k v) : convert k (some v) = .ok (some v) := by
  cases k
  · obtain ⟨n, rfl, h⟩ := h
    show (toUnsigned 256 (some (n : Rat)) >>= fun n => pure (some (n : Rat))) = _
    rw [toUnsigned_some]
    rw [trunc_int, if_pos h]
    rfl
  · obtain ⟨n, rfl, h⟩ := h
    show (toUnsigned 65536 (some (n : Rat)) >>= fun n => pure (some (n : Rat))) = _
    rw [toUnsigned_some]
    rw [trunc_int, if_pos h]
    rfl
  · rfl

/-- The range that is computed is the one of the values that are not missing. -/
theorem C47_range (k : Kind) (m : Rat) (hm : IsPixel k m) (vals : List Rat) (h : ∃ v ∈ vals, v ≠ m) :
    ∃ a b, computeIfNeeded k none (some m) (vals.map some) = .ok (some a, some b) ∧ Extremes m vals a b := by
  obtain ⟨a, b, e, hx⟩ := minMax_start m vals h
  refine ⟨a, b, ?_, hx⟩
  unfold computeIfNeeded
  dsimp only
  rw [convert_pixel k m hm]
  show Outcome.ok _ = _
  rw [e]

/-- An image with at least two different values that are not missing becomes grey between the smallest and the largest of
them.  Missing for the full property: images with one value only. -/
theorem C47_computed_partial (k : Kind) (m : Rat) (hm : IsPixel k m) (vals : List Rat) (v w : Rat) (hv : v ∈ vals ∧ v ≠ m)
    (hw : w ∈ vals ∧ w ≠ m) (hne : v < w) :
    ∃ a b, Extremes m vals a b ∧ a < b ∧ imageToMagick k none (some m) (vals.map some) =
      .ok (vals.map fun v => UInt8.ofNat (grey a b v).toNat) := by
  obtain ⟨a, b, e, hx⟩ := C47_range k m hm vals ⟨v, hv⟩
  have hab : a < b := by
    have h1 := (hx.2.2 v hv.1 hv.2).1
    have h2 := (hx.2.2 w hw.1 hw.2).2
    linarith
  refine ⟨a, b, hx, hab, ?_⟩
  unfold imageToMagick
  rw [e]
  exact rescale_grey k a b hab vals

/-- With a range given by the user, the values in it become grey. -/
theorem C47_given_partial (k : Kind) (nodata : Val) (a b : Rat) (ha : IsPixel k a) (hb : IsPixel k b) (h : a < b)
    (vals : List Rat) :
    imageToMagick k (some (some a, some b)) nodata (vals.map some) =
      .ok (vals.map fun v => UInt8.ofNat (grey a b v).toNat) := by
  unfold imageToMagick computeIfNeeded
  dsimp only
  rw [convert_pixel k a ha, convert_pixel k b hb]
  exact rescale_grey k a b h vals

/-- Greys at the ends, and between them. -/
theorem C47_ends (a b v : Rat) (h : a < b) : (v ≤ a → grey a b v = 0) ∧ (b ≤ v → grey a b v = 255) ∧
    (a < v → v < b → grey a b v = ⌊(v - a) * 255 / (b - a)⌋) := by
  unfold grey
  refine ⟨fun c => if_pos c, fun c => ?_, fun c1 c2 => ?_⟩
  · rw [if_neg (by linarith), if_pos c]
  · rw [if_neg (by linarith), if_neg (by linarith)]

/-! ### What is wrong -/

/-- Stretching an image where all the values that are not missing are the same `c` gives, everywhere, the last eight bits
of `c`: neither black nor white (and 1000 is darker than 255). -/
theorem C47_violated_uniform (m c : Int) (hm : 0 ≤ m ∧ m < 65536) (_hc : 0 ≤ c ∧ c < 65536) (hne : c ≠ m) (n : Nat) :
    imageToMagick .ushort none (some (m : Rat)) (List.replicate (n + 1) (some (c : Rat))) =
      .ok (List.replicate (n + 1) (UInt8.ofNat (c % 256).toNat)) := by
  have hx : ∃ v ∈ List.replicate (n + 1) (c : Rat), v ≠ (m : Rat) :=
    ⟨c, by simp, fun e => hne (by exact_mod_cast e)⟩
  obtain ⟨a, b, e, h1, h2, h3⟩ := C47_range .ushort m ⟨m, rfl, hm⟩ (List.replicate (n + 1) (c : Rat)) hx
  have ea : a = c := List.eq_of_mem_replicate h1.1
  have eb : b = c := List.eq_of_mem_replicate h2.1
  subst ea eb
  rw [List.map_replicate] at e
  unfold imageToMagick
  rw [e]
  show rescale .ushort (some (c : Rat)) (some (c : Rat)) _ = _
  have one : rescaleOne .ushort (some (c : Rat)) (some (c : Rat)) (some (c : Rat)) = .ok (UInt8.ofNat (c % 256).toNat) := by
    unfold rescaleOne
    rw [if_pos (by simp [eqv])]
    show Outcome.ok (UInt8.ofNat ((trunc (c : Rat)) % 256).toNat) = _
    rw [trunc_int]
  have all : ∀ k : Nat, rescale .ushort (some (c : Rat)) (some (c : Rat)) (List.replicate k (some (c : Rat))) =
      .ok (List.replicate k (UInt8.ofNat (c % 256).toNat)) := by
    intro k
    induction k with
    | zero => rfl
    | succ k ih =>
      rw [List.replicate_succ, List.replicate_succ]
      show (rescaleOne .ushort _ _ _ >>= fun x => rescale .ushort _ _ _ >>= fun xs => pure (x :: xs)) = _
      rw [one, ih]
      rfl
  exact all (n + 1)

/-- Stretching an image of floating point numbers that are all the same negative number, at most -1, is undefined: the
number is converted to an unsigned byte. -/
theorem C47_violated_negative (m c : Rat) (hne : c ≠ m) (hc : c ≤ -1) (n : Nat) :
    imageToMagick .float none (some m) (List.replicate (n + 1) (some c)) = .ub := by
  have hx : ∃ v ∈ List.replicate (n + 1) c, v ≠ m := ⟨c, by simp, hne⟩
  obtain ⟨a, b, e, h1, h2, h3⟩ := C47_range .float m trivial (List.replicate (n + 1) c) hx
  have ea : a = c := List.eq_of_mem_replicate h1.1
  have eb : b = c := List.eq_of_mem_replicate h2.1
  subst ea eb
  rw [List.map_replicate] at e
  unfold imageToMagick
  rw [e]
  show rescale .float (some b) (some b) _ = _
  rw [List.replicate_succ]
  have one : rescaleOne .float (some b) (some b) (some b) = .ub := by
    unfold rescaleOne
    rw [if_pos (by simp [eqv])]
    show (toUnsigned 256 (some b) >>= fun n => pure (UInt8.ofNat n.toNat)) = _
    rw [toUnsigned_some]
    have : trunc b ≤ -1 := by
      unfold trunc
      rw [if_neg (by linarith)]
      exact Int.ceil_le.2 (by exact_mod_cast hc)
    rw [if_neg (by omega)]
    rfl
  show (rescaleOne .float _ _ _ >>= fun x => rescale .float _ _ _ >>= fun xs => pure (x :: xs)) = _
  rw [one]
  rfl

/-- Stretching an image of floating point numbers whose missing value is NaN, which is the default for bands of unknown
channels, is undefined: NaN is not equal to itself, and remains as minimum and maximum. -/
theorem C47_violated_nan (v : Val) (vals : List Val) : imageToMagick .float none none (v :: vals) = .ub := by
  have key : ∀ vs : List Val, vs.foldl (minMaxStep none) (none, none) = (none, none) := by
    intro vs
    induction vs with
    | nil => rfl
    | cons w ws ih =>
      rw [List.foldl_cons]
      have : minMaxStep none (none, none) w = (none, none) := by
        unfold minMaxStep eqv lt
        cases w <;> simp
      rw [this, ih]
  unfold imageToMagick computeIfNeeded convert
  show rescale .float ((v :: vals).foldl (minMaxStep none) (none, none)).1
    ((v :: vals).foldl (minMaxStep none) (none, none)).2 (v :: vals) = _
  rw [key]
  have one : rescaleOne .float none none v = .ub := by
    unfold rescaleOne eqv lt toByte scaled
    cases v <;> rfl
  show (rescaleOne .float none none v >>= fun x => rescale .float _ _ _ >>= fun xs => pure (x :: xs)) = _
  rw [one]
  rfl

/-- A missing value that is not a value of the pixels, such as the -10000000000 that GDAL gives for bands without one, makes
the export of integer images undefined, before looking at any pixel; so does a range given by the user that does not fit. -/
theorem C47_violated_conversion (k : Kind) (hk : k ≠ .float) (q : Rat) (hq : q ≤ -1 ∨ 65536 ≤ q) (vals : List Val) :
    imageToMagick k none (some q) vals = .ub ∧
    ∀ (a : Rat) (nodata : Val), IsPixel k a → imageToMagick k (some (some a, some q)) nodata vals = .ub := by
  have key : convert k (some q) = .ub := by
    have ht : trunc q ≤ -1 ∨ 65536 ≤ trunc q := by
      unfold trunc
      rcases hq with hq | hq
      · left
        rw [if_neg (by linarith)]
        exact Int.ceil_le.2 (by exact_mod_cast hq)
      · right
        rw [if_pos (by linarith)]
        exact Int.le_floor.2 (by exact_mod_cast hq)
    cases k
    · show (toUnsigned 256 (some q) >>= _) = _
      rw [toUnsigned_some]
      rw [if_neg (by omega)]
      rfl
    · show (toUnsigned 65536 (some q) >>= _) = _
      rw [toUnsigned_some]
      rw [if_neg (by omega)]
      rfl
    · exact absurd rfl hk
  constructor
  · unfold imageToMagick computeIfNeeded
    dsimp only
    rw [key]
    rfl
  · intro a nodata ha
    unfold imageToMagick computeIfNeeded
    dsimp only
    rw [convert_pixel k a ha, key]
    rfl

/-- An image of 10 bit counts where 0 is missing. -/
example : IsPixel .ushort 0 ∧ ((100 : Rat) ∈ [0, 100, 612, 1023] ∧ (100 : Rat) ≠ 0) ∧
    ((1023 : Rat) ∈ [0, 100, 612, 1023] ∧ (1023 : Rat) ≠ 0) ∧
    imageToMagick .ushort none (some 0) [some 0, some 100, some 612, some 1023] = .ok [0, 0, 141, 255] := by
  refine ⟨⟨0, by norm_num⟩, by simp, by simp, by decide +kernel⟩

example : imageToMagick .byte (some (some 10, some 20)) none [some 5, some 10, some 15, some 20, some 30] =
    .ok [0, 0, 127, 255, 255] := by decide +kernel

end Msat.Props
