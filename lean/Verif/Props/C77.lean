import Mathlib.Analysis.SpecialFunctions.Log.Basic
import Mathlib.Analysis.Complex.ExponentialBounds
import Mathlib.Tactic.Positivity
import Verif.Model.HriCal
import Verif.Spec.HriCal
import Verif.Props.C35
import Verif.Props.C73
import Verif.Props.C76

/-
C77: calibration tables of HRI images.
-/
namespace Msat.Props
open Msat Msat.Hri Msat.HriSpec

/-! ### Numbers in text -/

theorem textNumber_lt (bs : Bytes) (h : isText bs) : textNumber bs < 10 ^ bs.length := by
  suffices ∀ (bs : Bytes) (n : Nat), isText bs →
      bs.foldl (fun n c => n * 10 + (if c = 32 then 0 else c.toNat - 48)) n < (n + 1) * 10 ^ bs.length by
    have := this bs 0 h; rw [Nat.zero_add, Nat.one_mul] at this; exact this
  intro bs
  induction bs with
  | nil => intro n _; simp
  | cons c cs ih =>
    intro n h
    have hc := h c (List.mem_cons_self ..)
    have hd : (if c = 32 then 0 else c.toNat - 48) ≤ 9 := by
      rcases hc with rfl | hc
      · simp
      · split <;> omega
    have := ih (n * 10 + (if c = 32 then 0 else c.toNat - 48)) fun x hx => h x (List.mem_cons_of_mem _ hx)
    rw [List.foldl_cons, List.length_cons, pow_succ]
    refine lt_of_lt_of_le this ?_
    rw [mul_comm (10 ^ cs.length) 10, ← mul_assoc]
    exact Nat.mul_le_mul_right _ (by omega)

theorem coefficient_range (hsi : Bytes) (b : Band) (h : isCalibrated hsi b) : 0 ≤ coefficient hsi b ∧ coefficient hsi b < 1 := by
  unfold coefficient
  have h1 := textNumber_lt _ h.1
  have h2 : textNumber ((hsi.drop (if b = .IR then 51 else 64)).take 5) < 100000 :=
    lt_of_lt_of_le h1 (le_trans (Nat.pow_le_pow_right (by decide) (List.length_take_le _ _)) (by decide))
  refine ⟨by positivity, ?_⟩
  rw [div_lt_one (by norm_num)]
  exact_mod_cast h2

theorem spaceCount_nonneg (hsi : Bytes) (b : Band) : 0 ≤ spaceCount hsi b := by unfold spaceCount; positivity

/-- The coefficients that the code uses. -/
theorem numberOf_read (hsi : Bytes) (hlen : hsi.length = 1360) (vs : List (String × Value)) (msg : Bytes)
    (hr : readInterp 4 false hsi = .ok (vs, msg)) (name : String) (off n p : Nat)
    (hm : (name, off, Field.text n p) ∈ places 0 interpLayout) (hn : name ≠ "imag.snmxwp_ir")
    (ht : isText ((hsi.drop off).take n)) :
    numberOf vs name = (textNumber ((hsi.drop off).take n) : ℝ) / 10 ^ p := by
  obtain ⟨vs', e, -, hall⟩ := C76_members_partial hsi hlen
  rw [hr] at e
  injection e with e
  injection e with e1 e2
  subst e1
  obtain ⟨v, hv, hmean⟩ := hall _ hm hn
  have := hmean ht
  unfold numberOf
  rw [hv, this]
  push_cast
  rfl

theorem coefficient_read (hsi : Bytes) (hlen : hsi.length = 1360) (vs : List (String × Value)) (msg : Bytes)
    (hr : readInterp 4 false hsi = .ok (vs, msg)) (b : Band) (hcal : isCalibrated hsi b) :
    (b = .IR → numberOf vs "cal.calir" = coefficient hsi b ∧ numberOf vs "cal.irspc" = spaceCount hsi b) ∧
    (b = .WV → numberOf vs "cal.calwv" = coefficient hsi b ∧ numberOf vs "cal.wvspc" = spaceCount hsi b) := by
  obtain ⟨h1, h2⟩ := hcal
  constructor
  · rintro rfl
    rw [numberOf_read hsi hlen vs msg hr "cal.calir" 51 5 5 (by decide +kernel) (by decide) h1,
      numberOf_read hsi hlen vs msg hr "cal.irspc" 56 3 1 (by decide +kernel) (by decide) h2]
    unfold coefficient spaceCount
    rw [if_pos rfl, if_pos rfl]
    norm_num
  · rintro rfl
    rw [numberOf_read hsi hlen vs msg hr "cal.calwv" 64 5 5 (by decide +kernel) (by decide) h1,
      numberOf_read hsi hlen vs msg hr "cal.wvspc" 69 3 1 (by decide +kernel) (by decide) h2]
    unfold coefficient spaceCount
    rw [if_neg (by decide), if_neg (by decide)]
    norm_num

/-! ### The formula -/

theorem log_lt (r : ℝ) (h0 : 0 < r) (h : r < 256) : Real.log r < 5.6 := by
  have : Real.log r < Real.log ((2 : ℝ) ^ 8) := Real.log_lt_log h0 (by norm_num; exact h)
  rw [Real.log_pow] at this
  have := Real.log_two_lt_d9
  push_cast at *
  linarith

/-- The temperature of a radiance. -/
theorem planck_spec (a b r : ℝ) (ha : 0 < a) (hb : 5.6 ≤ b) (h0 : 0 < r) (h : r < 256) :
    ∃ T, planck a b r = some T ∧ 0 < T ∧ Real.exp (b + -a / T) = r := by
  have hl := log_lt r h0 h
  have hneg : Real.log r - b < 0 := by linarith
  refine ⟨-a / (Real.log r - b), ?_, div_pos_of_neg_of_neg (by linarith) hneg, ?_⟩
  · unfold planck
    rw [if_neg h0.ne', if_neg (not_lt.mpr h0.le), if_neg (by intro e; linarith)]
  · rw [div_div_cancel₀ (by linarith : (-a : ℝ) ≠ 0)]
    rw [show b + (Real.log r - b) = Real.log r by ring, Real.exp_log h0]

theorem planck_mono (a b r r' : ℝ) (ha : 0 < a) (hb : 5.6 ≤ b) (h0 : 0 ≤ r) (hr : r ≤ r') (h : r' < 256) :
    ∃ T T', planck a b r = some T ∧ planck a b r' = some T' ∧ T ≤ T' ∧ (r < r' → T < T') := by
  rcases h0.eq_or_lt with rfl | h0
  · refine ⟨0, ?_⟩
    rcases hr.eq_or_lt with rfl | hr
    · exact ⟨0, by unfold planck; rw [if_pos rfl], by unfold planck; rw [if_pos rfl], le_refl _, fun h => absurd h (lt_irrefl _)⟩
    · obtain ⟨T, e, hT, -⟩ := planck_spec a b r' ha hb hr h
      exact ⟨T, by unfold planck; rw [if_pos rfl], e, hT.le, fun _ => hT⟩
  · have h0' : 0 < r' := lt_of_lt_of_le h0 hr
    have hl := log_lt r h0 (lt_of_le_of_lt hr h)
    have hl' := log_lt r' h0' h
    have val : ∀ x, 0 < x → Real.log x < 5.6 → planck a b x = some (a / (b - Real.log x)) := by
      intro x hx hx'
      unfold planck
      rw [if_neg hx.ne', if_neg (not_lt.mpr hx.le), if_neg (by intro e; linarith), ← neg_sub b, div_neg, neg_div, neg_neg]
    refine ⟨_, _, val r h0 hl, val r' h0' hl', ?_, fun hlt => ?_⟩
    · exact div_le_div_of_nonneg_left ha.le (by linarith) (by linarith [Real.log_le_log h0 hr])
    · exact div_lt_div_of_pos_left ha (by linarith) (by linarith [Real.log_lt_log h0 hlt])

theorem radOf_range (cc sc : ℝ) (h0 : 0 ≤ cc) (h1 : cc < 1) (hs : 0 ≤ sc) (i : ℕ) (hi : i < 256) :
    0 ≤ radOf cc sc i ∧ radOf cc sc i < 256 := by
  have hi' : (i : ℝ) ≤ 255 := by exact_mod_cast Nat.lt_succ_iff.mp hi
  unfold radOf
  split
  · norm_num
  · rename_i h
    rw [not_lt] at h
    have : 0 ≤ (i : ℝ) - sc := by linarith
    exact ⟨mul_nonneg h0 this, by nlinarith⟩

theorem radOf_mono (cc sc : ℝ) (h0 : 0 ≤ cc) {i j : ℕ} (hij : i ≤ j) : radOf cc sc i ≤ radOf cc sc j := by
  have hij' : (i : ℝ) ≤ j := by exact_mod_cast hij
  unfold radOf
  split <;> split
  · exact le_refl _
  · rename_i h h'; rw [not_lt] at h'; exact mul_nonneg h0 (by linarith)
  · rename_i h h'; exact absurd (by linarith) h
  · exact mul_le_mul_of_nonneg_left (by linarith) h0

/-! ### Which table is used -/

/-- The entries of the tables of METEOSAT. -/
noncomputable def meteosatEntry (vs : List (String × Value)) (i : ℕ) : Band → Option ℝ
  | .IR => planck 1255.5465 6.9618 (radOf (numberOf vs "cal.calir") (numberOf vs "cal.irspc") i)
  | .WV => planck 2233.4882 9.2477 (radOf (numberOf vs "cal.calwv") (numberOf vs "cal.wvspc") i)
  | _ => some (100 * (i / 255))

/-- The satellite, the band and the coefficients of a METEOSAT image. -/
theorem table_meteosat (garbage : ℝ × ℝ) (F : File) (a : Announced) (ha : announced F.label = some a) (hd : disseminated a = true)
    (hf : a.family ≠ .X) (k : ℕ) (b : Band) (hb : (bands a)[k]? = some b) (i : ℕ) :
    F.table garbage k i = .ok (meteosatEntry F.interp.1 i b) := by
  have hc := C35_code F.label
  rw [ha] at hc
  have him := ((C35_images F.label a ha _ hc).1 hd).1
  unfold File.table
  rw [hc, Outcome.ok_bind, him, Outcome.ok_bind, List.getElem?_map, hb]
  dsimp only [Option.map_some]
  unfold calibrationOf
  have hk : k < 2 := by
    have := (List.getElem?_eq_some_iff.mp hb).1
    obtain ⟨f, ir, vis, wv, red⟩ := a
    revert this hd
    clear * -
    cases f <;> cases ir <;> cases vis <;> cases wv <;> cases red <;> intro hd h <;>
      first | exact absurd hd (by decide) | (simp [bands] at h; omega)
  obtain ⟨f, ir, vis, wv, red⟩ := a
  revert hf hd hb
  clear * - hk
  have hk' : k = 0 ∨ k = 1 := by omega
  rcases hk' with rfl | rfl <;> cases f <;> cases ir <;> cases vis <;> cases wv <;> cases red <;> intro hd hf hb <;>
      first
        | exact absurd hd (by decide)
        | exact absurd rfl hf
        | (injection hb with hb; subst hb; rfl)
        | cases hb

/-! ### The property -/

/-- The calibration of the thermal images of METEOSAT: a count above that of space gives the temperature whose radiance is the coefficient
times the difference; the others give zero.  Missing for C77: the rounding of `float`; the INDOX images (see `C77_violated_unset`). -/
theorem C77_temperature_partial (garbage : ℝ × ℝ) (F : File) (a : Announced) (ha : announced F.label = some a) (hd : disseminated a = true)
    (hf : a.family ≠ .X) (hsi : Bytes) (hlen : hsi.length = 1360) (hr : readInterp 4 false hsi = .ok F.interp)
    (k : ℕ) (b : Band) (hb : (bands a)[k]? = some b) (AB : ℝ × ℝ) (hAB : handbook b = some AB) (hcal : isCalibrated hsi b)
    (i : ℕ) (hi : i < 256) :
    (spaceCount hsi b < i → 0 < coefficient hsi b →
      ∃ T, F.table garbage k i = .ok (some T) ∧ 0 < T ∧ radiance AB T = coefficient hsi b * (i - spaceCount hsi b)) ∧
    (i ≤ spaceCount hsi b ∨ coefficient hsi b = 0 → F.table garbage k i = .ok (some 0)) := by
  rw [table_meteosat garbage F a ha hd hf k b hb i]
  obtain ⟨hc0, hc1⟩ := coefficient_range hsi b hcal
  have hs := spaceCount_nonneg hsi b
  have hrange := radOf_range _ _ hc0 hc1 hs i hi
  have hread := coefficient_read hsi hlen F.interp.1 F.interp.2 hr b hcal
  have hzero : (i ≤ spaceCount hsi b ∨ coefficient hsi b = 0) → radOf (coefficient hsi b) (spaceCount hsi b) i = 0 := by
    intro h
    unfold radOf
    split
    · rfl
    · rename_i h'
      rw [not_lt] at h'
      rcases h with h | h
      · rw [le_antisymm h h', sub_self, mul_zero]
      · rw [h, zero_mul]
  have hpos : spaceCount hsi b < i → radOf (coefficient hsi b) (spaceCount hsi b) i = coefficient hsi b * (i - spaceCount hsi b) := by
    intro h; unfold radOf; rw [if_neg (not_lt.mpr h.le)]
  have key : ∀ p q : ℝ, 0 < p → 5.6 ≤ q → AB = (q, -p) →
      (spaceCount hsi b < i → 0 < coefficient hsi b →
      ∃ T, Outcome.ok (planck p q (radOf (coefficient hsi b) (spaceCount hsi b) i)) = .ok (some T) ∧ 0 < T ∧
        radiance AB T = coefficient hsi b * (i - spaceCount hsi b)) ∧
      (i ≤ spaceCount hsi b ∨ coefficient hsi b = 0 →
        Outcome.ok (planck p q (radOf (coefficient hsi b) (spaceCount hsi b) i)) = .ok (some 0)) := by
    rintro p q hp hq rfl
    constructor
    · intro h hc
      have h0 : 0 < radOf (coefficient hsi b) (spaceCount hsi b) i := by rw [hpos h]; exact mul_pos hc (by linarith)
      obtain ⟨T, e, hT, hR⟩ := planck_spec p q _ hp hq h0 hrange.2
      exact ⟨T, by rw [e], hT, by unfold radiance; rw [hR, hpos h]⟩
    · intro h
      rw [hzero h]
      unfold planck
      rw [if_pos rfl]
  cases b with
  | IR =>
    dsimp only [meteosatEntry]
    rw [(hread.1 rfl).1, (hread.1 rfl).2]
    exact key _ _ (by norm_num) (by norm_num) (Option.some.inj hAB).symm
  | WV =>
    dsimp only [meteosatEntry]
    rw [(hread.2 rfl).1, (hread.2 rfl).2]
    exact key _ _ (by norm_num) (by norm_num) (Option.some.inj hAB).symm
  | VIS => cases hAB
  | VH => cases hAB

/-- A greater count never stands for a lower temperature, and stands for a greater one above the count of space. -/
theorem C77_monotone_partial (garbage : ℝ × ℝ) (F : File) (a : Announced) (ha : announced F.label = some a) (hd : disseminated a = true)
    (hf : a.family ≠ .X) (hsi : Bytes) (hlen : hsi.length = 1360) (hr : readInterp 4 false hsi = .ok F.interp)
    (k : ℕ) (b : Band) (hb : (bands a)[k]? = some b) (AB : ℝ × ℝ) (hAB : handbook b = some AB) (hcal : isCalibrated hsi b)
    (i j : ℕ) (hij : i < j) (hj : j < 256) :
    ∃ T T', F.table garbage k i = .ok (some T) ∧ F.table garbage k j = .ok (some T') ∧ T ≤ T' ∧
      (spaceCount hsi b < j → 0 < coefficient hsi b → T < T') := by
  rw [table_meteosat garbage F a ha hd hf k b hb i, table_meteosat garbage F a ha hd hf k b hb j]
  obtain ⟨hc0, hc1⟩ := coefficient_range hsi b hcal
  have hs := spaceCount_nonneg hsi b
  have hrange := radOf_range _ _ hc0 hc1 hs j hj
  have hrange' := radOf_range _ _ hc0 hc1 hs i (by omega)
  have hread := coefficient_read hsi hlen F.interp.1 F.interp.2 hr b hcal
  have hij' : (i : ℝ) < j := by exact_mod_cast hij
  have hstrict : spaceCount hsi b < j → 0 < coefficient hsi b →
      radOf (coefficient hsi b) (spaceCount hsi b) i < radOf (coefficient hsi b) (spaceCount hsi b) j := by
    intro h hc
    unfold radOf
    rw [if_neg (not_lt.mpr h.le)]
    split
    · exact mul_pos hc (by linarith)
    · exact mul_lt_mul_of_pos_left (by linarith) hc
  have key : ∀ p q : ℝ, 0 < p → 5.6 ≤ q →
      ∃ T T', Outcome.ok (planck p q (radOf (coefficient hsi b) (spaceCount hsi b) i)) = .ok (some T) ∧
        Outcome.ok (planck p q (radOf (coefficient hsi b) (spaceCount hsi b) j)) = .ok (some T') ∧ T ≤ T' ∧
        (spaceCount hsi b < j → 0 < coefficient hsi b → T < T') := by
    intro p q hp hq
    obtain ⟨T, T', e, e', h, h'⟩ := planck_mono p q _ _ hp hq hrange'.1 (radOf_mono _ (spaceCount hsi b) hc0 hij.le) hrange.2
    exact ⟨T, T', by rw [e], by rw [e'], h, fun g1 g2 => h' (hstrict g1 g2)⟩
  cases b with
  | IR =>
    dsimp only [meteosatEntry]
    rw [(hread.1 rfl).1, (hread.1 rfl).2]
    exact key _ _ (by norm_num) (by norm_num)
  | WV =>
    dsimp only [meteosatEntry]
    rw [(hread.2 rfl).1, (hread.2 rfl).2]
    exact key _ _ (by norm_num) (by norm_num)
  | VIS => cases hAB
  | VH => cases hAB

/-- The visible images of METEOSAT: percentages, from 0 for count 0 to 100 for count 255, in proportion. -/
theorem C77_visible (garbage : ℝ × ℝ) (F : File) (a : Announced) (ha : announced F.label = some a) (hd : disseminated a = true)
    (hf : a.family ≠ .X) (k : ℕ) (b : Band) (hb : (bands a)[k]? = some b) (hv : b = .VIS ∨ b = .VH) :
    unitsOf b = "%" ∧ ∀ i < 256, ∃ p, F.table garbage k i = .ok (some p) ∧ p * 255 = 100 * i ∧ 0 ≤ p ∧ p ≤ 100 := by
  refine ⟨by rcases hv with rfl | rfl <;> rfl, fun i hi => ⟨100 * (i / 255), ?_, ?_, ?_, ?_⟩⟩
  · rw [table_meteosat garbage F a ha hd hf k b hb i]
    rcases hv with rfl | rfl <;> rfl
  · field_simp
  · positivity
  · have : (i : ℝ) ≤ 255 := by exact_mod_cast Nat.lt_succ_iff.mp hi
    linarith

/-- From the bytes of a whole file: the temperatures of its thermal images. -/
theorem C77_file_partial (a : Announced) (hd : disseminated a = true) (hf : a.family ≠ .X) (h : Header) (hs : h.Sized a.family)
    (hl : announces h.label = some a) (hk : knownIdent h.ident) (pix : Nat → Nat → Bytes) (ss : List Sub)
    (hss : ∀ s ∈ ss, s.Sized a.family) (hpix : ss.map (·.line) = imageLines a.family (bands a) pix)
    (utcoff : Int) (buf rest : Bytes) (garbage : ℝ × ℝ) :
    ∃ F, readfrom 4 false false utcoff buf (fileBytes a.family h ss ++ rest) = .ok F ∧
      ∀ (k : ℕ) (b : Band) (AB : ℝ × ℝ), (bands a)[k]? = some b → handbook b = some AB → isCalibrated h.interp b →
        ∀ i : ℕ, i < 256 → spaceCount h.interp b < i → 0 < coefficient h.interp b →
          ∃ T, F.table garbage k i = .ok (some T) ∧ 0 < T ∧ radiance AB T = coefficient h.interp b * (i - spaceCount h.interp b) := by
  obtain ⟨F, imgs, e, h1, -, -, h4, -⟩ := C73_images_partial a hd h hs hl hk pix ss hss hpix utcoff buf rest
  obtain ⟨lab, e1, -, e3⟩ := readLabel_bytes h.label [] hs.1
  rw [h1] at e1
  injection e1 with e1
  refine ⟨F, e, fun k b AB hb hAB hcal i hi h5 h6 => ?_⟩
  exact (C77_temperature_partial garbage F a (by rw [e1, e3, hl]) hd hf h.interp hs.interp h4 k b hb AB hAB hcal i hi).1 h5 h6

/-- Interpretation data with the coefficient .07400 and the count of space 5.0: count 105 has the radiance 7.4. -/
example :
    let interp : Bytes := List.replicate 51 48 ++ ([48, 55, 52, 48, 48, 48, 53, 48] ++ List.replicate 1301 48)
    interp.length = 1360 ∧ isCalibrated interp .IR ∧ coefficient interp .IR = 0.074 ∧ spaceCount interp .IR = 5 ∧
      coefficient interp .IR * ((105 : ℕ) - spaceCount interp .IR) = 7.4 := by
  intro interp
  have d51 : interp.drop 51 = [48, 55, 52, 48, 48, 48, 53, 48] ++ List.replicate 1301 48 := by
    rw [List.drop_append_of_le_length (Nat.le_of_eq List.length_replicate.symm), List.drop_of_length_le (Nat.le_of_eq List.length_replicate),
      List.nil_append]
  have t51 : (interp.drop 51).take 5 = [48, 55, 52, 48, 48] := by rw [d51]; rfl
  have t56 : (interp.drop 56).take 3 = [48, 53, 48] := by
    rw [show interp.drop 56 = (interp.drop 51).drop 5 by rw [List.drop_drop], d51]; rfl
  have c : coefficient interp .IR = 0.074 := by
    unfold coefficient; rw [if_pos rfl, t51, show textNumber [48, 55, 52, 48, 48] = 7400 by decide]; norm_num
  have s : spaceCount interp .IR = 5 := by
    unfold spaceCount; rw [if_pos rfl, t56, show textNumber [48, 53, 48] = 50 by decide]; norm_num
  refine ⟨?_, ⟨?_, ?_⟩, c, s, ?_⟩
  · simp only [interp, List.length_append, List.length_replicate, List.length_cons, List.length_nil]
  · rw [if_pos rfl, t51]; unfold isText; decide
  · rw [if_pos rfl, t56]; unfold isText; decide
  · rw [c, s]; norm_num

/-! ### Other satellites -/

/-- The table of the only image of a file of the X format. -/
theorem table_x (garbage : ℝ × ℝ) (F : File) (b : Band) (c : List Char) (hc : F.label.formatCode = .ok c)
    (hb : imagesOf c = .ok [(.X, b)]) (i : ℕ) :
    F.table garbage 0 i = .ok (calibrationOf garbage c F.ident F.interp.1 0 b i) := by
  unfold File.table
  rw [hc, Outcome.ok_bind, hb]
  rfl

/-- A label of the X format with one band. -/
def xBand (l : Label) (b : Band) : Prop := ∃ a, announced l = some a ∧ a.family = .X ∧ disseminated a = true ∧ bands a = [b]

/-- The name of the format. -/
def xCode : Band → List Char
  | .IR => ['X', 'I'] | .WV => ['X', 'W'] | _ => ['X', 'V', 'H']

theorem xBand_code (l : Label) (b : Band) (h : xBand l b) :
    l.formatCode = .ok (xCode b) ∧ imagesOf (xCode b) = .ok [(.X, b)] := by
  obtain ⟨a, ha, hf, hd, hb⟩ := h
  have hc : l.formatCode = .ok (code a) := by rw [C35_code, ha]
  rw [hc]
  clear hc ha
  obtain ⟨f, ir, vis, wv, red⟩ := a
  dsimp only at hf
  subst hf
  cases ir <;> cases vis <;> cases wv <;> cases red <;>
    first | exact absurd hd (by decide) | (injection hb with hb; subst hb; exact ⟨rfl, rfl⟩)

theorem satOf_x (b : Band) (i : Ident) : satOf (xCode b) i =
    if i.isGOES_E then .GOES_E else if i.isGOES_W then .GOES_W else if i.isGMS then .GMS else .INDOX := by
  unfold satOf
  rw [if_pos (by cases b <;> simp [xCode])]

/-- The infrared images of the GOES satellites: temperatures that grow with the count, from 159 to 330 kelvin. -/
theorem C77_goes (garbage : ℝ × ℝ) (F : File) (hx : xBand F.label .IR) (hg : F.ident.isGOES_E = true ∨ F.ident.isGOES_W = true) :
    (∀ i < 256, ∃ T, F.table garbage 0 i = .ok (some T) ∧ 159 ≤ T ∧ T ≤ 330) ∧
    ∀ i j T T', i < j → j < 256 → F.table garbage 0 i = .ok (some T) → F.table garbage 0 j = .ok (some T') → T < T' := by
  obtain ⟨hc, him⟩ := xBand_code _ _ hx
  have htab := table_x garbage F .IR _ hc him
  by_cases he : F.ident.isGOES_E = true
  · have val : ∀ i : ℕ, F.table garbage 0 i = .ok (some (if i < 79 then 163 + (i : ℝ) else (i + 405) / 2)) := by
      intro i
      rw [htab]
      unfold calibrationOf
      rw [satOf_x, if_pos he]
      unfold calibration
      dsimp only
      split <;> rfl
    constructor
    · intro i hi
      refine ⟨_, val i, ?_⟩
      have : (i : ℝ) ≤ 255 := by exact_mod_cast Nat.lt_succ_iff.mp hi
      have h0 : (0 : ℝ) ≤ i := by positivity
      split
      · rename_i h; have : (i : ℝ) ≤ 78 := by exact_mod_cast Nat.lt_succ_iff.mp h
        constructor <;> linarith
      · constructor <;> linarith
    · intro i j T T' hij hj e e'
      rw [val] at e e'
      injection e with e; injection e with e; injection e' with e'; injection e' with e'
      subst e e'
      have hij' : (i : ℝ) < j := by exact_mod_cast hij
      split <;> split
      · linarith
      · rename_i h h'
        have : (i : ℝ) ≤ 78 := by exact_mod_cast Nat.lt_succ_iff.mp h
        have : (79 : ℝ) ≤ j := by exact_mod_cast Nat.not_lt.mp h'
        linarith
      · omega
      · linarith
  · have hw : F.ident.isGOES_W = true := hg.resolve_left he
    have val : ∀ i : ℕ, F.table garbage 0 i = .ok (some ((i : ℝ) / 255 * (318.1 - 159.1) + 159.1)) := by
      intro i
      rw [htab]
      unfold calibrationOf
      rw [satOf_x, if_neg he, if_pos hw]
      rfl
    constructor
    · intro i hi
      refine ⟨_, val i, ?_⟩
      have : (i : ℝ) ≤ 255 := by exact_mod_cast Nat.lt_succ_iff.mp hi
      have h0 : (0 : ℝ) ≤ i := by positivity
      constructor <;> norm_num <;> linarith
    · intro i j T T' hij hj e e'
      rw [val] at e e'
      injection e with e; injection e with e; injection e' with e'; injection e' with e'
      subst e e'
      have hij' : (i : ℝ) < j := by exact_mod_cast hij
      norm_num
      linarith

/-- A table of 256 numbers that never go down. -/
theorem sorted_table (t : List Nat) (h : (List.range 255).all (fun i => decide (t.getD i 0 ≤ t.getD (i + 1) 0)) = true)
    (i j : ℕ) (hij : i ≤ j) (hj : j < 256) : t.getD i 0 ≤ t.getD j 0 := by
  induction j with
  | zero => rw [Nat.le_zero.mp hij]
  | succ n ih =>
    rcases Nat.eq_or_lt_of_le hij with rfl | hlt
    · exact le_refl _
    · have := List.all_eq_true.mp h n (List.mem_range.mpr (by omega))
      exact le_trans (ih (by omega) (by omega)) (by simpa using this)

theorem gms_not_goes (i : Ident) (h : i.isGMS = true) : i.isGOES_E ≠ true ∧ i.isGOES_W ≠ true := by
  unfold Ident.isGMS at h
  unfold Ident.isGOES_E Ident.isGOES_W
  simp only [Bool.and_eq_true, beq_iff_eq] at h
  simp [h.1, h.2]

/-- The infrared images of GMS: temperatures that never go down when the count goes up, from 130 to 327.73 kelvin. -/
theorem C77_gms (garbage : ℝ × ℝ) (F : File) (hx : xBand F.label .IR) (hg : F.ident.isGMS = true) :
    (∀ i < 256, ∃ T, F.table garbage 0 i = .ok (some T) ∧ 130 ≤ T ∧ T ≤ 327.73) ∧
    ∀ i j T T', i ≤ j → j < 256 → F.table garbage 0 i = .ok (some T) → F.table garbage 0 j = .ok (some T') → T ≤ T' := by
  obtain ⟨hc, him⟩ := xBand_code _ _ hx
  have htab := table_x garbage F .IR _ hc him
  have hs := sorted_table gmsIr (by decide +kernel)
  have val : ∀ i : ℕ, F.table garbage 0 i = .ok (some ((gmsIr.getD i 0 : ℝ) / 100)) := by
    intro i
    rw [htab]
    unfold calibrationOf
    rw [satOf_x, if_neg (gms_not_goes _ hg).1, if_neg (gms_not_goes _ hg).2, if_pos hg]
    rfl
  constructor
  · intro i hi
    refine ⟨_, val i, ?_, ?_⟩
    · have h1 : 13000 ≤ gmsIr.getD i 0 := le_trans (by decide) (hs 0 i (by omega) hi)
      have : (13000 : ℝ) ≤ (gmsIr.getD i 0 : ℝ) := by exact_mod_cast h1
      linarith
    · have h1 : gmsIr.getD i 0 ≤ 32773 := le_trans (hs i 255 (by omega) (by omega)) (by decide)
      have : (gmsIr.getD i 0 : ℝ) ≤ 32773 := by exact_mod_cast h1
      generalize (gmsIr.getD i 0 : ℝ) = g at this
      norm_num
      linarith
  · intro i j T T' hij hj e e'
    rw [val] at e e'
    injection e with e; injection e with e; injection e' with e'; injection e' with e'
    subst e e'
    have : (gmsIr.getD i 0 : ℝ) ≤ (gmsIr.getD j 0 : ℝ) := by exact_mod_cast hs i j hij hj
    linarith

/-- The infrared images of GMS: above the coldest counts the steps of temperature get smaller and smaller, but for the rounding to
hundredths: no entry is out of line with those near it. -/
theorem C77_gms_steps (garbage : ℝ × ℝ) (F : File) (hx : xBand F.label .IR) (hg : F.ident.isGMS = true) (i : ℕ) (hi : 14 ≤ i)
    (hi2 : i + 2 < 256) (T0 T1 T2 : ℝ) (h0 : F.table garbage 0 i = .ok (some T0)) (h1 : F.table garbage 0 (i + 1) = .ok (some T1))
    (h2 : F.table garbage 0 (i + 2) = .ok (some T2)) : T2 - T1 ≤ T1 - T0 + 1 / 100 := by
  obtain ⟨hc, him⟩ := xBand_code _ _ hx
  have htab := table_x garbage F .IR _ hc him
  have val : ∀ i : ℕ, F.table garbage 0 i = .ok (some ((gmsIr.getD i 0 : ℝ) / 100)) := by
    intro i
    rw [htab]
    unfold calibrationOf
    rw [satOf_x, if_neg (gms_not_goes _ hg).1, if_neg (gms_not_goes _ hg).2, if_pos hg]
    rfl
  rw [val] at h0 h1 h2
  injection h0 with h0; injection h0 with h0; injection h1 with h1; injection h1 with h1; injection h2 with h2; injection h2 with h2
  subst h0 h1 h2
  have hall : (List.range 256).all (fun i => decide (14 ≤ i → i + 2 < 256 →
      gmsIr.getD (i + 2) 0 + gmsIr.getD i 0 ≤ 2 * gmsIr.getD (i + 1) 0 + 1)) = true := by decide +kernel
  have h := of_decide_eq_true (List.all_eq_true.mp hall i (List.mem_range.mpr (by omega))) hi hi2
  generalize gmsIr.getD (i + 2) 0 = a at h
  generalize gmsIr.getD (i + 1) 0 = b at h
  generalize gmsIr.getD i 0 = c at h
  have h' : (a : ℝ) + c ≤ 2 * b + 1 := by exact_mod_cast h
  linarith

/-- The visible images of GMS have 64 levels; the table is the square of the level, from 0 to 1, to six digits. -/
theorem C77_gms_visible (garbage : ℝ × ℝ) (F : File) (hx : xBand F.label .VH) (hg : F.ident.isGMS = true) (i : ℕ) (hi : i < 256) :
    ∃ v, F.table garbage 0 i = .ok (some v) ∧ |v - (((i / 4 : ℕ) : ℝ) / 63) ^ 2| ≤ 1 / 1000000 := by
  obtain ⟨hc, him⟩ := xBand_code _ _ hx
  refine ⟨(gmsVh.getD i 0 : ℝ) / 1000000, ?_, ?_⟩
  · rw [table_x garbage F .VH _ hc him]
    unfold calibrationOf
    rw [satOf_x, if_neg (gms_not_goes _ hg).1, if_neg (gms_not_goes _ hg).2, if_pos hg]
    rfl
  · have hall : (List.range 256).all (fun i => decide (gmsVh.getD i 0 * 3969 ≤ (i / 4) ^ 2 * 1000000 + 3969 ∧
        (i / 4) ^ 2 * 1000000 ≤ gmsVh.getD i 0 * 3969 + 3969)) = true := by decide +kernel
    have h := of_decide_eq_true (List.all_eq_true.mp hall i (List.mem_range.mpr hi))
    generalize gmsVh.getD i 0 = g at h
    generalize i / 4 = q at h
    obtain ⟨h1, h2⟩ := h
    have h1' : (g : ℝ) * 3969 ≤ q ^ 2 * 1000000 + 3969 := by exact_mod_cast h1
    have h2' : (q : ℝ) ^ 2 * 1000000 ≤ g * 3969 + 3969 := by exact_mod_cast h2
    rw [abs_le, div_pow]
    norm_num
    constructor <;> linarith

/-- The visible images of GMS say that they are percentages, and no count has more than 1. -/
theorem C77_violated_gms_percent (garbage : ℝ × ℝ) (F : File) (hx : xBand F.label .VH) (hg : F.ident.isGMS = true) (i : ℕ) (hi : i < 256)
    (v : ℝ) (hv : F.table garbage 0 i = .ok (some v)) : unitsOf .VH = "%" ∧ v ≤ 1 := by
  refine ⟨rfl, ?_⟩
  obtain ⟨hc, him⟩ := xBand_code _ _ hx
  have val : F.table garbage 0 i = .ok (some ((gmsVh.getD i 0 : ℝ) / 1000000)) := by
    rw [table_x garbage F .VH _ hc him]
    unfold calibrationOf
    rw [satOf_x, if_neg (gms_not_goes _ hg).1, if_neg (gms_not_goes _ hg).2, if_pos hg]
    rfl
  rw [val] at hv
  injection hv with hv; injection hv with hv
  subst hv
  have h1 : gmsVh.getD i 0 ≤ 1000000 := le_trans (sorted_table gmsVh (by decide +kernel) i 255 (by omega) (by omega)) (by decide)
  have : (gmsVh.getD i 0 : ℝ) ≤ 1000000 := by exact_mod_cast h1
  linarith

/-- The visible images of the others: percentages in proportion to the count. -/
theorem C77_visible_x (garbage : ℝ × ℝ) (F : File) (hx : xBand F.label .VH) (hg : F.ident.isGMS = false) (i : ℕ) :
    ∃ p, F.table garbage 0 i = .ok (some p) ∧ p * 255 = 100 * i := by
  obtain ⟨hc, him⟩ := xBand_code _ _ hx
  refine ⟨100 * (i / 255), ?_, by field_simp⟩
  rw [table_x garbage F .VH _ hc him]
  unfold calibrationOf
  rw [satOf_x]
  by_cases h1 : F.ident.isGOES_E = true
  · rw [if_pos h1]; rfl
  by_cases h2 : F.ident.isGOES_W = true
  · rw [if_neg h1, if_pos h2]; rfl
  rw [if_neg h1, if_neg h2, if_neg (by rw [hg]; decide)]
  rfl

/-- The infrared images of METEOSAT-5 over the Indian Ocean, by their own constants. -/
theorem C77_indoex_partial (garbage : ℝ × ℝ) (F : File) (hx : xBand F.label .IR)
    (hg : F.ident.isGOES_E = false ∧ F.ident.isGOES_W = false ∧ F.ident.isGMS = false)
    (hsi : Bytes) (hlen : hsi.length = 1360) (hr : readInterp 4 false hsi = .ok F.interp) (hcal : isCalibrated hsi .IR)
    (i : ℕ) (hi : i < 256) (h : spaceCount hsi .IR < i) (hc : 0 < coefficient hsi .IR) :
    ∃ T, F.table garbage 0 i = .ok (some T) ∧ 0 < T ∧ radiance indoex T = coefficient hsi .IR * (i - spaceCount hsi .IR) := by
  obtain ⟨hcode, him⟩ := xBand_code _ _ hx
  obtain ⟨hc0, hc1⟩ := coefficient_range hsi _ hcal
  have hread := (coefficient_read hsi hlen F.interp.1 F.interp.2 hr _ hcal).1 rfl
  have hrange := radOf_range _ _ hc0 hc1 (spaceCount_nonneg hsi .IR) i hi
  have hpos : radOf (coefficient hsi .IR) (spaceCount hsi .IR) i = coefficient hsi .IR * (i - spaceCount hsi .IR) := by
    unfold radOf; rw [if_neg (not_lt.mpr h.le)]
  obtain ⟨T, e, hT, hR⟩ := planck_spec 1272.2 6.7348 _ (by norm_num) (by norm_num)
    (show 0 < radOf (coefficient hsi .IR) (spaceCount hsi .IR) i by rw [hpos]; exact mul_pos hc (by linarith)) hrange.2
  refine ⟨T, ?_, hT, by unfold radiance indoex; rw [← hpos]; exact hR⟩
  rw [table_x garbage F .IR _ hcode him]
  unfold calibrationOf
  rw [satOf_x, if_neg (by rw [hg.1]; decide), if_neg (by rw [hg.2.1]; decide), if_neg (by rw [hg.2.2]; decide)]
  show Outcome.ok (planck 1272.2 6.7348 (radOf (numberOf F.interp.1 "cal.calir") (numberOf F.interp.1 "cal.irspc") i)) = _
  rw [hread.1, hread.2, e]

/-! ### What the tables depend on -/

/-- No table but those of water vapour images of the X format depends on what happened to be in memory. -/
theorem C77_defined (g g' : ℝ × ℝ) (F : File) (a : Announced) (ha : announced F.label = some a) (hd : disseminated a = true)
    (hx : a.family = .X → a.wv = false) (k : ℕ) (hk : k < (bands a).length) (i : ℕ) : F.table g k i = F.table g' k i := by
  by_cases hf : a.family = .X
  · obtain ⟨f, ir, vis, wv, red⟩ := a
    dsimp only at hf
    subst hf
    have hwv : wv = false := hx rfl
    subst hwv
    have hb : ∃ b, bands ⟨.X, ir, vis, false, red⟩ = [b] ∧ (b = .IR ∨ b = .VH) := by
      revert hd
      clear * -
      cases ir <;> cases vis <;> cases red <;> intro hd <;>
        first | exact absurd hd (by decide) | exact ⟨_, rfl, Or.inl rfl⟩ | exact ⟨_, rfl, Or.inr rfl⟩
    obtain ⟨b, hb, hb'⟩ := hb
    have hx : xBand F.label b := ⟨_, ha, rfl, hd, hb⟩
    rw [hb] at hk
    obtain rfl : k = 0 := by simp at hk; exact hk
    obtain ⟨hc, him⟩ := xBand_code _ _ hx
    rw [table_x g F b _ hc him, table_x g' F b _ hc him]
    rcases hb' with rfl | rfl <;> rfl
  · obtain ⟨b, hb⟩ : ∃ b, (bands a)[k]? = some b := ⟨_, List.getElem?_eq_getElem hk⟩
    rw [table_meteosat g F a ha hd hf k b hb, table_meteosat g' F a ha hd hf k b hb]

/-- The coefficients of the water vapour images of the X format are not set: the same file has different tables according to what is in
memory, whatever the coefficients in the file are. -/
theorem C77_violated_unset (F : File) (hx : xBand F.label .WV)
    (hg : F.ident.isGOES_E = false ∧ F.ident.isGOES_W = false ∧ F.ident.isGMS = false) :
    ∃ g g' : ℝ × ℝ, F.table g 0 255 ≠ F.table g' 0 255 := by
  obtain ⟨hcode, him⟩ := xBand_code _ _ hx
  have val : ∀ g : ℝ × ℝ, F.table g 0 255 = .ok (planck 2264.9 9.1124 (radOf g.1 g.2 255)) := by
    intro g
    rw [table_x g F .WV _ hcode him]
    unfold calibrationOf
    rw [satOf_x, if_neg (by rw [hg.1]; decide), if_neg (by rw [hg.2.1]; decide), if_neg (by rw [hg.2.2]; decide)]
    rfl
  refine ⟨(0, 0), (1, 0), ?_⟩
  rw [val, val]
  have r0 : radOf (0 : ℝ) 0 255 = 0 := by unfold radOf; norm_num
  have r1 : radOf (1 : ℝ) 0 255 = 255 := by unfold radOf; norm_num
  dsimp only
  rw [r0, r1]
  obtain ⟨T, e, hT, -⟩ := planck_spec 2264.9 9.1124 255 (by norm_num) (by norm_num) (by norm_num) (by norm_num)
  rw [e]
  unfold planck
  rw [if_pos rfl]
  intro h
  injection h with h; injection h with h
  linarith

/-- The water vapour images of GOES and GMS are not calibrated: every count is 1 kelvin. -/
theorem C77_violated_vapour (garbage : ℝ × ℝ) (F : File) (hx : xBand F.label .WV)
    (hg : F.ident.isGOES_E = true ∨ F.ident.isGOES_W = true ∨ F.ident.isGMS = true) (i : ℕ) :
    unitsOf .WV = "K" ∧ F.table garbage 0 i = .ok (some 1) := by
  refine ⟨rfl, ?_⟩
  obtain ⟨hcode, him⟩ := xBand_code _ _ hx
  rw [table_x garbage F .WV _ hcode him]
  unfold calibrationOf
  rw [satOf_x]
  by_cases h1 : F.ident.isGOES_E = true
  · rw [if_pos h1]; rfl
  rw [if_neg h1]
  by_cases h2 : F.ident.isGOES_W = true
  · rw [if_pos h2]; rfl
  rw [if_neg h2, if_pos ((hg.resolve_left h1).resolve_left h2)]
  rfl

/-- Labels of the X format: one byte each for infrared, water vapour and visible at reduced resolution; and identifications of GOES-E,
GMS and METEOSAT-5. -/
example : xBand ⟨8, 1, 1, 1, 1234, 15, 0, 0, 1, 0, 0, 0, 0, 0, 0, 0, 0⟩ .IR ∧ xBand ⟨8, 1, 1, 1, 1234, 15, 0, 0, 0, 1, 0, 0, 0, 0, 0, 0, 0⟩ .WV := by
  constructor
  · exact ⟨⟨.X, true, false, false, _⟩, rfl, rfl, rfl, rfl⟩
  · exact ⟨⟨.X, false, false, true, _⟩, rfl, rfl, rfl, rfl⟩

end Msat.Props
