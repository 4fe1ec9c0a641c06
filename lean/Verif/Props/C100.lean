import Verif.Model.NativeTools
import Verif.Spec.NativeTools
import Verif.Props.C59_C60
import Verif.Props.C61
import Verif.Props.C87
import Verif.Lemmas.Text

namespace Msat.Props
open Msat Layout Native NativeSpec NativeTools NativeToolsSpec
open Msat.Text (isSpace isDigit scanSigned digits_length digits_all ofDigits_digits isDigit_not takeWhile_digits dropWhile_digits)
open Msat.TextSpec (digits)

/-! ### The text header -/

theorem blank_iff (c : UInt8) : isSpace c = true ↔ Blank c := by
  unfold isSpace Blank
  simp

theorem after_key {key pad pad' : Bytes} (r : Bytes) (hk : key ≠ []) (hk' : ∀ c ∈ key, ¬ Blank c) (hp : pad ≠ [])
    (hp' : ∀ c ∈ pad, c = 32) (hq : ∀ c ∈ pad', c = 32) :
    afterKey (key ++ pad ++ [58] ++ pad' ++ r) = some (r.dropWhile isSpace) := by
  have hs : ∀ c ∈ key, isSpace c = false := fun c hc => by
    rw [← Bool.not_eq_true, blank_iff]
    exact hk' c hc
  have e1 : (key ++ pad ++ [58] ++ pad' ++ r).dropWhile isSpace = key ++ (pad ++ 58 :: (pad' ++ r)) := by
    cases key with
    | nil => exact absurd rfl hk
    | cons c cs =>
      have := hs c (by simp)
      simp [this]
  have e2 : (key ++ (pad ++ 58 :: (pad' ++ r))).takeWhile (fun c => !isSpace c) = key := by
    rw [List.takeWhile_append_of_pos (fun c hc => by rw [hs c hc]; rfl)]
    cases pad with
    | nil => exact absurd rfl hp
    | cons c cs =>
      rw [hp' c (by simp)]
      simp [isSpace]
  have e3 : (pad ++ 58 :: (pad' ++ r)).dropWhile isSpace = 58 :: (pad' ++ r) := by
    rw [List.dropWhile_append_of_pos (fun c hc => by rw [hp' c hc]; rfl)]
    rfl
  unfold afterKey
  simp only [e1, e2, if_neg hk]
  rw [List.drop_left' rfl, e3]
  dsimp only
  rw [if_pos rfl, List.dropWhile_append_of_pos (fun c hc => by rw [hq c hc]; rfl)]

theorem scan_digits (k n : Nat) (rest : Bytes) (hk : 1 ≤ k) (hn : n < 10 ^ k) (h : rest.takeWhile isDigit = []) :
    scanSigned none (digits k n ++ rest) = some ((n : Int), k) := by
  have hl := digits_length k n
  have ha := digits_all k n
  have ho := ofDigits_digits k n hn
  have ht := takeWhile_digits k n rest h
  generalize digits k n = ds at *
  unfold scanSigned
  cases ds with
  | nil => simp at hl; omega
  | cons c cs =>
    obtain ⟨d1, d2, _⟩ := isDigit_not (ha c (by simp))
    rw [List.cons_append] at ht ⊢
    show (if c = 45 then _ else if c = 43 then _ else _) = _
    rw [if_neg d1, if_neg d2]
    dsimp only
    rw [ht, if_neg (by simp), ho, hl]

theorem tail_digits {tail : Bytes} (h : ∀ c, tail.head? = some c → Blank c) : tail.takeWhile isDigit = [] := by
  cases tail with
  | nil => rfl
  | cons c cs =>
    have hb := (blank_iff c).2 (h c rfl)
    rw [List.takeWhile_cons, if_neg]
    intro hd
    rw [(isDigit_not hd).2.2] at hb
    cases hb

theorem says_long {t : Bytes} {n : Nat} (h : Says t n) : entryLong t = some (n : Int) := by
  obtain ⟨v, ⟨key, pad, pad', tail, rfl, h1, h2, h3, h4, h5, h6⟩, k, hk, hn, rfl⟩ := h
  unfold entryLong
  rw [List.append_assoc _ (digits k n), after_key _ h1 h2 h3 h4 h5, dropWhile_digits k n hk]
  simp only [Option.bind_some]
  rw [scan_digits k n tail hk hn (tail_digits h6)]
  rfl

theorem locates_address {t : Bytes} {n : Nat} (h : Locates t n) : entryAddress t = some (n : Int) := by
  obtain ⟨size, gap, value, v, ⟨key, pad, pad', tail, rfl, h1, h2, h3, h4, h5, h6⟩, ⟨k, hk, hv, rfl⟩, g1, g2, k', hk', hn, rfl⟩ := h
  have hg : (gap ++ (digits k' n ++ tail)).takeWhile isDigit = [] := by
    cases gap with
    | nil => exact absurd rfl g1
    | cons c cs => rw [g2 c (by simp)]; rfl
  unfold entryAddress
  rw [List.append_assoc _ _ tail, after_key _ h1 h2 h3 h4 h5, List.append_assoc, List.append_assoc, dropWhile_digits k v hk]
  simp only [Option.bind_some]
  rw [scan_digits k v _ hk hv hg]
  simp only [Option.bind_some]
  rw [List.drop_left' (digits_length k v), List.dropWhile_append_of_pos (fun c hc => by rw [g2 c hc]; rfl), dropWhile_digits k' n hk',
    scan_digits k' n tail hk' hn (tail_digits h6)]
  rfl

theorem entry_word {t w : Bytes} (h : Entry t w) (hw : w ≠ []) (hb : ∀ c ∈ w, ¬ Blank c) : entryWord t = some w := by
  obtain ⟨key, pad, pad', tail, rfl, h1, h2, h3, h4, h5, h6⟩ := h
  have hs : ∀ c ∈ w, isSpace c = false := fun c hc => by
    rw [← Bool.not_eq_true, blank_iff]
    exact hb c hc
  have e1 : (w ++ tail).dropWhile isSpace = w ++ tail := by
    cases w with
    | nil => exact absurd rfl hw
    | cons c cs =>
      have := hs c (by simp)
      simp [this]
  have e2 : (w ++ tail).takeWhile (fun c => !isSpace c) = w := by
    rw [List.takeWhile_append_of_pos (fun c hc => by rw [hs c hc]; rfl)]
    cases tail with
    | nil => simp
    | cons c cs =>
      rw [List.takeWhile_cons, (blank_iff c).2 (h6 c rfl)]
      simp
  unfold entryWord
  rw [List.append_assoc _ w, after_key _ h1 h2 h3 h4 h5, e1]
  simp only [Option.bind_some, e2, if_neg hw]

theorem selection_some (w : Bytes) : selection (w.map some) = .ok (w.map (· == 88)) := by
  induction w with
  | nil => rfl
  | cons c cs ih =>
    show (selection (cs.map some) >>= fun t => pure ((c == 88) :: t)) = _
    rw [ih]
    rfl

/-- The channels that the reader selects. -/
theorem lists_selection {t : Bytes} {selected : Nat → Bool} (h : Lists t selected) :
    ∃ cells sel, bandsel t = .ok cells ∧ selection (cells.take 12) = .ok sel ∧ ∀ i < 12, sel.getD i false = selected i := by
  obtain ⟨w, he, hl, hb, hs⟩ := h
  have hw : w ≠ [] := by intro e; rw [e] at hl; cases hl
  refine ⟨w.map some ++ [some 0] ++ List.replicate (15 - w.length) none, w.map (· == 88), ?_, ?_, ?_⟩
  · unfold bandsel
    rw [entry_word he hw hb]
    dsimp only
    rw [if_pos (by omega)]
  · rw [List.append_assoc, List.take_left' (by rw [List.length_map, hl]), selection_some]
  · intro i hi
    obtain ⟨c, hc⟩ : ∃ c, w[i]? = some c := ⟨w[i]'(by omega), List.getElem?_eq_getElem (by omega)⟩
    have := hs i hi
    rw [hc] at this
    rw [List.getD_eq_getElem?_getD, List.getElem?_map, hc]
    show (c == 88) = selected i
    rw [Bool.eq_iff_iff, ← this]
    simp

/-- The entries of a text header, as the reader numbers them. -/
theorem described {text : Bytes} {selected : Nat → Bool} {nlines ncols hlines hcols datapos trailerpos : Nat}
    (h : Describes text selected nlines ncols hlines hcols datapos trailerpos) :
    text.length = 5114 ∧ ∃ mph, readMph text = .ok mph ∧ entryAddress (mph.getD 9 []) = some (datapos : Int) ∧
      entryAddress (mph.getD 10 []) = some (trailerpos : Int) ∧ Lists (mph.getD 39 []) selected ∧
      (∃ v, entryLong (mph.getD 40 []) = some v) ∧ (∃ v, entryLong (mph.getD 41 []) = some v) ∧
      (∃ v, entryLong (mph.getD 42 []) = some v) ∧ entryLong (mph.getD 44 []) = some (nlines : Int) ∧
      entryLong (mph.getD 45 []) = some (ncols : Int) ∧ entryLong (mph.getD 46 []) = some (hlines : Int) ∧
      entryLong (mph.getD 47 []) = some (hcols : Int) := by
  obtain ⟨a, b, gap, c, rfl, ha, hb, hg, hc, fa, fb, fc, ⟨t9, e9, l9⟩, ⟨t10, e10, l10⟩, ⟨t39, e39, l39⟩, ⟨t40, v40, e40, l40⟩,
    ⟨t41, v41, e41, l41⟩, ⟨t42, v42, e42, l42⟩, ⟨t44, e44, l44⟩, ⟨t45, e45, l45⟩, ⟨t46, e46, l46⟩, ⟨t47, e47, l47⟩⟩ := h.known
  obtain ⟨hl, hm⟩ := C61_text_entries a b gap c ha hb hg hc fa fb fc
  have hB : ∀ i t, b[i]? = some t → (a ++ (b.map fun t => t.1 ++ t.2) ++ c).getD (6 + i) [] = t.1 ++ t.2 := by
    intro i t e
    have hi := (List.getElem?_eq_some_iff.1 e).1
    rw [List.getD_eq_getElem?_getD, List.getElem?_append_left (by rw [List.length_append, List.length_map]; omega),
      List.getElem?_append_right (by omega), ha, Nat.add_sub_cancel_left, List.getElem?_map, e]
    rfl
  have hC : ∀ i t, c[i]? = some t → (a ++ (b.map fun t => t.1 ++ t.2) ++ c).getD (11 + i) [] = t := by
    intro i t e
    rw [List.getD_eq_getElem?_getD, List.getElem?_append_right (by rw [List.length_append, List.length_map]; omega),
      List.length_append, List.length_map, ha, hb, Nat.add_sub_cancel_left, e]
    rfl
  refine ⟨hl, _, hm, ?_, ?_, ?_, ⟨v40, ?_⟩, ⟨v41, ?_⟩, ⟨v42, ?_⟩, ?_, ?_, ?_, ?_⟩
  · rw [hB 3 t9 e9]; exact locates_address l9
  · rw [hB 4 t10 e10]; exact locates_address l10
  · rw [hC 28 t39 e39]; exact l39
  · rw [hC 29 t40 e40]; exact says_long l40
  · rw [hC 30 t41 e41]; exact says_long l41
  · rw [hC 31 t42 e42]; exact says_long l42
  · rw [hC 33 t44 e44]; exact says_long l44
  · rw [hC 34 t45 e45]; exact says_long l45
  · rw [hC 35 t46 e46]; exact says_long l46
  · rw [hC 36 t47 e47]; exact says_long l47

/-! ### Reading a file -/

theorem order_congr {s s' : Nat → Bool} (n : Nat) (h : ∀ i < 12, s i = s' i) : imageOrder s n = imageOrder s' n := by
  unfold imageOrder
  rw [h 11 (by decide), List.filter_congr (fun i hi => h i (by have := List.mem_range.1 hi; omega))]

theorem toInt_nat {n : Nat} (h : n < 2 ^ 31) : toInt (n : Int) = n := by
  unfold toInt
  omega

theorem any_congr {s s' : Nat → Bool} (n : Nat) (hn : n ≤ 12) (h : ∀ i < 12, s i = s' i) :
    (List.range n).any s = (List.range n).any s' := by
  rw [Bool.eq_iff_iff, List.any_eq_true, List.any_eq_true]
  constructor
  · rintro ⟨i, hi, e⟩
    exact ⟨i, hi, by rw [← h i (by have := List.mem_range.1 hi; omega)]; exact e⟩
  · rintro ⟨i, hi, e⟩
    exact ⟨i, hi, by rw [h i (by have := List.mem_range.1 hi; omega)]; exact e⟩

/-- The sizes that are announced. -/
theorem sizes_ok {mph : List Bytes} {sel : Nat → Bool} {nlines ncols hlines hcols : Nat} (hsmall : nlines < 2 ^ 31 ∧ ncols < 2 ^ 31 ∧
      hlines < 2 ^ 31 ∧ hcols < 2 ^ 31) (h40 : ∃ v, entryLong (mph.getD 40 []) = some v)
    (h41 : ∃ v, entryLong (mph.getD 41 []) = some v) (h42 : ∃ v, entryLong (mph.getD 42 []) = some v)
    (h45 : entryLong (mph.getD 45 []) = some (ncols : Int)) (h46 : entryLong (mph.getD 46 []) = some (hlines : Int))
    (h47 : entryLong (mph.getD 47 []) = some (hcols : Int)) :
    ∃ l c, sizes mph sel nlines = .ok (l, c) ∧
      (∀ i < 12, l i = if sel i then (if i = 11 then (hlines : Int) else nlines) else 0) ∧
      ∀ i < 12, c i = if sel i then (if i = 11 then (hcols : Int) else ncols) else 0 := by
  obtain ⟨v40, h40⟩ := h40
  obtain ⟨v41, h41⟩ := h41
  obtain ⟨v42, h42⟩ := h42
  have hb : ∀ (p : Bool) (v : Int), ∃ u, setIf p (some v) = .ok u ∧ (p = true → u = v) := by
    intro p v
    cases p
    · exact ⟨0, rfl, fun h => by cases h⟩
    · exact ⟨v, rfl, fun _ => rfl⟩
  unfold sizes
  rw [h40, h41, h42, h45, h46, h47]
  obtain ⟨u1, e1, _⟩ := hb ((List.range 12).any sel) v40
  obtain ⟨u2, e2, _⟩ := hb ((List.range 12).any sel) v41
  obtain ⟨u3, e3, _⟩ := hb ((List.range 12).any sel) v42
  obtain ⟨u4, e4, f4⟩ := hb ((List.range 11).any sel) ncols
  obtain ⟨u5, e5, f5⟩ := hb (sel 11) hcols
  simp only [e1, e2, e3, e4, Outcome.ok_bind, Option.getD_some, Option.some_or, e5, Outcome.pure_eq]
  refine ⟨_, _, rfl, fun i hi => ?_, fun i hi => ?_⟩
  · rw [toInt_nat hsmall.1, toInt_nat hsmall.2.2.1]
  · cases hs : sel i with
    | false => rfl
    | true =>
      rw [if_pos rfl, if_pos rfl]
      by_cases h11 : i = 11
      · rw [if_pos h11, if_pos h11, f5 (by rw [← h11]; exact hs), toInt_nat hsmall.2.2.2]
      · rw [if_neg h11, if_neg h11, f4 (List.any_eq_true.2 ⟨i, List.mem_range.2 (by omega), hs⟩), toInt_nat hsmall.2.1]

theorem readImage_congr {s s' : Nat → Bool} (n : Nat) (b : Bytes) (h : ∀ i < 12, s i = s' i) : readImage s n b = readImage s' n b := by
  unfold readImage
  rw [lineOrder_eq, lineOrder_eq, order_congr n h]

theorem readImage_any (selected : Nat → Bool) (nlines : Nat) (items : List (Nat × Bytes × Bytes)) (rest : Bytes)
    (ho : items.map (·.1) = imageOrder selected nlines) (hb : ∀ x ∈ items, LineBytes x.2.1 x.2.2) :
    ∃ h held, readImage selected nlines (items.flatMap (·.2.1) ++ rest) = .ok (h, held) := by
  rcases List.eq_nil_or_concat items with rfl | ⟨xs, x, rfl⟩
  · refine ⟨[], [], ?_⟩
    unfold readImage
    rw [lineOrder_eq, ← ho]
    rfl
  · rw [List.concat_eq_append] at ho hb ⊢
    exact ⟨_, _, readImage_ok selected nlines xs x rest ho hb⟩

theorem header_ok {text pk l15 more : Bytes} {mph : List Bytes} (ht : text.length = 5114) (hm : readMph text = .ok mph)
    (ha : Announces pk l15.length) (hl : l15.length = 445248) :
    readNativeHeader (text ++ pk ++ l15 ++ more) = .ok ((mph, pk, l15), more) := by
  have hp := (readPacket_ok_iff (l15 := headerLen) (by decide) (pk ++ l15 ++ more) pk l15 more).2 ⟨rfl, by rw [hl] at ha; exact ha, hl⟩
  unfold readNativeHeader
  rw [List.append_assoc, List.append_assoc, ← List.append_assoc pk, readN_append _ _ mphLen ht]
  simp only [Outcome.ok_bind]
  rw [hm, Outcome.ok_bind, hp, Outcome.ok_bind]
  dsimp only
  rw [C31_consecutive.2.1]
  exact if_neg (show ¬ 445248 ≠ headerLen by decide)

theorem trailer_ok {tpk t15 more : Bytes} (ha : Announces tpk t15.length) (hl : t15.length = 380325) :
    ∃ x, readNativeTrailer (tpk ++ t15 ++ more) = .ok x :=
  ⟨_, (C31_trailer _ tpk t15 more).1.2 ⟨rfl, ha, hl⟩⟩

theorem seek_nat (file : Bytes) (n : Nat) : seek file ((some (n : Int)).getD 0) = file.drop n := by
  unfold seek
  rw [Option.getD_some, if_neg (by omega), Int.toNat_natCast]

/-- What is read from a complete file. -/
theorem reads100 {file : Bytes} {selected : Nat → Bool} {nlines ncols hlines hcols : Nat} {items : List (Nat × Bytes × Bytes)}
    (hf : NativeFile file selected nlines ncols hlines hcols items) :
    ∃ L rest, readNative file = .ok L ∧ (∀ i < 12, L.selected i = selected i) ∧
      readImage selected nlines (items.flatMap (·.2.1) ++ rest) = .ok (L.heap, L.held) ∧
      (∀ i < 12, L.lines i = if selected i then (if i = 11 then (hlines : Int) else nlines) else 0) ∧
      ∀ i < 12, L.columns i = if selected i then (if i = 11 then (hcols : Int) else ncols) else 0 := by
  obtain ⟨⟨text, pk, l15, more, datapos, trailerpos, hfile, hd, ha, hl, ⟨tpk, t15, more', ht, hta, htl⟩, more'', hdata⟩, ho, hb, hsmall⟩ := hf
  obtain ⟨h5114, mph, hm, h9, h10, h39, h40, h41, h42, h44, h45, h46, h47⟩ := described hd
  obtain ⟨cells, sel, hcells, hsel, hsel'⟩ := lists_selection h39
  obtain ⟨x, hx⟩ := trailer_ok (more := more') hta htl
  obtain ⟨h, held, hi⟩ := readImage_any selected nlines items more'' ho hb
  obtain ⟨l, c, hs, hls, hcs⟩ := sizes_ok (sel := fun i => sel.getD i false) hsmall h40 h41 h42 h45 h46 h47
  refine ⟨⟨fun i => sel.getD i false, h, held, l, c⟩, more'', ?_, hsel', hi, ?_, ?_⟩
  · unfold readNative
    rw [show readNativeHeader file = .ok ((mph, pk, l15), more) by rw [hfile]; exact header_ok h5114 hm ha hl, Outcome.ok_bind]
    dsimp only
    rw [h10, seek_nat, ht, hx, Outcome.ok_bind, hcells, Outcome.ok_bind, hsel, Outcome.ok_bind, h44]
    show (readImage (fun i => sel.getD i false) ((nlines : Int)).toNat _ >>= _) = _
    rw [h9, seek_nat, hdata, Int.toNat_natCast, readImage_congr nlines _ hsel', hi, Outcome.ok_bind]
    dsimp only
    rw [hs]
    rfl
  · intro i hi
    dsimp only
    rw [hls i hi]
    rw [hsel' i hi]
  · intro i hi
    dsimp only
    rw [hcs i hi]
    rw [hsel' i hi]

theorem ofChannel_nat (f : Nat → Int) {c : Nat} (h : c < 12) : ofChannel f c = f c := by
  unfold ofChannel
  rw [if_neg (by omega), Int.toNat_natCast]

/-- Every complete file is read, the numbers of lines and columns of each channel are those of the text header, and channels that are not
in the file, or that do not exist, have no size and no data. -/
theorem C100_reads {file : Bytes} {selected : Nat → Bool} {nlines ncols hlines hcols : Nat} {items : List (Nat × Bytes × Bytes)}
    (hf : NativeFile file selected nlines ncols hlines hcols items) :
    ∃ L, readNative file = .ok L ∧
      (∀ c : Nat, c < 12 → selected c = true → ofChannel L.lines c = (if c = 11 then hlines else nlines : Nat) ∧
        ofChannel L.columns c = (if c = 11 then hcols else ncols : Nat)) ∧
      ∀ c : Int, (c < 0 ∨ 12 ≤ c ∨ selected c.toNat = false) →
        ofChannel L.lines c = 0 ∧ ofChannel L.columns c = 0 ∧ data L c = .ok none := by
  obtain ⟨L, rest, hL, hs, _, hl, hc⟩ := reads100 hf
  refine ⟨L, hL, fun c h12 hsel => ?_, fun c hc' => ?_⟩
  · rw [ofChannel_nat _ h12, ofChannel_nat _ h12, hl c h12, hc c h12, hsel, if_pos rfl, if_pos rfl]
    by_cases h11 : c = 11
    · rw [if_pos h11, if_pos h11, if_pos h11, if_pos h11]
      exact ⟨rfl, rfl⟩
    · rw [if_neg h11, if_neg h11, if_neg h11, if_neg h11]
      exact ⟨rfl, rfl⟩
  · unfold ofChannel data
    by_cases hr : c < 0 ∨ c ≥ 12
    · rw [if_pos hr, if_pos hr, if_pos hr]
      exact ⟨rfl, rfl, rfl⟩
    · have h12 : c.toNat < 12 := by omega
      have hsel : selected c.toNat = false := by
        rcases hc' with h | h | h
        · omega
        · omega
        · exact h
      rw [if_neg hr, if_neg hr, if_neg hr, hl _ h12, hc _ h12, hs _ h12, hsel]
      exact ⟨rfl, rfl, rfl⟩

theorem count_order (selected : Nat → Bool) (n c : Nat) (hc : c < 12) (hs : selected c = true) :
    (imageOrder selected n).count c = if c = 11 then 3 * n else n := by
  unfold imageOrder
  induction n with
  | zero => simp
  | succ n ih =>
    rw [List.replicate_succ, List.flatten_cons, List.count_append, ih, List.count_append]
    by_cases h11 : c = 11
    · subst h11
      rw [hs, if_pos rfl, if_pos rfl, if_pos rfl, List.count_eq_zero_of_not_mem (fun h => by
        have := List.mem_range.1 (List.mem_filter.1 h).1
        omega)]
      show 0 + 3 + _ = _
      omega
    · have h1 : ((List.range 11).filter selected).count c = 1 := by
        rw [List.count_filter hs, List.count_range]
        rw [if_pos (by omega)]
      have h2 : (if selected 11 = true then [11, 11, 11] else []).count c = 0 := by
        apply List.count_eq_zero_of_not_mem
        split
        · simp only [List.mem_cons, List.not_mem_nil, or_false]; omega
        · simp
      rw [h1, h2, if_neg h11, if_neg h11]
      omega

/-- The data of every channel of a complete file, except the channel of the last line of the file: the samples of its lines, one line
after the other. -/
theorem C100_data_partial {file : Bytes} {selected : Nat → Bool} {nlines ncols hlines hcols : Nat} {items : List (Nat × Bytes × Bytes)}
    {last : Nat × Bytes × Bytes} (hf : NativeFile file selected nlines ncols hlines hcols (items ++ [last]))
    (c lines columns : Nat) (h12 : c < 12) (hsel : selected c = true) (hc : c ≠ last.1)
    (hl : lines = if c = 11 then hlines else nlines) (hcol : columns = if c = 11 then hcols else ncols)
    (h3 : c = 11 → hlines = 3 * nlines) (hsize : lines * columns < 2 ^ 31)
    (hlen : ∀ x ∈ items, x.1 = c → x.2.2.length * 8 = columns * 10 ∧ x.2.2.length % 5 = 0) :
    ∃ L rows, readNative file = .ok L ∧ data L c = .ok (some (rows.flatten.map some)) ∧
      List.Forall₂ (fun row (d : Bytes) => row.length = columns ∧ (∀ s ∈ row, s < 2 ^ 10) ∧ bitsOfSamples row = bitsOfBytes d) rows
        ((items.filter (fun x => x.1 = c)).map (·.2.2)) ∧
      rows.length = lines := by
  obtain ⟨L, rest, hL, hs, hi, hls, hcs⟩ := reads100 hf
  have hcount := count_order selected nlines c h12 hsel
  obtain ⟨h, held, rows, e1, e2, e3, e4⟩ := C59_channel_data_partial selected nlines items last rest c columns lines hf.order hf.lines hc
    hlen (by
      rw [hcount, hl]
      split
      · exact h3 (by assumption)
      · rfl)
  rw [hi] at e1
  simp only [Outcome.ok.injEq, Prod.mk.injEq] at e1
  obtain ⟨rfl, rfl⟩ := e1
  refine ⟨L, rows, hL, ?_, ?_, e4⟩
  · have l1 : L.lines c = (lines : Int) := by
      rw [hls c h12, hsel, if_pos rfl, hl]
      split <;> rfl
    have c1 : L.columns c = (columns : Int) := by
      rw [hcs c h12, hsel, if_pos rfl, hcol]
      split <;> rfl
    unfold data
    have hz : (lines : Int) * (columns : Int) = ((lines * columns : Nat) : Int) := by push_cast; rfl
    rw [if_neg (by omega), Int.toNat_natCast, hs c h12, hsel, if_neg (by decide), l1, c1]
    dsimp only
    rw [hz, if_neg (by omega), if_neg (by omega), if_neg (by omega), Int.toNat_natCast, Int.toNat_natCast, e2]
    rfl
  · have key : ∀ (rows : List (List Nat)) (ds : List Bytes), (∀ d ∈ ds, d.length * 8 = columns * 10) →
        List.Forall₂ (fun row (d : Bytes) => (∀ s ∈ row, s < 2 ^ 10) ∧ bitsOfSamples row = bitsOfBytes d) rows ds →
        List.Forall₂ (fun row (d : Bytes) => row.length = columns ∧ (∀ s ∈ row, s < 2 ^ 10) ∧ bitsOfSamples row = bitsOfBytes d) rows ds := by
      intro rows ds hd hF
      induction hF with
      | nil => exact .nil
      | @cons row d rows ds h _ ih =>
        refine .cons ⟨?_, h⟩ (ih (fun d hd' => hd d (by simp [hd'])))
        have e := congrArg List.length h.2
        rw [bitsOfBytes, bitsOfSamples, flatMap_length_const _ 8 (fun b => bits_length 8 _),
          flatMap_length_const _ 10 (fun b => bits_length 10 _)] at e
        have := hd d (by simp)
        omega
    refine key _ _ (fun d hd => ?_) e3
    obtain ⟨x, hx, rfl⟩ := List.mem_map.1 hd
    obtain ⟨hx1, hx2⟩ := List.mem_filter.1 hx
    exact (hlen x hx1 (by simpa using hx2)).1

/-! ### native2Image -/

theorem atoi_number {s : Bytes} {n : Nat} (h : Number s n) : atoi s = n := by
  obtain ⟨k, hk, hn, rfl⟩ := h
  have h1 := dropWhile_digits k n hk []
  have h2 := scan_digits k n [] hk hn rfl
  rw [List.append_nil] at h1 h2
  unfold atoi
  rw [h1, h2]

theorem flatten_get {columns : Nat} : ∀ (rows : List (List Nat)), (∀ r ∈ rows, r.length = columns) → ∀ (i j : Nat) (row : List Nat) (v : Nat),
    rows[i]? = some row → row[j]? = some v → rows.flatten[i * columns + j]? = some v
  | [], _, i, j, row, v, h, _ => by simp at h
  | r :: rs, hl, 0, j, row, v, h, hv => by
    simp only [List.getElem?_cons_zero, Option.some.injEq] at h
    subst h
    rw [List.flatten_cons, Nat.zero_mul, Nat.zero_add, List.getElem?_append_left (List.getElem?_eq_some_iff.1 hv).1]
    exact hv
  | r :: rs, hl, i + 1, j, row, v, h, hv => by
    rw [List.getElem?_cons_succ] at h
    have hr := hl r (by simp)
    rw [List.flatten_cons, List.getElem?_append_right (by rw [hr, Nat.succ_mul]; omega), hr,
      show (i + 1) * columns + j - columns = i * columns + j by rw [Nat.succ_mul]; omega]
    exact flatten_get rs (fun x hx => hl x (by simp [hx])) i j row v h hv

theorem flatten_len {columns : Nat} (rows : List (List Nat)) (h : ∀ r ∈ rows, r.length = columns) :
    rows.flatten.length = rows.length * columns := by
  induction rows with
  | nil => simp
  | cons r rs ih =>
    rw [List.flatten_cons, List.length_append, h r (by simp), ih (fun x hx => h x (by simp [hx])), List.length_cons, Nat.succ_mul]
    omega

/-- The image of a channel. -/
theorem image100 (w : World) {file : Bytes} (hw : w.input = some file) {path channel format scale : Bytes} (hp : path ≠ str "-V")
    (c : Nat) (hc : Number channel c) {L : Loaded} {p : Picture} (hL : readNative file = .ok L) {d : Option (List (Option Nat))}
    (hd : data L c = .ok d) (hpic : picture (ofChannel L.columns c) (ofChannel L.lines c) d = .ok p) (hwr : w.writes (outName format) = true) :
    native2Image w [path, channel, format, scale] = ⟨ended (finish w L), some (outName format, turned w p)⟩ := by
  unfold native2Image
  dsimp only
  rw [if_neg hp]
  rw [hw]
  dsimp only
  rw [hL, Outcome.ok_bind, atoi_number hc, hd, Outcome.ok_bind, hpic, Outcome.ok_bind]
  dsimp only [Outcome.pure_eq]
  rw [hwr]
  rfl

/-- The image written for a channel other than that of the last line of the file: a file `MSG1.` and the format, of the size of the channel,
whose samples are those of the channel, each changed by the normalisation of the whole channel, with the image turned by half a turn. -/
theorem C100_image_partial (w : World) {file : Bytes} {selected : Nat → Bool} {nlines ncols hlines hcols : Nat}
    {items : List (Nat × Bytes × Bytes)} {last : Nat × Bytes × Bytes}
    (hf : NativeFile file selected nlines ncols hlines hcols (items ++ [last])) (hw : w.input = some file)
    (path channel format scale : Bytes) (hp : path ≠ str "-V")
    (c lines columns : Nat) (hn : Number channel c) (h12 : c < 12) (hsel : selected c = true) (hc : c ≠ last.1)
    (hl : lines = if c = 11 then hlines else nlines) (hcol : columns = if c = 11 then hcols else ncols)
    (h3 : c = 11 → hlines = 3 * nlines) (hsize : lines * columns < 2 ^ 31) (hpos : 0 < lines ∧ 0 < columns)
    (hlen : ∀ x ∈ items, x.1 = c → x.2.2.length * 8 = columns * 10 ∧ x.2.2.length % 5 = 0)
    (hfmt : format.length ≤ 4090) (hwr : w.writes (str "MSG1." ++ format) = true) :
    ∃ (rows : List (List Nat)) (pixels : List (Option Nat)),
      (native2Image w [path, channel, format, scale]).file = some (str "MSG1." ++ format, ⟨columns, lines, pixels⟩) ∧
      List.Forall₂ (fun row (d : Bytes) => row.length = columns ∧ (∀ s ∈ row, s < 2 ^ 10) ∧ bitsOfSamples row = bitsOfBytes d) rows
        ((items.filter (fun x => x.1 = c)).map (·.2.2)) ∧
      rows.length = lines ∧ pixels.length = lines * columns ∧
      ∀ i < lines, ∀ j < columns, ∀ row v, rows[lines - 1 - i]? = some row → row[columns - 1 - j]? = some v →
        pixels[i * columns + j]? = some (some (w.stretch (rows.flatten.map some) v)) := by
  obtain ⟨L, rows, hL, hd, hF, hr⟩ := C100_data_partial hf c lines columns h12 hsel hc hl hcol h3 hsize hlen
  obtain ⟨L', hL', hdim, _⟩ := C100_reads hf
  rw [hL] at hL'
  obtain rfl := Outcome.ok.inj hL'
  obtain ⟨e1, e2⟩ := hdim c h12 hsel
  rw [← hl] at e1
  rw [← hcol] at e2
  have hrl : ∀ r ∈ rows, r.length = columns := by
    clear hr hd
    generalize (items.filter (fun x => x.1 = c)).map (·.2.2) = ds at hF
    induction hF with
    | nil => intro r h; cases h
    | cons h _ ih =>
      intro r hr
      rcases List.mem_cons.1 hr with rfl | hr
      · exact h.1
      · exact ih r hr
  have hlenr : (rows.flatten.map some).length = lines * columns := by rw [List.length_map, flatten_len rows hrl, hr]
  have hout : outName format = str "MSG1." ++ format := by
    unfold outName
    rw [List.append_assoc, ← List.append_assoc (str "MSG1"), show str "MSG1" ++ str "." = str "MSG1." by decide +kernel]
    apply List.take_of_length_le
    rw [List.length_append, show (str "MSG1.").length = 5 by decide +kernel]
    omega
  have hpic : picture (ofChannel L.columns c) (ofChannel L.lines c) (some (rows.flatten.map some))
      = .ok ⟨columns, lines, rows.flatten.map some⟩ := by
    unfold picture
    dsimp only
    rw [e1, e2, if_neg (by omega), Int.toNat_natCast, Int.toNat_natCast, if_pos (by rw [hlenr]; exact Nat.le_refl _),
      List.take_of_length_le (by rw [hlenr]; exact Nat.le_refl _)]
  rw [← hout] at hwr ⊢
  refine ⟨rows, ((rows.flatten.map some).map (Option.map (w.stretch (rows.flatten.map some)))).reverse, ?_, hF, hr, ?_, ?_⟩
  · rw [image100 w hw hp c hn hL hd hpic hwr]
    rfl
  · rw [List.length_reverse, List.length_map, hlenr]
  · intro i hi j hj row v h1 h2
    have hlt : i * columns + j < lines * columns := by
      calc i * columns + j < i * columns + columns := by omega
        _ = (i + 1) * columns := by rw [Nat.succ_mul]
        _ ≤ lines * columns := Nat.mul_le_mul_right _ hi
    have hidx : lines * columns - 1 - (i * columns + j) = (lines - 1 - i) * columns + (columns - 1 - j) := by
      obtain ⟨a, rfl⟩ : ∃ a, lines = a + 1 + i := ⟨lines - 1 - i, by omega⟩
      rw [show a + 1 + i - 1 - i = a by omega, Nat.add_mul, Nat.add_mul, Nat.one_mul]
      omega
    rw [List.getElem?_reverse (by rw [List.length_map, hlenr]; exact hlt), List.length_map, hlenr, hidx, List.getElem?_map, List.getElem?_map,
      flatten_get rows hrl _ _ row v h1 h2]
    rfl

/-- Arguments: `-V` and nothing else is done; fewer than four, or a file that cannot be opened, and the status is 255 (1 for nativedump). -/
theorem C100_arguments (w : World) (args : List Bytes) :
    (args.head? = some (str "-V") → native2Image w args = ⟨.ok 0, none⟩) ∧
    (args.head? ≠ some (str "-V") → args.length < 4 → native2Image w args = ⟨.ok 255, none⟩) ∧
    (args.head? ≠ some (str "-V") → w.input = none → native2Image w args = ⟨.ok 255, none⟩) ∧
    (args = [] ∨ w.input = none → nativedump w args = .ok 1) := by
  refine ⟨?_, ?_, ?_, ?_⟩
  · intro h
    cases args with
    | nil => cases h
    | cons a r =>
      simp only [List.head?_cons, Option.some.injEq] at h
      unfold native2Image
      dsimp only
      rw [if_pos h]
  · intro h hl
    match args, h, hl with
    | [], _, _ => rfl
    | [a], h, _ => unfold native2Image; dsimp only; rw [if_neg (by simpa using h)]
    | [a, b], h, _ => unfold native2Image; dsimp only; rw [if_neg (by simpa using h)]
    | [a, b, c], h, _ => unfold native2Image; dsimp only; rw [if_neg (by simpa using h)]
    | _ :: _ :: _ :: _ :: _, _, hl => simp only [List.length_cons] at hl; omega
  · intro h hw
    match args, h with
    | [], _ => rfl
    | [a], h => unfold native2Image; dsimp only; rw [if_neg (by simpa using h)]
    | [a, b], h => unfold native2Image; dsimp only; rw [if_neg (by simpa using h)]
    | [a, b, c], h => unfold native2Image; dsimp only; rw [if_neg (by simpa using h)]
    | a :: b :: c :: d :: e, h => unfold native2Image; dsimp only; rw [if_neg (by simpa using h), hw]
  · intro h
    cases args with
    | nil => rfl
    | cons a r =>
      rcases h with h | h
      · cases h
      · unfold nativedump
        dsimp only
        rw [h]

/-! ### What does not work -/

/-- The contents of the level 1.5 header cannot be decoded without copying over the end of an array, whatever they are. -/
theorem C100_violated_header (buf : Bytes) (base : Nat) : ∀ x, Layout.run (level15 headerParts) buf base ≠ .ok x := by
  have h1 : ∀ b, ∃ r ∈ (blackBodyDataUsed b).1, r.kind = .mem 63 24 := by
    intro base
    refine ⟨⟨[.f "DCRValues"], base, .mem 63 24⟩, ?_, rfl⟩
    unfold blackBodyDataUsed body
    iterate 18 (rw [block]; refine List.mem_append_right _ ?_)
    rw [block]
    exact List.mem_append_left _ (List.mem_singleton.2 rfl)
  have h2 : ∀ b, ∃ r ∈ (radiometricProc b).1, r.kind = .mem 63 24 := by
    intro b
    exact block_last (ss := [_, _]) (call_kind _ h1 b)
  intro x e
  obtain ⟨r, hr, hk⟩ : ∃ r ∈ (level15 headerParts base).1, r.kind = .mem 63 24 := by
    obtain ⟨r, hr, hk⟩ := h2 (base + 1 + ((headerParts.take 4).map (·.2.2)).sum)
    refine ⟨r.under [.f "radiometric_proc"], ?_, hk⟩
    rw [C31_consecutive.1 headerParts (by simp) base, List.mem_flatMap]
    exact ⟨4, by decide, List.mem_map_of_mem hr⟩
  simp only [Layout.run] at e
  cases hv : runReads (level15 headerParts base).1 buf with
  | ok v => exact runReads_ub (vs := v) ⟨r, hr, by rw [hk]; rfl⟩ hv
  | _ => rw [hv] at e; exact absurd e (by intro h; cases h)

theorem close100 {file : Bytes} {selected : Nat → Bool} {nlines ncols hlines hcols : Nat} {items : List (Nat × Bytes × Bytes)}
    (hf : NativeFile file selected nlines ncols hlines hcols items) (hne : items ≠ []) :
    ∃ L, readNative file = .ok L ∧ close L.heap L.held = .ub := by
  obtain ⟨L, rest, hL, hs, hi, hls, hcs⟩ := reads100 hf
  rcases List.eq_nil_or_concat items with rfl | ⟨xs, x, rfl⟩
  · exact absurd rfl hne
  · rw [List.concat_eq_append] at hf hi
    obtain ⟨h, held, e1, e2⟩ := C59_violated_close selected nlines xs x rest hf.order hf.lines
    rw [hi] at e1
    simp only [Outcome.ok.injEq, Prod.mk.injEq] at e1
    obtain ⟨rfl, rfl⟩ := e1
    exact ⟨L, hL, e2⟩

/-- No image is ever written without native2Image then deleting the same memory twice. -/
theorem C100_violated_close (w : World) {file : Bytes} {selected : Nat → Bool} {nlines ncols hlines hcols : Nat}
    {items : List (Nat × Bytes × Bytes)} (hf : NativeFile file selected nlines ncols hlines hcols items) (hne : items ≠ [])
    (hw : w.input = some file) (hs : w.scaling = .ok ()) (args : List Bytes) (h : (native2Image w args).file ≠ none) :
    (native2Image w args).status = .ub := by
  obtain ⟨L, hL, hc⟩ := close100 hf hne
  unfold native2Image at h ⊢
  split at h
  · rename_i a rest
    by_cases ha : a = str "-V"
    · rw [if_pos ha] at h
      exact absurd rfl h
    · rw [if_neg ha] at h ⊢
      split at h
      · rw [hw] at h ⊢
        dsimp only at h ⊢
        rw [hL] at h ⊢
        split at h
        · rename_i n p e
          split at h
          · rename_i hwr
            rw [if_pos hwr]
            obtain rfl : n = L := by
              rw [Outcome.ok_bind] at e
              obtain ⟨d, _, e⟩ := Outcome.of_bind_ok e
              obtain ⟨q, _, e⟩ := Outcome.of_bind_ok e
              exact (congrArg Prod.fst (Outcome.ok.inj e)).symm
            unfold finish
            rw [hs, Outcome.ok_bind, hc]
            rfl
          · exact absurd rfl h
        all_goals exact absurd rfl h
      · exact absurd rfl h
  · exact absurd rfl h

/-- The channel of the last line of the file cannot be exported: its last line has been freed. -/
theorem C100_violated_last (w : World) {file : Bytes} {selected : Nat → Bool} {nlines ncols hlines hcols : Nat}
    {items : List (Nat × Bytes × Bytes)} {last : Nat × Bytes × Bytes}
    (hf : NativeFile file selected nlines ncols hlines hcols (items ++ [last])) (hw : w.input = some file)
    (path channel format scale : Bytes) (hp : path ≠ str "-V") (hn : Number channel last.1) :
    native2Image w [path, channel, format, scale] = ⟨.ub, none⟩ := by
  obtain ⟨L, rest, hL, hs, hi, hls, hcs⟩ := reads100 hf
  have hd : data L (last.1 : Nat) = .ub := by
    have hm : last.1 ∈ imageOrder selected nlines := by rw [← hf.order]; simp
    have hsel : selected last.1 = true ∧ last.1 < 12 := by
      unfold imageOrder at hm
      obtain ⟨l, hl, hm⟩ := List.mem_flatten.1 hm
      rw [List.eq_of_mem_replicate hl] at hm
      rcases List.mem_append.1 hm with h | h
      · have h := List.mem_filter.1 h
        have := List.mem_range.1 h.1
        exact ⟨h.2, by omega⟩
      · split at h
        · have : last.1 = 11 := by simpa using h
          rw [this]
          exact ⟨by assumption, by decide⟩
        · cases h
    have hl0 : 0 ≤ L.lines last.1 := by
      rw [hls _ hsel.2, hsel.1, if_pos rfl]
      split <;> omega
    have hc0 : 0 ≤ L.columns last.1 := by
      rw [hcs _ hsel.2, hsel.1, if_pos rfl]
      split <;> omega
    have hnn := Int.mul_nonneg hl0 hc0
    obtain ⟨h, held, e1, e2⟩ := C59_violated_last_line selected nlines items last rest (L.lines last.1).toNat (L.columns last.1).toNat
      hf.order hf.lines
    rw [hi] at e1
    simp only [Outcome.ok.injEq, Prod.mk.injEq] at e1
    obtain ⟨rfl, rfl⟩ := e1
    unfold data
    have := hsel.2
    rw [if_neg (by omega), Int.toNat_natCast, hs _ hsel.2, hsel.1, if_neg (by decide)]
    dsimp only
    split
    · rfl
    · rw [if_neg (by omega), if_neg (by omega), e2]
      rfl
  unfold native2Image
  dsimp only
  rw [if_neg hp]
  rw [hw]
  dsimp only
  rw [hL, Outcome.ok_bind, atoi_number hn, hd, Outcome.ub_bind]

/-- A channel that is not in the file, or does not exist, makes the program abort. -/
theorem C100_violated_unselected (w : World) {file : Bytes} {selected : Nat → Bool} {nlines ncols hlines hcols : Nat}
    {items : List (Nat × Bytes × Bytes)} (hf : NativeFile file selected nlines ncols hlines hcols items) (hw : w.input = some file)
    (path channel format scale : Bytes) (hp : path ≠ str "-V") (c : Nat) (hn : Number channel c) (hsel : 12 ≤ c ∨ selected c = false) :
    native2Image w [path, channel, format, scale] = ⟨.terminate, none⟩ := by
  obtain ⟨L, hL, _, h⟩ := C100_reads hf
  obtain ⟨_, _, hd⟩ := h c (by
    rw [Int.toNat_natCast]
    rcases hsel with h | h
    · exact .inr (.inl (by omega))
    · exact .inr (.inr h))
  unfold native2Image
  dsimp only
  rw [if_neg hp]
  rw [hw]
  dsimp only
  rw [hL, Outcome.ok_bind, atoi_number hn, hd, Outcome.ok_bind]
  rfl

theorem toSample_ok_or_ub (d : Bytes) : (∃ x, toSample d none = .ok x) ∨ toSample d none = .ub := by
  unfold toSample
  rcases unpack_ok_or_ub d with ⟨ss, h⟩ | h
  · rw [h, Outcome.ok_bind]
    split
    · exact .inl ⟨_, rfl⟩
    · exact .inr rfl
  · rw [h]
    exact .inr rfl

theorem printLine_ok_or_ub (h : Heap) (l : Held) : (∃ x, printLine h l = .ok x) ∨ printLine h l = .ub := by
  unfold printLine
  split
  · rename_i d _
    rcases toSample_ok_or_ub d with ⟨x, e⟩ | e
    · rw [e]
      exact .inl ⟨_, rfl⟩
    · rw [e]
      exact .inr rfl
  · exact .inr rfl

theorem printLines_dead (h : Heap) (ls : List Held) (hd : ∃ l ∈ ls, h[l.ptr]? = some none) : printLines h ls = .ub := by
  induction ls with
  | nil => simp at hd
  | cons l ls ih =>
    rw [printLines]
    by_cases hl : h[l.ptr]? = some none
    · rw [show printLine h l = .ub by unfold printLine; rw [hl]]
      rfl
    · obtain ⟨l', hm, hn⟩ := hd
      have hm' : l' ∈ ls := by
        rcases List.mem_cons.1 hm with rfl | hm
        · exact absurd hn hl
        · exact hm
      rcases printLine_ok_or_ub h l with ⟨x, e⟩ | e
      · rw [e, Outcome.ok_bind, ih ⟨l', hm', hn⟩]
        rfl
      · rw [e]
        rfl

/-- nativedump reads freed memory on every file that has a line. -/
theorem C100_violated_dump (w : World) {file : Bytes} {selected : Nat → Bool} {nlines ncols hlines hcols : Nat}
    {items : List (Nat × Bytes × Bytes)} (hf : NativeFile file selected nlines ncols hlines hcols items) (hne : items ≠ [])
    (hw : w.input = some file) (args : List Bytes) (ha : args ≠ []) : nativedump w args = .ub := by
  obtain ⟨L, rest, hL, hs, hi, hls, hcs⟩ := reads100 hf
  rcases List.eq_nil_or_concat items with rfl | ⟨xs, x, rfl⟩
  · exact absurd rfl hne
  · rw [List.concat_eq_append] at hf hi
    rw [readImage_ok selected nlines xs x rest hf.order hf.lines] at hi
    simp only [Outcome.ok.injEq, Prod.mk.injEq] at hi
    have hm : x.1 ∈ imageOrder selected nlines := by rw [← hf.order]; simp
    have hsel : selected x.1 = true ∧ x.1 < 12 := by
      unfold imageOrder at hm
      obtain ⟨l, hl, hm⟩ := List.mem_flatten.1 hm
      rw [List.eq_of_mem_replicate hl] at hm
      rcases List.mem_append.1 hm with h | h
      · have h := List.mem_filter.1 h
        have := List.mem_range.1 h.1
        exact ⟨h.2, by omega⟩
      · split at h
        · have : x.1 = 11 := by simpa using h
          rw [this]
          exact ⟨by assumption, by decide⟩
        · cases h
    have hp : printed L = .ub := by
      unfold printed
      apply printLines_dead
      refine ⟨⟨x.1, xs.length⟩, ?_, ?_⟩
      · rw [List.mem_flatMap]
        refine ⟨x.1, List.mem_range.2 hsel.2, ?_⟩
        rw [hs _ hsel.2, hsel.1, if_pos rfl, List.mem_filter, ← hi.2]
        exact ⟨heldFrom_last_mem xs x, by simp⟩
      · rw [← hi.1]
        dsimp only
        rw [List.getElem?_append_right (by simp)]
        simp
    cases args with
    | nil => exact absurd rfl ha
    | cons a r =>
      unfold nativedump
      dsimp only
      rw [hw]
      dsimp only
      rw [hL, Outcome.ok_bind, hp]
      rfl

/-- A file cut in its text header aborts both programs. -/
theorem C100_violated_truncated (w : World) (file : Bytes) (hw : w.input = some file) (hl : file.length < 5114)
    (path channel format scale : Bytes) (hp : path ≠ str "-V") :
    native2Image w [path, channel, format, scale] = ⟨.terminate, none⟩ ∧ nativedump w [path] = .terminate := by
  have h : readNative file = .terminate := by
    unfold readNative readNativeHeader readN
    rw [if_neg (show ¬ mphLen ≤ file.length by unfold mphLen; omega)]
    rfl
  constructor
  · unfold native2Image
    dsimp only
    rw [if_neg hp]
    rw [hw]
    dsimp only
    rw [h]
    rfl
  · unfold nativedump
    dsimp only
    rw [hw]
    dsimp only
    rw [h]
    rfl

/-- The name of the image depends on the format alone (every file, of any satellite, and every channel goes to the same name), and the scale
has no effect on the image. -/
theorem C100_violated_name (w w' : World) (path path' channel channel' format scale scale' : Bytes) (name name' : Bytes) (p p' : Picture)
    (h : (native2Image w [path, channel, format, scale]).file = some (name, p))
    (h' : (native2Image w' [path', channel', format, scale']).file = some (name', p')) :
    name = name' ∧ (native2Image w [path, channel, format, scale']).file = some (name, p) := by
  have key : ∀ (w : World) (path channel format scale name : Bytes) (p : Picture),
      (native2Image w [path, channel, format, scale]).file = some (name, p) → name = outName format := by
    intro w path channel format scale name p h
    unfold native2Image at h
    dsimp only at h
    split at h
    · cases h
    · split at h
      · cases h
      · split at h
        · split at h
          · simp only [Option.some.injEq, Prod.mk.injEq] at h
            exact h.1.symm
          · cases h
        all_goals cases h
  exact ⟨(key _ _ _ _ _ _ _ h).trans (key _ _ _ _ _ _ _ h').symm, h⟩

/-- A text header that does not have a letter for each of the channels, or has more than fifteen letters, makes reading undefined: the
array of letters is not filled, or overflows. -/
theorem C100_violated_letters (file : Bytes) (mph : List Bytes) (pk l15 rest : Bytes)
    (hh : readNativeHeader file = .ok ((mph, pk, l15), rest)) (pos : Nat) (hp : Locates (mph.getD 10 []) pos)
    (ht : ∃ x, readNativeTrailer (file.drop pos) = .ok x) (word : Bytes) (he : Entry (mph.getD 39 []) word) (hb : ∀ c ∈ word, ¬ Blank c)
    (hne : word ≠ []) (hl : word.length < 11 ∨ 16 ≤ word.length) : readNative file = .ub := by
  obtain ⟨x, hx⟩ := ht
  unfold readNative
  rw [hh, Outcome.ok_bind]
  dsimp only
  rw [locates_address hp, seek_nat, hx, Outcome.ok_bind]
  unfold bandsel
  rw [entry_word he hne hb]
  dsimp only
  rcases hl with hl | hl
  · rw [if_pos (by omega), Outcome.ok_bind]
    have key : ∀ (w : List (Option UInt8)), none ∈ w → selection w = .ub := by
      intro w hm
      induction w with
      | nil => cases hm
      | cons c cs ih =>
        cases c with
        | none => rfl
        | some c =>
          rw [selection, ih (by simpa using hm)]
          rfl
    rw [key, Outcome.ub_bind]
    rw [List.append_assoc, List.take_append, List.mem_append, List.length_map]
    right
    obtain ⟨k, hk⟩ : ∃ k, 12 - word.length = k + 2 := ⟨10 - word.length, by omega⟩
    obtain ⟨j, hj⟩ : ∃ j, 15 - word.length = j + 1 := ⟨14 - word.length, by omega⟩
    rw [hk, hj, List.replicate_succ]
    simp
  · rw [if_neg (by omega), Outcome.ub_bind]

/-- So does a text header without the number of lines. -/
theorem C100_violated_number (file : Bytes) (mph : List Bytes) (pk l15 rest : Bytes)
    (hh : readNativeHeader file = .ok ((mph, pk, l15), rest)) (pos : Nat) (hp : Locates (mph.getD 10 []) pos)
    (ht : ∃ x, readNativeTrailer (file.drop pos) = .ok x) (selected : Nat → Bool) (hs : Lists (mph.getD 39 []) selected) 
    (hn : (58 : UInt8) ∉ mph.getD 44 []) : readNative file = .ub := by
  obtain ⟨x, hx⟩ := ht
  obtain ⟨cells, sel, hcells, hsel, _⟩ := lists_selection hs
  have h44 : entryLong (mph.getD 44 []) = none := by
    unfold entryLong afterKey
    dsimp only
    split
    · rfl
    · split
      · rfl
      · rename_i c r e
        have hm : c ∈ mph.getD 44 [] := by
          have h1 : c ∈ List.dropWhile isSpace (List.drop (List.takeWhile (fun c => !isSpace c) (List.dropWhile isSpace (mph.getD 44 []))).length
            (List.dropWhile isSpace (mph.getD 44 []))) := by rw [e]; simp
          exact (List.dropWhile_sublist _).mem (List.mem_of_mem_drop ((List.dropWhile_sublist _).mem h1))
        rw [if_neg (fun h => hn (by rw [← h]; exact hm))]
        rfl
  unfold readNative
  rw [hh, Outcome.ok_bind]
  dsimp only
  rw [locates_address hp, seek_nat, hx, Outcome.ok_bind, hcells, Outcome.ok_bind, hsel, Outcome.ok_bind, h44]
  rfl

/-! ### A file -/

/-- A text header: two channels of one line of four columns. -/
def text100 : Bytes :=
  textHeader (List.replicate 6 (str "FormatName : NATIVE"))
    [(str "u-marf : 0 ", str "0"), (str "u-marf : 0 ", str "0"), (str "15HEADER : 445286 ", str "5114"),
      (str "15DATA : 140 ", str "450400"), (str "15TRAILER : 380363 ", str "450540")]
    (List.replicate 1364 0)
    (List.replicate 28 (str "x : y") ++ [str "SelectedBandIDs : --------XX--\n", str "SouthLineSelectedRectangle : 1\n",
      str "NorthLineSelectedRectangle : 1\n", str "EastColumnSelectedRectangle : 1\n", str "WestColumnSelectedRectangle : 4\n",
      str "NumberLinesVISIR : 1\n", str "NumberColumnsVISIR : 4\n", str "NumberLinesHRV : 0\n", str "NumberColumnsHRV : 0\n"])

theorem entry100 (key value tail : String) (hk : str key ≠ []) (hk' : ∀ c ∈ str key, ¬ Blank c)
    (ht : ∀ c, (str tail).head? = some c → Blank c) : Entry (str key ++ str " : " ++ str value ++ str tail) (str value) := by
  refine ⟨str key, [32], [32], str tail, ?_, hk, hk', by decide, by decide, by decide, ht⟩
  rw [show str " : " = [32, 58, 32] by decide +kernel]
  simp

instance (c : UInt8) : Decidable (Blank c) := by unfold Blank; infer_instance

theorem says100 (text : Bytes) (key : String) (n : Nat) (h : text = str key ++ str " : " ++ digits 1 n ++ [10]) (hn : n < 10) (hk : str key ≠ [])
    (hk' : ∀ c ∈ str key, ¬ Blank c) : Says text n := by
  refine ⟨digits 1 n, ⟨str key, [32], [32], [10], ?_, hk, hk', by decide, by decide, by decide, by decide⟩, 1, by decide, hn, rfl⟩
  rw [h, show str " : " = [32, 58, 32] by decide +kernel]
  simp

theorem locates100 (text : Bytes) (key : String) (k size pos : Nat) (h : text = str key ++ str " : " ++ digits k size ++ [32] ++ digits 6 pos)
    (hk1 : 1 ≤ k ∧ size < 10 ^ k) (hn : pos < 10 ^ 6) (hk : str key ≠ []) (hk' : ∀ c ∈ str key, ¬ Blank c) : Locates text pos := by
  refine ⟨digits k size, [32], digits 6 pos, size, ⟨str key, [32], [32], [], ?_, hk, hk', by decide, by decide, by decide, by simp⟩,
    ⟨k, hk1.1, hk1.2, rfl⟩, by decide, by decide, 6, by decide, hn, rfl⟩
  rw [h, show str " : " = [32, 58, 32] by decide +kernel]
  simp

theorem describes100 : Describes text100 (fun c => c = 8 ∨ c = 9) 1 4 0 0 450400 450540 := by
  refine ⟨_, _, _, _, rfl, ?_, ?_, ?_, ?_, ?_, ?_, ?_, ⟨_, rfl, ?_⟩, ⟨_, rfl, ?_⟩, ⟨_, rfl, ?_⟩, ⟨_, 1, rfl, ?_⟩, ⟨_, 1, rfl, ?_⟩, ⟨_, 1, rfl, ?_⟩,
    ⟨_, rfl, ?_⟩, ⟨_, rfl, ?_⟩, ⟨_, rfl, ?_⟩, ⟨_, rfl, ?_⟩⟩
  · decide +kernel
  · decide +kernel
  · exact List.length_replicate
  · decide +kernel
  · unfold Fits; decide +kernel
  · unfold Fits; decide +kernel
  · unfold Fits; decide +kernel
  · exact locates100 _ "15DATA" 3 140 450400 (by decide +kernel) (by decide) (by decide) (by decide +kernel) (by decide +kernel)
  · exact locates100 _ "15TRAILER" 6 380363 450540 (by decide +kernel) (by decide) (by decide) (by decide +kernel) (by decide +kernel)
  · refine ⟨str "--------XX--", ?_, by decide +kernel, by decide +kernel, by decide +kernel⟩
    have := entry100 "SelectedBandIDs" "--------XX--" "\n" (by decide +kernel) (by decide +kernel) (by decide +kernel)
    rwa [show str "SelectedBandIDs" ++ str " : " ++ str "--------XX--" ++ str "\n" = str "SelectedBandIDs : --------XX--\n" by decide +kernel]
      at this
  · exact says100 _ "SouthLineSelectedRectangle" 1 (by decide +kernel) (by decide) (by decide +kernel) (by decide +kernel)
  · exact says100 _ "NorthLineSelectedRectangle" 1 (by decide +kernel) (by decide) (by decide +kernel) (by decide +kernel)
  · exact says100 _ "EastColumnSelectedRectangle" 1 (by decide +kernel) (by decide) (by decide +kernel) (by decide +kernel)
  · exact says100 _ "NumberLinesVISIR" 1 (by decide +kernel) (by decide) (by decide +kernel) (by decide +kernel)
  · exact says100 _ "NumberColumnsVISIR" 4 (by decide +kernel) (by decide) (by decide +kernel) (by decide +kernel)
  · exact says100 _ "NumberLinesHRV" 0 (by decide +kernel) (by decide) (by decide +kernel) (by decide +kernel)
  · exact says100 _ "NumberColumnsHRV" 0 (by decide +kernel) (by decide) (by decide +kernel) (by decide +kernel)

/-- A packet header. -/
def packet100 (n : Nat) : Bytes := List.replicate 18 0 ++ Spec.encBE 4 (n + 15) ++ List.replicate 16 0

/-- A complete file, whatever the contents of the level 1.5 header and of the trailer. -/
theorem file100 (l15 t15 : Bytes) (hl : l15.length = 445248) (ht : t15.length = 380325) :
    NativeFile (text100 ++ packet100 445248 ++ l15 ++ (twoLines.flatMap (·.2.1) ++ (packet100 380325 ++ t15))) (fun c => c = 8 ∨ c = 9) 1 4 0 0
      twoLines := by
  have h5114 : text100.length = 5114 := (described describes100).1
  have h38 : (packet100 445248).length = 38 := by decide +kernel
  have h140 : (twoLines.flatMap (·.2.1)).length = 140 := by decide +kernel
  refine ⟨⟨text100, packet100 445248, l15, _, 450400, 450540, rfl, describes100, ?_, hl, ⟨packet100 380325, t15, [], ?_, ?_, ht⟩,
    packet100 380325 ++ t15, ?_⟩, by decide +kernel, ?_, by decide⟩
  · rw [hl]
    unfold Announces
    decide +kernel
  · rw [← List.append_assoc, List.append_nil, List.drop_left' (by simp only [List.length_append, h5114, h38, hl, h140])]
  · rw [ht]
    unfold Announces
    decide +kernel
  · rw [List.drop_left' (by simp only [List.length_append, h5114, h38, hl])]
  · intro x hx
    refine ⟨x.2.1.take 38, (x.2.1.drop 38).take 27, ?_⟩
    simp only [twoLines, List.mem_cons, List.not_mem_nil, or_false] at hx
    unfold Announces
    rcases hx with rfl | rfl <;> decide +kernel

example : ∃ file, NativeFile file (fun c => c = 8 ∨ c = 9) 1 4 0 0 twoLines :=
  ⟨_, file100 (List.replicate 445248 0) (List.replicate 380325 0) List.length_replicate List.length_replicate⟩

/-- Channel 8 of such a file can be exported, channel 9 cannot. -/
example : twoLines = [twoLines[0]] ++ [twoLines[1]] ∧ twoLines[1].1 = 9 ∧
    ∀ x ∈ [twoLines[0]], x.1 = 8 → x.2.2.length * 8 = 4 * 10 ∧ x.2.2.length % 5 = 0 := by decide +kernel

example : Number (str "8") 8 := ⟨1, by decide, by decide, by decide +kernel⟩

/-- Discrepancy: a channel that is no number is not refused: it is taken for channel 0. -/
theorem C100_violated_text (w : World) (path channel format scale : Bytes) (x : UInt8) (t : Bytes) (hc : channel = x :: t)
    (hx : isDigit x = false ∧ isSpace x = false ∧ x ≠ 45 ∧ x ≠ 43) :
    native2Image w [path, channel, format, scale] = native2Image w [path, str "0", format, scale] := by
  have e : atoi channel = atoi (str "0") := by
    rw [show atoi (str "0") = 0 from rfl, hc]
    unfold atoi scanSigned Text.within
    rw [List.dropWhile_cons_of_neg (by rw [hx.2.1]; decide)]
    dsimp only
    rw [if_neg hx.2.2.1, if_neg hx.2.2.2, List.takeWhile_cons_of_neg (by rw [hx.1]; decide), if_pos rfl]
  unfold native2Image
  dsimp only
  rw [e]

example (w : World) : native2Image w [str "file", str "HRV", str "png", str "1"] = native2Image w [str "file", str "0", str "png", str "1"] :=
  C100_violated_text w _ _ _ _ 72 (str "RV") rfl (by decide)

end Msat.Props
