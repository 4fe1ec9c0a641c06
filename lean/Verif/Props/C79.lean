import Mathlib.Data.List.TakeWhile
import Verif.Model.MsatTool
import Verif.Spec.MsatTool
import Verif.Lemmas.Outcome

/-
C79: the bands that --band selects.
-/
namespace Msat.Props
open Msat Msat.MsatTool Msat.ToolSpec Msat.Geo

/-! ### Numbers -/

theorem isDigit_iff (c : Char) : isDigit c = true ↔ '0' ≤ c ∧ c ≤ '9' := by
  unfold isDigit
  rw [Bool.and_eq_true, decide_eq_true_eq, decide_eq_true_eq]

theorem digits_from (s : List Char) : ∀ n, s.foldl (fun n c => 10 * n + (c.toNat - 48)) n = n * 10 ^ s.length + decimal s := by
  induction s with
  | nil => intro n; simp [decimal]
  | cons c s ih =>
    intro n
    rw [List.foldl_cons, ih]
    rw [decimal, List.length_cons, Nat.pow_succ, Nat.add_mul, show ('0'.toNat) = 48 from rfl, Nat.mul_comm 10 n, Nat.mul_assoc, Nat.mul_comm 10]
    omega

theorem digits_decimal (s : List Char) : digits s = decimal s := by
  unfold digits
  rw [digits_from, Nat.zero_mul, Nat.zero_add]

theorem digit_plain (c : Char) (h : '0' ≤ c ∧ c ≤ '9') : isSpace c = false ∧ c ≠ '-' ∧ c ≠ '+' := by
  refine ⟨?_, ?_, ?_⟩
  · cases hs : isSpace c with
    | false => rfl
    | true =>
      exfalso
      unfold isSpace at hs
      simp only [Bool.or_eq_true, decide_eq_true_eq] at hs
      rcases hs with ((((rfl | rfl) | rfl) | rfl) | rfl) | rfl <;> exact absurd h (by decide)
  · rintro rfl; exact absurd h (by decide)
  · rintro rfl; exact absurd h (by decide)

theorem sign_plain (c : Char) (t : List Char) (h1 : c ≠ '-') (h2 : c ≠ '+') : sign (c :: t) = (false, c :: t) := by
  unfold sign
  split
  · rename_i e; injection e with e _; exact absurd e h1
  · rename_i e; injection e with e _; exact absurd e h2
  · rfl

/-- A text that does not start with a space or a sign. -/
def Plain (s : List Char) : Prop := ∀ c t, s = c :: t → isSpace c = false ∧ c ≠ '-' ∧ c ≠ '+'

theorem strtoul_plain (s : List Char) (h : Plain s) : strtoul s =
    if s.takeWhile isDigit = [] then (0, s)
    else (if 2 ^ 64 ≤ decimal (s.takeWhile isDigit) then 2 ^ 64 - 1 else decimal (s.takeWhile isDigit), s.dropWhile isDigit) := by
  have hw : s.dropWhile isSpace = s := by
    cases s with
    | nil => rfl
    | cons c t => rw [List.dropWhile_cons, (h c t rfl).1]; rfl
  have hs : sign s = (false, s) := by
    cases s with
    | nil => rfl
    | cons c t => exact sign_plain c t (h c t rfl).2.1 (h c t rfl).2.2
  unfold strtoul
  rw [hw, hs]
  dsimp only
  rw [digits_decimal]
  rfl

theorem number_digits (s : List Char) (h : IsNumber s) : s.takeWhile isDigit = s ∧ s.dropWhile isDigit = [] := by
  have hall : ∀ c ∈ s, isDigit c = true := fun c hc => (isDigit_iff c).mpr (h.2 c hc)
  constructor
  · exact List.takeWhile_eq_self_iff.mpr hall
  · exact List.dropWhile_eq_nil_iff.mpr hall

theorem number_plain (s : List Char) (h : IsNumber s) : Plain s := by
  intro c t e
  exact digit_plain c (h.2 c (e ▸ List.mem_cons_self))

/-- All of a plain text is a number for `strtoul` exactly when it is one. -/
theorem strtoul_end (s : List Char) (hp : Plain s) (hne : s ≠ []) : (strtoul s).2 = [] ↔ IsNumber s := by
  rw [strtoul_plain s hp]
  constructor
  · intro h
    split at h
    · exact absurd h hne
    · refine ⟨hne, fun c hc => (isDigit_iff c).mp ?_⟩
      exact List.dropWhile_eq_nil_iff.mp h c hc
  · intro h
    rw [if_neg (by rw [(number_digits s h).1]; exact hne)]
    exact (number_digits s h).2

theorem strtoul_number (s : List Char) (h : IsNumber s) (hlt : decimal s < 2 ^ 64) : (strtoul s).1 = decimal s := by
  rw [strtoul_plain s (number_plain s h), if_neg (by rw [(number_digits s h).1]; exact h.1), (number_digits s h).1]
  dsimp only
  rw [if_neg (Nat.not_le.mpr hlt)]

theorem toInt32_small (n : Nat) (h : n < 2 ^ 31) : toInt32 n = n := by
  unfold toInt32
  rw [Int.bmod_def]
  omega

theorem toInt32_wrap (k : Nat) (h : k < 2 ^ 31) : toInt32 (4294967296 + k) = k := by
  rw [← toInt32_small k h]
  unfold toInt32
  rw [show ((4294967296 + k : Nat) : Int) = (k : Int) + ((2 ^ 32 : Nat) : Int) by push_cast; omega, Int.add_bmod_right]

/-! ### Bands -/

/-- Arguments of --band that are understood: no space or sign in front, and numbers that fit. -/
def Understood (arg : List Char) : Prop := Plain arg ∧ (IsNumber arg → decimal arg < 2 ^ 31)

theorem bandOf_wanted (names : List (List Char)) (arg : List Char) (h : Understood arg) :
    bandOf names arg = (wanted names arg).map fun (k : Nat) => (k : Int) := by
  unfold bandOf wanted
  by_cases hne : arg = []
  · rw [if_pos hne, if_pos hne]; rfl
  rw [if_neg hne, if_neg hne]
  by_cases hn : IsNumber arg
  · have := h.2 hn
    rw [if_pos ((strtoul_end arg h.1 hne).mpr hn), if_pos hn, strtoul_number arg hn (by omega), toInt32_small _ this]
    rfl
  · rw [if_neg (fun e => hn ((strtoul_end arg h.1 hne).mp e)), if_neg hn]
    have hname : bareName arg = if arg.head? = some '!' then arg.tail else arg := by
      unfold bareName
      split
      · simp
      · rename_i hno
        rw [if_neg]
        intro e
        cases arg with
        | nil => cases e
        | cons c t =>
          simp only [List.head?_cons, Option.some.injEq] at e
          exact hno t (by rw [e])
    rw [hname]
    dsimp only
    unfold rbindexByName
    cases names.findIdx? (· = if arg.head? = some '!' then arg.tail else arg) with
    | none => rfl
    | some i => simp

theorem bands_selection (names : List (List Char)) (sel : List (List Char)) (h : ∀ a ∈ sel, Understood a) :
    sel.filterMap (bandOf names) = (selection names sel).map fun (k : Nat) => (k : Int) := by
  unfold selection
  rw [List.map_filterMap]
  apply List.filterMap_congr
  intro a ha
  exact bandOf_wanted names a (h a ha)

theorem bandList_ok (t : Translate) (n : Nat) (hne : t.bands ≠ []) (hr : ∀ b ∈ t.bands, 1 ≤ b ∧ b ≤ (n : Int)) :
    bandList t n = some (t.bands, if t.bands.length = n then t.defBands else false) := by
  unfold bandList
  rw [if_neg hne, if_neg]
  intro h
  obtain ⟨b, hb, hx⟩ := List.any_eq_true.mp h
  have := hr b hb
  simp only [Bool.or_eq_true, decide_eq_true_eq] at hx
  omega

theorem bandList_bad (t : Translate) (n : Nat) (b : Int) (hb : b ∈ t.bands) (hr : ¬ (1 ≤ b ∧ b ≤ (n : Int))) : bandList t n = none := by
  unfold bandList
  rw [if_neg (List.ne_nil_of_mem hb), if_pos]
  refine List.any_eq_true.mpr ⟨b, hb, ?_⟩
  simp only [Bool.or_eq_true, decide_eq_true_eq]
  omega

/-! ### Windows -/

/-- A size that an image can have. -/
def Size (nx ny : Int) : Prop := 0 < nx ∧ nx ≤ 2147483647 ∧ 0 < ny ∧ ny ≤ 2147483647

theorem verify_whole (nx ny : Int) (h : Size nx ny) : verifyWin ⟨0, 0, nx, ny⟩ nx ny = .ok (some ⟨0, 0, nx, ny⟩) := by
  obtain ⟨h1, h2, h3, h4⟩ := h
  unfold verifyWin
  dsimp only
  rw [if_neg (by omega)]
  have hb : ∀ n : Int, 0 < n → n ≤ 2147483647 → beyond 0 n n = .ok false := by
    intro n p1 p2
    have hi : isInt (0 + n) = true := by
      unfold isInt
      rw [Bool.and_eq_true, decide_eq_true_eq, decide_eq_true_eq]
      omega
    unfold beyond addInt
    rw [if_pos hi, Outcome.ok_bind]
    show Outcome.ok (decide (n < 0 + n)) = _
    rw [decide_eq_false (by omega)]
  rw [hb nx h1 h2, Outcome.ok_bind, hb ny h3 h4]
  rfl

/-- The window of a program that was not asked for one: none yet, or that of images of the same size. -/
def Whole (nx ny : Int) (w : Win) : Prop := w = ⟨0, 0, 0, 0⟩ ∨ w = ⟨0, 0, nx, ny⟩

theorem default_whole (nx ny : Int) (h : Size nx ny) (w : Win) (hw : Whole nx ny w) : defaultWin w nx ny = ⟨0, 0, nx, ny⟩ := by
  obtain ⟨h1, h2, h3, h4⟩ := h
  unfold defaultWin
  rcases hw with rfl | rfl
  · rw [if_pos ⟨rfl, rfl⟩]
  · rw [if_neg]
    rintro ⟨e, -⟩
    dsimp only at e
    omega

/-- What `translate` gives without window and size, when the bands are there. -/
theorem translate_bands (t : Translate) (img : Image) (h : Size img.nx img.ny) (hw : Whole img.nx img.ny t.win) (hs : t.size = none)
    (bands : List Int) (d : Bool) (hb : bandList t img.names.length = some (bands, d)) (hd : d = true → bands = allBands img.names.length) :
    translate t img = .ok (⟨bands, d, ⟨0, 0, img.nx, img.ny⟩, none⟩, some ⟨bands, ⟨0, 0, img.nx, img.ny⟩, img.nx, img.ny⟩) := by
  unfold translate
  rw [hb, default_whole _ _ h _ hw]
  dsimp only
  rw [verify_whole _ _ h, Outcome.ok_bind]
  dsimp only
  rw [hs]
  cases d with
  | true =>
    rw [if_pos ⟨rfl, rfl, rfl⟩, ← hd rfl]
    rfl
  | false =>
    rw [if_neg (by simp)]
    rfl

theorem no_scale (sx sy : Nat) : scaleIfNeeded 0 0 sx sy = none := by
  unfold scaleIfNeeded
  simp

/-! ### The property -/

/-- With --band, every image is given the bands that were asked for and that it has, in that order, and is skipped if it has none of them.
Missing for C79: arguments with spaces and signs in front and numbers that do not fit in `int` (see `C79_violated_wrap`), numbers
of bands that are not there (see `C79_violated_range`), images of different sizes (see `C53_violated_different_sizes`). -/
theorem C79_selected_partial (nx ny : Int) (hn : Size nx ny) (sel : List (List Char)) (hsel : sel ≠ []) (hu : ∀ a ∈ sel, Understood a)
    (imgs : List Image) (himgs : ∀ img ∈ imgs, img.nx = nx ∧ img.ny = ny)
    (hr : ∀ img ∈ imgs, ∀ k ∈ selection img.names sel, 1 ≤ k ∧ k ≤ img.names.length) :
    run 0 0 sel (start ⟨0, 0, 0, 0⟩ none) imgs = .ok (imgs.map fun img =>
      if selection img.names sel = [] then none
      else some ⟨(selection img.names sel).map fun (k : Nat) => (k : Int), ⟨0, 0, nx, ny⟩, nx, ny⟩) := by
  have key : ∀ (t : Translate), Whole nx ny t.win → t.size = none →
      run 0 0 sel t imgs = .ok (imgs.map fun img =>
      if selection img.names sel = [] then none
      else some ⟨(selection img.names sel).map fun (k : Nat) => (k : Int), ⟨0, 0, nx, ny⟩, nx, ny⟩) := by
    induction imgs with
    | nil => intro t _ _; rfl
    | cons img rest ih =>
      intro t hw hs
      have ih := ih (fun i hi => himgs i (List.mem_cons_of_mem _ hi)) (fun i hi => hr i (List.mem_cons_of_mem _ hi))
      obtain ⟨ex, ey⟩ := himgs img List.mem_cons_self
      have hr0 := hr img List.mem_cons_self
      unfold run
      rw [bands_selection _ _ hu]
      dsimp only
      by_cases he : selection img.names sel = []
      · rw [if_pos ⟨hsel, by rw [he]; rfl⟩, ih t hw hs, Outcome.ok_bind, List.map_cons, if_pos he]
        rfl
      · have hne : (selection img.names sel).map (fun (k : Nat) => (k : Int)) ≠ [] := by
          intro e; exact he (List.map_eq_nil_iff.mp e)
        rw [if_neg (fun c => hne c.2), no_scale]
        dsimp only
        rw [if_pos hsel]
        generalize hT : ({ t with
            bands := (selection img.names sel).map (fun (k : Nat) => (k : Int)),
            defBands := isDefault ((selection img.names sel).map (fun (k : Nat) => (k : Int))) img.names.length } : Translate) = T
        have hTb : T.bands = (selection img.names sel).map (fun (k : Nat) => (k : Int)) := by rw [← hT]
        have hTd : T.defBands = isDefault ((selection img.names sel).map (fun (k : Nat) => (k : Int))) img.names.length := by rw [← hT]
        have hTw : T.win = t.win := by rw [← hT]
        have hTs : T.size = t.size := by rw [← hT]
        have hb := bandList_ok T img.names.length (by rw [hTb]; exact hne) (by
            rw [hTb]
            intro b hb
            obtain ⟨k, hk, rfl⟩ := List.mem_map.mp hb
            have := hr0 k hk
            omega)
        rw [hTb, hTd] at hb
        rw [translate_bands T img (by rw [ex, ey]; exact hn) (by rw [ex, ey, hTw]; exact hw) (hTs.trans hs) _ _ hb (by
            intro hd
            split at hd
            · rename_i hlen
              unfold isDefault at hd
              rw [Bool.and_eq_true, decide_eq_true_eq, decide_eq_true_eq] at hd
              rw [hd.1] at hd
              exact hd.2
            · cases hd), Outcome.ok_bind]
        dsimp only
        rw [ih _ (.inr (by rw [ex, ey])) rfl, Outcome.ok_bind, List.map_cons, if_neg he, ex, ey]
        rfl
  exact key _ (.inl rfl) rfl

/-- Band 2 and the band called IR_108, in two images; the second has only the former. -/
example : run 0 0 ["2".toList, "IR_108".toList] (start ⟨0, 0, 0, 0⟩ none)
    [⟨10, 10, ["IR_108".toList, "HRV".toList]⟩, ⟨10, 10, ["VIS006".toList, "VIS008".toList]⟩] =
    .ok [some ⟨[2, 1], ⟨0, 0, 10, 10⟩, 10, 10⟩, some ⟨[2], ⟨0, 0, 10, 10⟩, 10, 10⟩] := by
  rw [C79_selected_partial 10 10 (by unfold Size; omega) _ (by simp) (by
    intro a ha
    simp only [List.mem_cons, List.not_mem_nil, or_false] at ha
    rcases ha with rfl | rfl
    · exact ⟨number_plain _ (by decide), fun _ => by decide⟩
    · refine ⟨?_, fun h => absurd h (by decide)⟩
      intro c t e
      have : c = 'I' := by
        have := congrArg List.head? e
        simpa using this.symm
      subst this
      decide) _ (by decide) (by decide)]
  decide

/-- Without --band every image is given all its bands, if all the images have the same number of them.  Missing for C79: images with
different numbers of bands (see `C79_violated_carry`). -/
theorem C79_all_partial (nx ny : Int) (hn : Size nx ny) (n : Nat) (hpos : 0 < n) (imgs : List Image)
    (himgs : ∀ img ∈ imgs, img.nx = nx ∧ img.ny = ny ∧ img.names.length = n) :
    run 0 0 [] (start ⟨0, 0, 0, 0⟩ none) imgs = .ok (imgs.map fun _ => some ⟨(List.range' 1 n).map fun (k : Nat) => (k : Int), ⟨0, 0, nx, ny⟩, nx, ny⟩) := by
  have hall : (List.range' 1 n).map (fun (k : Nat) => (k : Int)) = allBands n := by
    unfold allBands
    rw [List.range_eq_range', List.range'_succ_left, List.map_map]
    apply List.map_congr_left
    intro a _
    simp
  have hlen : (allBands n).length = n := by unfold allBands; rw [List.length_map, List.length_range]
  have key : ∀ (t : Translate), Whole nx ny t.win → t.size = none → t.defBands = true → (t.bands = [] ∨ t.bands = allBands n) →
      run 0 0 [] t imgs = .ok (imgs.map fun _ => some ⟨allBands n, ⟨0, 0, nx, ny⟩, nx, ny⟩) := by
    induction imgs with
    | nil => intro t _ _ _ _; rfl
    | cons img rest ih =>
      intro t hw hs hd hbs
      have ih := ih (fun i hi => himgs i (List.mem_cons_of_mem _ hi))
      obtain ⟨ex, ey, en⟩ := himgs img List.mem_cons_self
      have hb : bandList t img.names.length = some (allBands n, true) := by
        rw [en]
        rcases hbs with h | h
        · unfold bandList
          rw [if_pos h, if_neg (by omega), hd]
        · have := bandList_ok t n (by
            rw [h]; intro e; have := congrArg List.length e; rw [hlen] at this; simp at this; omega) (by
            rw [h]
            intro b hb
            unfold allBands at hb
            obtain ⟨k, hk, rfl⟩ := List.mem_map.mp hb
            have := List.mem_range.mp hk
            omega)
          rw [this, h, if_pos hlen, hd]
      unfold run
      rw [if_neg (by simp), no_scale]
      dsimp only
      rw [if_neg (by simp), translate_bands t img (by rw [ex, ey]; exact hn) (by rw [ex, ey]; exact hw) hs _ _ hb (fun _ => by rw [en]), Outcome.ok_bind]
      dsimp only
      rw [ih _ (.inr (by rw [ex, ey])) rfl rfl (.inr rfl), Outcome.ok_bind, List.map_cons, ex, ey]
      rfl
  rw [hall]
  exact key _ (.inl rfl) rfl rfl (.inl rfl)

example : Size 3712 3712 ∧ ∀ img ∈ [(⟨3712, 3712, [[]]⟩ : Image), ⟨3712, 3712, ["a".toList]⟩],
    img.nx = 3712 ∧ img.ny = 3712 ∧ img.names.length = 1 := ⟨by unfold Size; omega, by decide⟩

/-! ### What goes wrong -/

/-- A band that is not there is not refused: the image that could not be made is used, through a null pointer. -/
theorem C79_violated_range (maxx maxy : Nat) (sel : List (List Char)) (t : Translate) (img : Image) (rest : List Image) (arg : List Char)
    (ha : arg ∈ sel) (hn : IsNumber arg) (hfit : decimal arg < 2 ^ 31) (hr : decimal arg = 0 ∨ img.names.length < decimal arg) :
    run maxx maxy sel t (img :: rest) = .ub := by
  have hb : (decimal arg : Int) ∈ sel.filterMap (bandOf img.names) := by
    refine List.mem_filterMap.mpr ⟨arg, ha, ?_⟩
    rw [bandOf_wanted _ _ ⟨number_plain _ hn, fun _ => hfit⟩]
    unfold wanted
    rw [if_neg hn.1, if_pos hn]
    rfl
  unfold run
  dsimp only
  rw [if_neg (fun c => List.ne_nil_of_mem hb c.2)]
  have hsel : sel ≠ [] := List.ne_nil_of_mem ha
  have hbad : ∀ s : Option (OutSize × OutSize), bandList { t with
      bands := sel.filterMap (bandOf img.names), defBands := isDefault (sel.filterMap (bandOf img.names)) img.names.length, size := s }
      img.names.length = none := fun s => bandList_bad _ _ _ hb (by omega)
  have htr : ∀ s : Option (OutSize × OutSize), ∃ t', translate { t with
      bands := sel.filterMap (bandOf img.names), defBands := isDefault (sel.filterMap (bandOf img.names)) img.names.length, size := s } img =
      .ok (t', none) := by
    intro s
    unfold translate
    rw [hbad s]
    exact ⟨_, rfl⟩
  simp only [if_pos hsel]
  cases scaleIfNeeded maxx maxy img.nx.toNat img.ny.toNat with
  | none =>
    obtain ⟨t', h⟩ := htr t.size
    dsimp only
    rw [h]
    rfl
  | some p =>
    obtain ⟨t', h⟩ := htr (some (.pixels p.1, .pixels p.2))
    dsimp only
    rw [h]
    rfl

/-- Band 13 of an image with one band. -/
example : run 0 0 ["13".toList] (start ⟨0, 0, 0, 0⟩ none) [⟨3712, 3712, ["HRV".toList]⟩] = .ub :=
  C79_violated_range 0 0 _ _ _ _ "13".toList (by simp) (by decide) (by decide) (.inr (by decide))

/-- Numbers are taken modulo 2^32: 4294967296 + k selects band k instead of being refused. -/
theorem C79_violated_wrap (names : List (List Char)) (arg : List Char) (hn : IsNumber arg) (k : Nat) (hk : k < 2 ^ 31)
    (h : decimal arg = 4294967296 + k) : bandOf names arg = some (k : Int) ∧ wanted names arg = some (4294967296 + k) := by
  constructor
  · unfold bandOf
    rw [if_neg hn.1, if_pos ((strtoul_end arg (number_plain arg hn) hn.1).mpr hn), strtoul_number arg hn (by omega), h, toInt32_wrap k hk]
  · unfold wanted
    rw [if_neg hn.1, if_pos hn, h]

example : IsNumber "4294967297".toList ∧ decimal "4294967297".toList = 4294967296 + 1 := by decide

/-- Without --band, an image with more bands than the first one loses those after; and one with less makes the program use a null pointer. -/
theorem C79_violated_carry (nx ny : Int) (hn : Size nx ny) (a b : Image) (ha : a.nx = nx ∧ a.ny = ny) (hb : b.nx = nx ∧ b.ny = ny)
    (hpos : 0 < a.names.length) :
    (a.names.length < b.names.length → run 0 0 [] (start ⟨0, 0, 0, 0⟩ none) [a, b] =
      .ok [some ⟨allBands a.names.length, ⟨0, 0, nx, ny⟩, nx, ny⟩, some ⟨allBands a.names.length, ⟨0, 0, nx, ny⟩, nx, ny⟩]) ∧
    (b.names.length < a.names.length → run 0 0 [] (start ⟨0, 0, 0, 0⟩ none) [a, b] = .ub) := by
  obtain ⟨ax, ay⟩ := ha
  obtain ⟨bx, byy⟩ := hb
  have hlen : (allBands a.names.length).length = a.names.length := by unfold allBands; rw [List.length_map, List.length_range]
  have hne : allBands a.names.length ≠ [] := by
    intro e; have := congrArg List.length e; rw [hlen] at this; simp at this; simp [this] at hpos
  have hA : bandList (start ⟨0, 0, 0, 0⟩ none) a.names.length = some (allBands a.names.length, true) := by
    unfold bandList start
    rw [if_pos rfl, if_neg (by omega)]
  have tA := translate_bands (start ⟨0, 0, 0, 0⟩ none) a (by rw [ax, ay]; exact hn) (.inl rfl) rfl _ _ hA (fun _ => rfl)
  rw [ax, ay] at tA
  constructor
  · intro hlt
    have hB : bandList ⟨allBands a.names.length, true, ⟨0, 0, nx, ny⟩, none⟩ b.names.length = _ := bandList_ok _ _ hne (by
      intro x hx
      dsimp only at hx
      unfold allBands at hx
      obtain ⟨k, hk, rfl⟩ := List.mem_map.mp hx
      have := List.mem_range.mp hk
      omega)
    dsimp only at hB
    rw [hlen, if_neg (by omega)] at hB
    have tB := translate_bands ⟨allBands a.names.length, true, ⟨0, 0, nx, ny⟩, none⟩ b (by rw [bx, byy]; exact hn) (.inr (by rw [bx, byy])) rfl _ _ hB
      (fun h => by cases h)
    rw [bx, byy] at tB
    unfold run
    rw [if_neg (by simp), no_scale]
    dsimp only
    rw [if_neg (by simp), tA, Outcome.ok_bind]
    dsimp only
    unfold run
    rw [if_neg (by simp), no_scale]
    dsimp only
    rw [if_neg (by simp), tB, Outcome.ok_bind]
    rfl
  · intro hlt
    have hB : bandList ⟨allBands a.names.length, true, ⟨0, 0, nx, ny⟩, none⟩ b.names.length = none :=
      bandList_bad _ _ (a.names.length : Int) (by
        dsimp only
        unfold allBands
        exact List.mem_map.mpr ⟨a.names.length - 1, List.mem_range.mpr (by omega), by omega⟩) (by omega)
    unfold run
    rw [if_neg (by simp), no_scale]
    dsimp only
    rw [if_neg (by simp), tA, Outcome.ok_bind]
    dsimp only
    unfold run
    rw [if_neg (by simp), no_scale]
    dsimp only
    rw [if_neg (by simp)]
    have : ∃ t', translate ⟨allBands a.names.length, true, ⟨0, 0, nx, ny⟩, none⟩ b = .ok (t', none) := by
      unfold translate
      rw [hB]
      exact ⟨_, rfl⟩
    obtain ⟨t', h⟩ := this
    rw [h]
    rfl

/-- One band and then three, or three and then one. -/
example : ((⟨10, 10, [[]]⟩ : Image).names.length < (⟨10, 10, [[], [], []]⟩ : Image).names.length) ∧ Size 10 10 :=
  ⟨by decide, by unfold Size; omega⟩

end Msat.Props
