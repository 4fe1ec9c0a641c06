import Verif.Model.MsatCommandLine
import Verif.Spec.MsatCommandLine
import Verif.Lemmas.Text
import Verif.Props.C17_C20
import Verif.Props.C79
import Verif.Props.C53_C55
import Verif.Lemmas.Outcome
import Mathlib.Tactic.Ring
import Mathlib.Tactic.FieldSimp
import Mathlib.Tactic.Linarith
import Mathlib.Tactic.Common

/-
C103: the command line of msat.
-/
namespace Msat.Props
open Msat Text MsatCommandLine MsatCommandLineSpec

/-! ### Numbers -/

theorem digitChar_toNat (d : Digit) : (digitChar d).toNat = 48 + d.val := by
  have := d.isLt
  unfold digitChar
  rw [UInt8.toNat_ofNat']
  omega

theorem digitChar_isDigit (d : Digit) : isDigit (digitChar d) = true := by
  unfold digitChar
  revert d
  decide

theorem ofDigits_go (ds : List Digit) (a : Nat) :
    (ds.map digitChar).foldl (fun a c => 10 * a + (c.toNat - 48)) a = ds.foldl (fun a d => 10 * a + d.val) a := by
  induction ds generalizing a with
  | nil => rfl
  | cons d ds ih =>
    rw [List.map_cons, List.foldl_cons, List.foldl_cons, ih, digitChar_toNat]
    congr 1
    omega

theorem ofDigits_number (ds : List Digit) : ofDigits (ds.map digitChar) = number ds := ofDigits_go ds 0

theorem number_go (ds : List Digit) (a : Nat) :
    ds.foldl (fun a d => 10 * a + d.val) a = a * 10 ^ ds.length + ds.foldl (fun a d => 10 * a + d.val) 0 := by
  induction ds generalizing a with
  | nil => simp
  | cons d ds ih =>
    rw [List.foldl_cons, List.foldl_cons, ih, ih (10 * 0 + d.val), List.length_cons, pow_succ]
    ring

theorem number_append (a b : List Digit) : number (a ++ b) = number a * 10 ^ b.length + number b := by
  unfold number
  rw [List.foldl_append, number_go]

theorem takeDigits (ds : List Digit) (rest : Bytes) (h : rest.takeWhile isDigit = []) :
    (ds.map digitChar ++ rest).takeWhile isDigit = ds.map digitChar := by
  rw [List.takeWhile_append_of_pos, h, List.append_nil]
  intro c hc
  obtain ⟨d, -, rfl⟩ := List.mem_map.1 hc
  exact digitChar_isDigit d

theorem dropDigits (ds : List Digit) (rest : Bytes) (h : rest.takeWhile isDigit = []) :
    (ds.map digitChar ++ rest).dropWhile isDigit = rest := by
  rw [List.dropWhile_append_of_pos]
  · cases rest with
    | nil => rfl
    | cons c cs =>
      by_cases hc : isDigit c = true
      · rw [List.takeWhile_cons_of_pos hc] at h
        cases h
      · rw [List.dropWhile_cons_of_neg hc]
  · intro c hc
    obtain ⟨d, -, rfl⟩ := List.mem_map.1 hc
    exact digitChar_isDigit d

/-- A whole number is scanned up to its end. -/
theorem scan_whole (n : WholeNumber) (hn : n.digits ≠ []) (rest : Bytes) (h : rest.takeWhile isDigit = []) :
    scanSigned none (n.text ++ rest) = some (n.value, n.text.length) ∧ (n.text ++ rest).dropWhile isSpace = n.text ++ rest := by
  obtain ⟨m, ds⟩ := n
  obtain ⟨d, ds, rfl⟩ := List.exists_cons_of_ne_nil hn
  have e : (List.map digitChar (d :: ds)) ≠ [] := by simp
  cases m with
  | true =>
    constructor
    · unfold scanSigned within WholeNumber.text WholeNumber.value
      simp only [if_true, List.cons_append, List.nil_append]
      rw [takeDigits _ _ h, if_neg e, ofDigits_number]
      simp
    · rfl
  | false =>
    obtain ⟨n1, n2, n3⟩ := isDigit_not (digitChar_isDigit d)
    constructor
    · unfold scanSigned within WholeNumber.text WholeNumber.value
      simp only [Bool.false_eq_true, if_false, List.nil_append, List.map_cons, List.cons_append]
      rw [if_neg n1, if_neg n2]
      have t := takeDigits (d :: ds) rest h
      rw [List.map_cons, List.cons_append] at t
      rw [t, if_neg (by simp), ← List.map_cons (f := digitChar), ofDigits_number]
    · unfold WholeNumber.text
      simp only [Bool.false_eq_true, if_false, List.nil_append, List.map_cons, List.cons_append]
      rw [List.dropWhile_cons_of_neg (by rw [n3]; decide)]

theorem scanf_whole (fs : List Directive) (n : WholeNumber) (hn : n.digits ≠ []) (rest : Bytes) (h : rest.takeWhile isDigit = []) :
    scanf (.int none :: fs) (n.text ++ rest) = n.value :: scanf fs rest := by
  obtain ⟨h1, h2⟩ := scan_whole n hn rest h
  rw [scanf, h2, h1]
  dsimp only
  rw [List.drop_left]

theorem comma_head (rest : Bytes) : ([44] ++ rest).takeWhile isDigit = [] := by
  rw [List.singleton_append, List.takeWhile_cons_of_neg (by decide)]

/-- Four whole numbers with commas are scanned, whatever follows that is not a digit. -/
theorem scan_area (a b c d : WholeNumber) (ha : a.digits ≠ []) (hb : b.digits ≠ []) (hc : c.digits ≠ []) (hd : d.digits ≠ []) (rest : Bytes)
    (h : rest.takeWhile isDigit = []) :
    scanf areaFormat (commas a.text b.text c.text d.text ++ rest) = [a.value, b.value, c.value, d.value] := by
  unfold areaFormat commas
  simp only [List.append_assoc]
  rw [scanf_whole _ _ ha _ (comma_head _), scanf_lit, scanf_whole _ _ hb _ (comma_head _), scanf_lit,
    scanf_whole _ _ hc _ (comma_head _), scanf_lit, scanf_whole _ _ hd _ h, scanf]

/-- What ends a decimal number: a character that is not part of one. -/
def Ends (rest : Bytes) : Prop := rest.takeWhile isDigit = [] ∧ rest.head? ≠ some 46 ∧ rest.head? ≠ some 101 ∧ rest.head? ≠ some 69

theorem ends_comma (rest : Bytes) : Ends ([44] ++ rest) := ⟨comma_head rest, by simp, by simp, by simp⟩

theorem ends_nil : Ends [] := ⟨rfl, by simp, by simp, by simp⟩

theorem mantissa_value (w f : List Digit) :
    mantissa (w.map digitChar) (f.map digitChar) = (number w : Rat) + (number f : Rat) / 10 ^ f.length := by
  unfold mantissa
  rw [← List.map_append, ofDigits_number, number_append, List.length_map]
  have : (10 : Rat) ^ f.length ≠ 0 := pow_ne_zero _ (by norm_num)
  push_cast
  field_simp

theorem span_mantissa (w : List Digit) (hw : w ≠ []) (f : Option (List Digit)) (rest : Bytes) (h : Ends rest) :
    spanMantissa (w.map digitChar ++ (match f with | none => [] | some ds => [46] ++ ds.map digitChar) ++ rest) =
      some (match f with
        | none => (number w : Rat)
        | some ds => (number w : Rat) + (number ds : Rat) / 10 ^ ds.length, rest) := by
  have e : (List.map digitChar w) ≠ [] := by simpa using hw
  unfold spanMantissa spanDigits
  cases f with
  | none =>
    dsimp only
    rw [List.append_nil, takeDigits _ _ h.1, dropDigits _ _ h.1]
    have m0 : mantissa (List.map digitChar w) [] = (number w : Rat) := by
      have := mantissa_value w []
      simpa [number] using this
    cases rest with
    | nil => dsimp only; rw [if_neg e, m0]
    | cons c cs =>
      have hc : c ≠ 46 := fun hc => h.2.1 (by rw [hc]; rfl)
      split
      · rename_i heq
        injection heq with h1 _
        exact absurd h1 hc
      · rw [if_neg e, m0]
  | some ds =>
    have hp : ([46] ++ ds.map digitChar ++ rest).takeWhile isDigit = [] := by
      rw [List.append_assoc, List.singleton_append, List.takeWhile_cons_of_neg (by decide)]
    dsimp only
    rw [List.append_assoc, takeDigits _ _ hp, dropDigits _ _ hp]
    simp only [List.cons_append, List.nil_append]
    rw [takeDigits _ _ h.1, dropDigits _ _ h.1, if_neg (fun hh => e hh.1), mantissa_value]

theorem text_head (n : Decimal) (hw : n.whole ≠ []) (rest : Bytes) :
    (n.text ++ rest).dropWhile isSpace = n.text ++ rest ∧
    spanSign (n.text ++ rest) = (n.minus, n.whole.map digitChar ++
      (match n.frac with | none => [] | some ds => [46] ++ ds.map digitChar) ++ rest) := by
  obtain ⟨m, w, f⟩ := n
  obtain ⟨d, ds, rfl⟩ := List.exists_cons_of_ne_nil hw
  cases m with
  | true => exact ⟨rfl, rfl⟩
  | false =>
    obtain ⟨n1, n2, n3⟩ := isDigit_not (digitChar_isDigit d)
    unfold Decimal.text
    simp only [Bool.false_eq_true, if_false, List.nil_append, List.map_cons, List.cons_append]
    refine ⟨List.dropWhile_cons_of_neg (by rw [n3]; decide), ?_⟩
    unfold spanSign
    split
    · rename_i heq; injection heq with h1 _; exact absurd h1 n1
    · rename_i heq; injection heq with h1 _; exact absurd h1 n2
    · rfl

theorem scan_real (n : Decimal) (hw : n.whole ≠ []) (rest : Bytes) (h : Ends rest) : scanReal (n.text ++ rest) = some (n.value, rest) := by
  unfold scanReal
  rw [(text_head n hw rest).2]
  dsimp only
  rw [span_mantissa n.whole hw n.frac rest h]
  unfold Decimal.value
  dsimp only
  cases rest with
  | nil => cases n.minus <;> rfl
  | cons c cs =>
    have h1 : c ≠ 101 := fun hc => h.2.2.1 (by rw [hc]; rfl)
    have h2 : c ≠ 69 := fun hc => h.2.2.2 (by rw [hc]; rfl)
    dsimp only
    rw [if_neg (by simp [h1, h2])]
    cases n.minus <;> cases n.frac <;> rfl

theorem strtod_text (n : Decimal) (hw : n.whole ≠ []) (rest : Bytes) (h : Ends rest) : strtod (n.text ++ rest) = n.value := by
  unfold strtod
  rw [(text_head n hw rest).1, (text_head n hw rest).2]
  dsimp only
  rw [span_mantissa n.whole hw n.frac rest h]
  unfold Decimal.value
  dsimp only
  cases rest with
  | nil => cases n.minus <;> rfl
  | cons c cs =>
    have h1 : c ≠ 101 := fun hc => h.2.2.1 (by rw [hc]; rfl)
    have h2 : c ≠ 69 := fun hc => h.2.2.2 (by rw [hc]; rfl)
    dsimp only
    rw [if_neg (by simp [h1, h2])]
    cases n.minus <;> cases n.frac <;> rfl

theorem scanReals_comma (k : Nat) (n : Decimal) (hw : n.whole ≠ []) (rest : Bytes) :
    scanReals (k + 1) (n.text ++ ([44] ++ rest)) = n.value :: scanReals k rest := by
  rw [scanReals, (text_head n hw _).1, scan_real n hw _ (ends_comma _)]
  rfl

theorem scanReals_last (n : Decimal) (hw : n.whole ≠ []) (rest : Bytes) (h : Ends rest) : scanReals 1 (n.text ++ rest) = [n.value] := by
  rw [scanReals, (text_head n hw _).1, scan_real n hw _ h]
  split
  · rename_i heq; cases heq
  · rename_i heq
    injection heq with heq
    injection heq with h1 h2
    rw [h1, scanReals]
  · rename_i heq
    injection heq with heq
    injection heq with h1 h2
    rw [h1]

/-- Four decimal numbers with commas are scanned, whatever follows that is not part of a number. -/
theorem scan_reals (a b c d : Decimal) (ha : a.whole ≠ []) (hb : b.whole ≠ []) (hc : c.whole ≠ []) (hd : d.whole ≠ []) (rest : Bytes)
    (h : Ends rest) : scanReals 4 (commas a.text b.text c.text d.text ++ rest) = [a.value, b.value, c.value, d.value] := by
  unfold commas
  simp only [List.append_assoc]
  rw [scanReals_comma _ a ha, scanReals_comma _ b hb, scanReals_comma _ c hc, scanReals_last d hd rest h]

/-! ### Options -/

/-- The number of the option in the table. -/
def code : Setting → UInt8
  | .quiet => 113
  | .view => 86
  | .viewmore => 68
  | .conv _ => 99
  | .copymd _ => 77
  | .area .. => 97
  | .latlon .. => 65
  | .around .. => 67
  | .resize .. => 114
  | .band _ => 98
  | .calibrate => 70
  | .stretchTo _ => 83
  | .stretch .. => 83
  | .jpg => 106
  | .png => 112
  | .display => 100

/-- What a setting does. -/
def apply (c : Config) : Setting → Config
  | .quiet => { c with quiet := true }
  | .view => { c with action := .view }
  | .viewmore => { c with action := .viewmore }
  | .conv f => { c with action := .convert, driver := f }
  | .copymd f => { c with template := f }
  | .area x dx y dy => { c with win := ⟨x.value, y.value, dx.value, dy.value⟩, hasSize := true }
  | .latlon a b d e => { c with lat0 := a.value, lat1 := b.value, lon0 := d.value, lon1 := e.value, hasSize := true }
  | .around lat lon h w => { c with proj := { ulx := lon.value - w.value / 2, uly := lat.value + h.value / 2,
                                              lrx := lon.value + w.value / 2, lry := lat.value - h.value / 2 }, hasSize := true }
  | .resize x y => { c with scale := some (x, y), hasSize := true }
  | .band b => { c with bands := c.bands ++ [b] }
  | .calibrate => { c with calibrate := true }
  | .stretchTo m => { c with stretch := some (0, m.value) }
  | .stretch a b => { c with stretch := some (a.value, b.value) }
  | .jpg => { c with action := .jpg, isImage := true }
  | .png => { c with action := .png, isImage := true }
  | .display => { c with action := .display, isImage := true }

theorem isInt_iff (x : Int) : Geo.isInt x = true ↔ -2 ^ 31 ≤ x ∧ x < 2 ^ 31 := by
  unfold Geo.isInt
  simp only [Bool.and_eq_true, decide_eq_true_eq]
  omega

theorem dropWhile_nil {sep : UInt8} {l : Bytes} (h : ∀ c ∈ l, c ≠ sep) : l.dropWhile (· ≠ sep) = [] := by
  induction l with
  | nil => rfl
  | cons c l ih =>
    rw [List.dropWhile_cons_of_pos (by simpa using h c (by simp))]
    exact ih (fun d hd => h d (by simp [hd]))

theorem text_no_colon (n : Decimal) : ∀ c ∈ n.text, c ≠ 58 := by
  intro c hc
  have key : ∀ ds : List Digit, ∀ c ∈ ds.map digitChar, c ≠ 58 := by
    intro ds c hc e
    obtain ⟨d, -, rfl⟩ := List.mem_map.1 hc
    have := digitChar_isDigit d
    rw [e] at this
    revert this
    decide
  unfold Decimal.text at hc
  rcases List.mem_append.1 hc with hc | hc
  · rcases List.mem_append.1 hc with hc | hc
    · split at hc
      · rw [List.mem_singleton.1 hc]; decide
      · cases hc
    · exact key _ _ hc
  · cases hf : n.frac with
    | none => rw [hf] at hc; cases hc
    | some ds =>
      rw [hf] at hc
      rcases List.mem_append.1 hc with hc | hc
      · rw [List.mem_singleton.1 hc]; decide
      · exact key _ _ hc

theorem split_at {sep : UInt8} (a b : Bytes) (h : ∀ c ∈ a, c ≠ sep) :
    (a ++ [sep] ++ b).dropWhile (· ≠ sep) = sep :: b ∧ (a ++ [sep] ++ b).takeWhile (· ≠ sep) = a := by
  have h' : ∀ c ∈ a, decide (c ≠ sep) = true := fun c hc => by simpa using h c hc
  rw [List.append_assoc, List.dropWhile_append_of_pos h', List.takeWhile_append_of_pos h', List.singleton_append,
    List.dropWhile_cons_of_neg (by simp), List.takeWhile_cons_of_neg (by simp), List.append_nil]
  exact ⟨rfl, rfl⟩

theorem option_area (c : Config) (a : Bytes) : option c 97 a = setArea c a := by unfold option; rfl
theorem option_latlon (c : Config) (a : Bytes) : option c 65 a = setLatLon c a := by unfold option; rfl
theorem option_around (c : Config) (a : Bytes) : option c 67 a = setAround c a := by unfold option; rfl
theorem option_size (c : Config) (a : Bytes) : option c 114 a = setSize c a := by unfold option; rfl
theorem option_stretch (c : Config) (a : Bytes) : option c 83 a = setStretch c a := by unfold option; rfl

theorem option_setting (c : Config) (s : Setting) (hs : s.Sensible) : option c (code s) (s.argument.getD []) = .run (apply c s) := by
  cases s with
  | area x dx y dy =>
    refine (option_area c _).trans ?_
    show setArea c (commas x.text dx.text y.text dy.text) = _
    obtain ⟨h1, h1'⟩ := hs x (by simp)
    obtain ⟨h2, h2'⟩ := hs dx (by simp)
    obtain ⟨h3, h3'⟩ := hs y (by simp)
    obtain ⟨h4, h4'⟩ := hs dy (by simp)
    unfold setArea
    have e := scan_area x dx y dy h1 h2 h3 h4 [] rfl
    rw [List.append_nil] at e
    rw [e]
    dsimp only
    rw [if_pos]
    · rfl
    · simp only [List.all_cons, List.all_nil, (isInt_iff _).2 h1', (isInt_iff _).2 h2', (isInt_iff _).2 h3', (isInt_iff _).2 h4']
      rfl
  | latlon a b d e =>
    refine (option_latlon c _).trans ?_
    show setLatLon c (commas a.text b.text d.text e.text) = _
    unfold setLatLon
    have e' := scan_reals a b d e (hs a (by simp)) (hs b (by simp)) (hs d (by simp)) (hs e (by simp)) [] ends_nil
    rw [List.append_nil] at e'
    rw [e']
    dsimp only
    rw [apply]
  | around a b d e =>
    refine (option_around c _).trans ?_
    show setAround c (commas a.text b.text d.text e.text) = _
    unfold setAround
    have e' := scan_reals a b d e (hs a (by simp)) (hs b (by simp)) (hs d (by simp)) (hs e (by simp)) [] ends_nil
    rw [List.append_nil] at e'
    rw [e']
    dsimp only
    rw [apply]
  | resize x y =>
    refine (option_size c _).trans ?_
    show setSize c (x ++ [44] ++ y) = _
    unfold setSize
    obtain ⟨e1, e2⟩ := split_at (sep := 44) x y (fun c hc e => hs (e ▸ hc))
    rw [e1, e2]
    dsimp only
    rw [apply]
  | stretchTo n =>
    refine (option_stretch c _).trans ?_
    show setStretch c n.text = _
    unfold setStretch
    have e : n.text.dropWhile (· ≠ 58) = [] := dropWhile_nil (text_no_colon n)
    have e' := strtod_text n hs [] ends_nil
    rw [List.append_nil] at e'
    rw [e, e']
    dsimp only
    rw [apply]
  | stretch a b =>
    refine (option_stretch c _).trans ?_
    show setStretch c (a.text ++ [58] ++ b.text) = _
    unfold setStretch
    obtain ⟨e1, e2⟩ := split_at (sep := 58) a.text b.text (text_no_colon a)
    have ea := strtod_text a hs.1 [] ends_nil
    have eb := strtod_text b hs.2 [] ends_nil
    rw [List.append_nil] at ea eb
    rw [e1, e2]
    dsimp only
    rw [ea, eb, apply]
  | _ => rfl

/-! ### Words -/

/-- The entry of a setting in the table. -/
def entry (s : Setting) : Long := ⟨s.name, s.argument.isSome, code s⟩

theorem entry_only (s : Setting) : longs.filter (fun l => l.name == s.name) = [entry s] ∧
    longs.find? (fun l => l.name == s.name) = some (entry s) := by
  cases s <;> exact ⟨by rfl, by rfl⟩

theorem names_eq : names = longs.map Long.name := by rfl

theorem find_name (s : Setting) (p : Bytes) (h : Names p s.name) : findLong longs p = some (entry s) := by
  unfold findLong
  rcases h with rfl | ⟨h1, h2⟩
  · rw [(entry_only s).2]
  · by_cases hp : p = s.name
    · rw [hp, (entry_only s).2]
    · have hn : longs.find? (fun l => l.name == p) = none := by
        rw [List.find?_eq_none]
        intro l hl hlp
        rw [beq_iff_eq] at hlp
        exact hp (h2 p (by rw [names_eq]; exact List.mem_map.2 ⟨l, hl, hlp⟩) (List.prefix_refl p))
      have hf : longs.filter (fun l => p.isPrefixOf l.name) = longs.filter (fun l => l.name == s.name) := by
        apply List.filter_congr
        intro l hl
        rw [Bool.eq_iff_iff, List.isPrefixOf_iff_prefix, beq_iff_eq]
        constructor
        · intro hpl
          exact h2 _ (by rw [names_eq]; exact List.mem_map.2 ⟨l, hl, rfl⟩) hpl
        · intro e
          rw [e]
          exact h1
      rw [hn, hf, (entry_only s).1]

theorem name_known (s : Setting) : s.name ∈ names := by
  have : longs.find? (fun l => l.name == s.name) = some (entry s) := (entry_only s).2
  rw [names_eq]
  exact List.mem_map.2 ⟨entry s, List.mem_of_find?_eq_some this, rfl⟩

theorem name_no_equals (s : Setting) : ∀ c ∈ s.name, c ≠ 61 := by
  have : ∀ n ∈ names, ∀ c ∈ n, c ≠ 61 := by decide
  exact this s.name (name_known s)

theorem abbreviated_no_equals {s : Setting} {p : Bytes} (h : Names p s.name) : ∀ c ∈ p, c ≠ 61 := by
  intro c hc
  rcases h with rfl | ⟨h1, -⟩
  · exact name_no_equals s c hc
  · exact name_no_equals s c (h1.subset hc)

theorem abbreviated_ne_nil {s : Setting} {p : Bytes} (h : Names p s.name) : p ≠ [] := by
  rintro rfl
  rcases h with h | ⟨-, h2⟩
  · have : ([] : Bytes) ∉ names := by decide
    exact this (h ▸ name_known s)
  · have a := h2 (str "help") (by decide) List.nil_prefix
    have b := h2 (str "version") (by decide) List.nil_prefix
    rw [← b] at a
    revert a
    decide

theorem split_name {s : Setting} {p : Bytes} (h : Names p s.name) : splitEq p = (p, none) := by
  unfold splitEq
  have : p.dropWhile (· ≠ 61) = [] := dropWhile_nil (abbreviated_no_equals h)
  rw [this]

theorem split_value {s : Setting} {p : Bytes} (v : Bytes) (h : Names p s.name) : splitEq (p ++ [61] ++ v) = (p, some v) := by
  unfold splitEq
  obtain ⟨e1, e2⟩ := split_at (sep := 61) p v (abbreviated_no_equals h)
  rw [e1, e2]

theorem letter_cases {s : Setting} {c : UInt8} (h : s.letter = some c) :
    c = code s ∧ c ≠ 45 ∧ shorts.lookup c = some s.argument.isSome := by
  cases s <;> cases h <;> exact ⟨rfl, by decide, by rfl⟩

theorem events_cons (w : Bytes) (ws : List Bytes) (h : w ≠ [45, 45]) :
    events shorts longs none (w :: ws) = (word shorts longs w).1 ++ events shorts longs (word shorts longs w).2 ws := by
  rw [events, if_neg h]

theorem word_long (w : Bytes) : word shorts longs (45 :: 45 :: w) = longWord longs w := by rfl

theorem word_short (c : UInt8) (w : Bytes) (h : c ≠ 45) : word shorts longs (45 :: c :: w) = shortWord shorts (c :: w) := by
  unfold word
  split
  · rename_i heq
    injection heq with _ heq
    injection heq with heq _
    exact absurd heq h
  · rename_i heq
    injection heq with _ heq
    injection heq with h1 h2
    rw [h1, h2]
  · rename_i h1 h2
    exact absurd rfl (h2 c w)

/-- However a setting is written, `getopt_long` returns its option and its argument. -/
theorem events_written {s : Setting} {words : List Bytes} (h : Written s words) (ws : List Bytes) :
    events shorts longs none (words ++ ws) = .opt (code s) s.argument :: events shorts longs none ws := by
  cases h with
  | long p ha hp =>
    obtain ⟨x, xs, rfl⟩ := List.exists_cons_of_ne_nil (abbreviated_ne_nil hp)
    show events shorts longs none ((45 :: 45 :: (x :: xs)) :: ws) = _
    rw [events_cons _ _ (by simp)]
    rw [word_long]
    unfold longWord
    rw [split_name hp]
    dsimp only
    rw [find_name s _ hp]
    dsimp only
    rw [show (entry s).hasArg = false by unfold entry; rw [ha]; rfl, ha]
    rfl
  | equals p v ha hp =>
    show events shorts longs none ((45 :: 45 :: (p ++ [61] ++ v)) :: ws) = _
    rw [events_cons _ _ (by simp)]
    rw [word_long]
    unfold longWord
    rw [split_value v hp]
    dsimp only
    rw [find_name s _ hp]
    dsimp only
    rw [show (entry s).hasArg = true by unfold entry; rw [ha]; rfl, ha]
    rfl
  | next p v ha hp =>
    obtain ⟨x, xs, rfl⟩ := List.exists_cons_of_ne_nil (abbreviated_ne_nil hp)
    show events shorts longs none ((45 :: 45 :: (x :: xs)) :: v :: ws) = _
    rw [events_cons _ _ (by simp)]
    rw [word_long]
    unfold longWord
    rw [split_name hp]
    dsimp only
    rw [find_name s _ hp]
    dsimp only
    rw [show (entry s).hasArg = true by unfold entry; rw [ha]; rfl, ha]
    rfl
  | letter c ha hc =>
    obtain ⟨e, hne, hl⟩ := letter_cases hc
    show events shorts longs none ([45, c] :: ws) = _
    rw [events_cons _ _ (by simp [hne])]
    rw [word_short _ _ hne]
    rw [shortWord, hl, ha, e]
    rfl
  | joined c v ha hc hv =>
    obtain ⟨e, hne, hl⟩ := letter_cases hc
    show events shorts longs none ((45 :: c :: v) :: ws) = _
    rw [events_cons _ _ (by simp [hne])]
    rw [word_short _ _ hne]
    rw [shortWord, hl, ha, e]
    dsimp only [Option.isSome]
    rw [if_neg hv]
    rfl
  | apart c v ha hc =>
    obtain ⟨e, hne, hl⟩ := letter_cases hc
    show events shorts longs none ([45, c] :: v :: ws) = _
    rw [events_cons _ _ (by simp [hne])]
    rw [word_short _ _ hne]
    rw [shortWord, hl, ha, e]
    dsimp only [Option.isSome]
    rw [if_pos rfl]
    rfl

theorem events_plain {f : Bytes} (h : PlainName f) (ws : List Bytes) :
    events shorts longs none (f :: ws) = .operand f :: events shorts longs none ws := by
  have hw : f ≠ [45, 45] ∧ word shorts longs f = ([.operand f], none) := by
    rcases h with h | rfl
    · constructor
      · rintro rfl
        exact h rfl
      · unfold word
        split
        · exact absurd rfl h
        · exact absurd rfl h
        · rfl
    · exact ⟨by decide, rfl⟩
  rw [events_cons _ _ hw.1, hw.2]
  rfl

/-- What `getopt_long` does with settings and files, before anything else. -/
theorem loop_line {ss : List Setting} {fs args : List Bytes} (h : Line ss fs args) (ws : List Bytes) (c : Config) :
    loop c (events shorts longs none (args ++ ws)) = loop (ss.foldl apply c) (events shorts longs none ws) ∧
    operands (events shorts longs none (args ++ ws)) = fs ++ operands (events shorts longs none ws) := by
  induction h generalizing c with
  | none => exact ⟨rfl, rfl⟩
  | setting s words ss fs args hs hw _ ih =>
    rw [List.append_assoc, events_written hw, loop, option_setting c s hs]
    dsimp only
    rw [List.foldl_cons]
    exact ih (apply c s)
  | file f ss fs args hp _ ih =>
    rw [List.cons_append, events_plain hp, loop, operands, List.cons_append, (ih c).2]
    exact ⟨(ih c).1, rfl⟩

/-! ### Meaning -/

theorem foldl_last {β α : Type} (g : β → α) (f : Setting → Option α) (step : β → Setting → β)
    (h : ∀ b s, g (step b s) = (f s).getD (g b)) (ss : List Setting) (b : β) :
    g (ss.foldl step b) = (last f ss).getD (g b) := by
  unfold last
  induction ss generalizing b with
  | nil => rfl
  | cons s ss ih =>
    rw [List.foldl_cons, ih, h, List.filterMap_cons]
    cases hf : f s with
    | none => rfl
    | some v =>
      dsimp only
      rw [List.getLast?_cons]
      cases (List.filterMap f ss).getLast? <;> rfl

/-- The deed of a configuration. -/
def deedOf (c : Config) : Deed :=
  match c.action with
  | .view => .describe
  | .viewmore => .describeMore
  | .convert => .convert c.driver
  | .jpg => .jpg
  | .png => .png
  | .display => .display

theorem foldl_any {β : Type} (g : β → Bool) (f : Setting → Bool) (step : β → Setting → β) (h : ∀ b s, g (step b s) = (g b || f s))
    (ss : List Setting) (b : β) : g (ss.foldl step b) = (g b || ss.any f) := by
  induction ss generalizing b with
  | nil => simp
  | cons s ss ih => rw [List.foldl_cons, ih, h, List.any_cons, Bool.or_assoc]

theorem foldl_all {β α : Type} (g : β → List α) (f : Setting → Option α) (step : β → Setting → β)
    (h : ∀ b s, g (step b s) = g b ++ (f s).toList) (ss : List Setting) (b : β) : g (ss.foldl step b) = g b ++ ss.filterMap f := by
  induction ss generalizing b with
  | nil => simp
  | cons s ss ih =>
    rw [List.foldl_cons, ih, h, List.filterMap_cons]
    cases f s <;> simp

/-- What a configuration says is what the settings say. -/
structure Says (c : Config) (ss : List Setting) : Prop where
  deed : deedOf c = (last Setting.deed ss).getD .describe
  metadata : c.template = (last Setting.metadata ss).getD []
  pixels : (c.win.xoff, c.win.yoff, c.win.xsize, c.win.ysize) = (last Setting.pixels ss).getD (0, 0, 0, 0)
  degrees : (c.lat0, c.lat1, c.lon0, c.lon1) = (last Setting.degrees ss).getD (0, 0, 0, 0)
  place : (c.proj.uly, c.proj.lry, c.proj.ulx, c.proj.lrx) = (last Setting.place ss).getD (0, 0, 0, 0)
  size : c.scale = last Setting.size ss
  range : c.stretch = last Setting.range ss
  bands : c.bands = ss.filterMap Setting.which
  quiet : c.quiet = decide (Setting.quiet ∈ ss)
  calibrate : c.calibrate = decide (Setting.calibrate ∈ ss)
  hasSize : c.hasSize = ss.any Setting.sizes
  isImage : c.isImage = ss.any Setting.pictures

theorem any_mem (s : Setting) (ss : List Setting) : ss.any (fun x => decide (x = s)) = decide (s ∈ ss) := by
  rw [Bool.eq_iff_iff]
  simp

theorem getD_map {α : Type} (o : Option α) : o.getD = o.getD := rfl

theorem says_settings (ss : List Setting) : Says (ss.foldl apply {}) ss where
  deed := foldl_last deedOf Setting.deed apply (fun b s => by cases s <;> rfl) ss {}
  metadata := foldl_last Config.template Setting.metadata apply (fun b s => by cases s <;> rfl) ss {}
  pixels := foldl_last (fun c => (c.win.xoff, c.win.yoff, c.win.xsize, c.win.ysize)) Setting.pixels apply
    (fun b s => by cases s <;> rfl) ss {}
  degrees := foldl_last (fun c => (c.lat0, c.lat1, c.lon0, c.lon1)) Setting.degrees apply (fun b s => by cases s <;> rfl) ss {}
  place := foldl_last (fun c => (c.proj.uly, c.proj.lry, c.proj.ulx, c.proj.lrx)) Setting.place apply
    (fun b s => by cases s <;> rfl) ss {}
  size := by
    have := foldl_last Config.scale (fun s => s.size.map some) apply (fun b s => by cases s <;> rfl) ss {}
    rw [this]
    unfold last
    rw [← List.map_filterMap, List.getLast?_map]
    cases (List.filterMap Setting.size ss).getLast? <;> rfl
  range := by
    have := foldl_last Config.stretch (fun s => s.range.map some) apply (fun b s => by cases s <;> rfl) ss {}
    rw [this]
    unfold last
    rw [← List.map_filterMap, List.getLast?_map]
    cases (List.filterMap Setting.range ss).getLast? <;> rfl
  bands := foldl_all Config.bands Setting.which apply (fun b s => by cases s <;> simp [apply, Setting.which]) ss {}
  quiet := by
    rw [← any_mem]
    exact foldl_any Config.quiet _ apply (fun b s => by cases s <;> simp [apply]) ss {}
  calibrate := by
    rw [← any_mem]
    exact foldl_any Config.calibrate _ apply (fun b s => by cases s <;> simp [apply]) ss {}
  hasSize := foldl_any Config.hasSize _ apply (fun b s => by cases s <;> simp [apply, Setting.sizes]) ss {}
  isImage := foldl_any Config.isImage _ apply (fun b s => by cases s <;> simp [apply, Setting.pictures]) ss {}

theorem loop_operands (ws : List Bytes) (c : Config) : loop c (ws.map .operand) = .run c := by
  induction ws with
  | nil => rfl
  | cons w ws ih => rw [List.map_cons, loop, ih]

theorem operands_operands (ws : List Bytes) : operands (ws.map .operand) = ws := by
  induction ws with
  | nil => rfl
  | cons w ws ih => rw [List.map_cons, operands, ih]

/-- What is left of a command line. -/
theorem read_line {ss : List Setting} {fs args : List Bytes} (h : CommandLine ss fs args) :
    loop {} (events shorts longs none args) = .run (ss.foldl apply {}) ∧ operands (events shorts longs none args) = fs := by
  cases h with
  | plain h' =>
    have h := ‹Line ss fs args›
    obtain ⟨h1, h2⟩ := loop_line h [] {}
    rw [List.append_nil] at h1 h2
    rw [h1, h2]
    exact ⟨rfl, List.append_nil _⟩
  | dashes fs args more h =>
    obtain ⟨h1, h2⟩ := loop_line h ([str "--"] ++ more) {}
    have e : events shorts longs none ([str "--"] ++ more) = more.map .operand := by
      rw [List.singleton_append, events, if_pos (by decide)]
    rw [← List.append_assoc] at h1 h2
    rw [h1, h2, e, loop_operands, operands_operands]
    exact ⟨rfl, rfl⟩

/-- However the options are written, abbreviated, and mixed with the files, the program goes on with the files in the order given and with
what the options say, of several options about the same the last; the size of pictures is limited if no size is asked for. -/
theorem C103_settings {ss : List Setting} {fs args : List Bytes} (h : CommandLine ss fs args) (hf : fs ≠ []) :
    ∃ c, parse args = .run c ∧ c.files = fs ∧ Says c ss ∧
      (c.maxx, c.maxy) = if ss.any Setting.pictures ∧ ss.all (fun s => !s.sizes) then (1280, 1280) else (0, 0) := by
  obtain ⟨h1, h2⟩ := read_line h
  have hs := says_settings ss
  have hm : (ss.foldl apply {}).maxx = 0 ∧ (ss.foldl apply {}).maxy = 0 := by
    have e : ∀ ss : List Setting, ∀ c : Config, c.maxx = 0 ∧ c.maxy = 0 → (ss.foldl apply c).maxx = 0 ∧ (ss.foldl apply c).maxy = 0 := by
      intro ss
      induction ss with
      | nil => exact fun c hc => hc
      | cons s ss ih =>
        intro c hc
        refine ih (apply c s) ?_
        cases s <;> exact hc
    exact e ss {} ⟨rfl, rfl⟩
  unfold parse
  dsimp only
  rw [h1]
  dsimp only
  rw [h2, if_neg hf]
  generalize ss.foldl apply {} = c at hs hm
  have e : (c.isImage = true ∧ c.hasSize = false) ↔ (ss.any Setting.pictures = true ∧ ss.all (fun s => !s.sizes) = true) := by
    rw [hs.isImage, hs.hasSize, List.any_eq_false]
    simp
  refine ⟨_, rfl, ?_, ?_, ?_⟩
  · split <;> rfl
  · split <;> exact ⟨hs.deed, hs.metadata, hs.pixels, hs.degrees, hs.place, hs.size, hs.range, hs.bands, hs.quiet, hs.calibrate,
      hs.hasSize, hs.isImage⟩
  · by_cases hc : c.isImage = true ∧ c.hasSize = false
    · rw [if_pos hc, if_pos (e.1 hc)]
    · rw [if_neg hc, if_neg (fun h => hc (e.2 h))]
      exact Prod.ext hm.1 hm.2

/-- A program with nothing to work on ends with an error. -/
theorem C103_no_files {ss : List Setting} {args : List Bytes} (h : CommandLine ss [] args) : parse args = .exits 1 := by
  obtain ⟨h1, h2⟩ := read_line h
  unfold parse
  dsimp only
  rw [h1]
  dsimp only
  rw [h2, if_pos rfl]

theorem find_unknown (p : Bytes) (h : Unknown p) : findLong longs p = none := by
  unfold findLong
  have hn : longs.find? (fun l => l.name == p) = none := by
    rw [List.find?_eq_none]
    intro l hl hlp
    rw [beq_iff_eq] at hlp
    exact h.2 p (by rw [names_eq]; exact List.mem_map.2 ⟨l, hl, hlp⟩) (Or.inl rfl)
  rw [hn]
  dsimp only
  split
  · rename_i l hl
    exfalso
    have hm : l ∈ longs.filter (fun l => p.isPrefixOf l.name) := by rw [hl]; simp
    rw [List.mem_filter, List.isPrefixOf_iff_prefix] at hm
    refine h.2 l.name (by rw [names_eq]; exact List.mem_map.2 ⟨l, hm.1, rfl⟩) (Or.inr ⟨hm.2, ?_⟩)
    intro n hn hp
    rw [names_eq] at hn
    obtain ⟨l', hl', rfl⟩ := List.mem_map.1 hn
    have : l' ∈ longs.filter (fun l => p.isPrefixOf l.name) := by
      rw [List.mem_filter, List.isPrefixOf_iff_prefix]
      exact ⟨hl', hp⟩
    rw [hl, List.mem_singleton] at this
    rw [this]
  · rfl

/-! ### What is refused -/

theorem count_suffix {a b : Bytes} (h : a <:+ b) : a.count 44 ≤ b.count 44 := h.sublist.count_le 44

/-- Numbers with commas between them. -/
def withCommas : Nat → List Directive
  | 0 => [.int none]
  | k + 1 => .int none :: .lit 44 :: withCommas k

theorem scanf_few (k : Nat) (s : Bytes) : (scanf (withCommas k) s).length ≤ s.count 44 + 1 := by
  induction k generalizing s with
  | zero =>
    rw [withCommas, scanf]
    split
    · rw [scanf]
      simp
    · simp
  | succ k ih =>
    rw [withCommas, scanf]
    split
    · rename_i v n hv
      have h1 : (s.dropWhile isSpace).drop n <:+ s := (List.drop_suffix _ _).trans (List.dropWhile_suffix _)
      have h2 := count_suffix h1
      generalize (s.dropWhile isSpace).drop n = t at h2
      rw [List.length_cons]
      cases t with
      | nil => simp [scanf]
      | cons x xs =>
        rw [scanf]
        by_cases hx : x = 44
        · rw [if_pos hx]
          rw [hx, List.count_cons_self] at h2
          have := ih xs
          omega
        · rw [if_neg hx]
          simp
    · simp

theorem spanSign_suffix (s : Bytes) : (spanSign s).2 <:+ s := by
  unfold spanSign
  split
  · exact List.suffix_cons _ _
  · exact List.suffix_cons _ _
  · exact List.suffix_refl _

theorem spanMantissa_suffix {s t : Bytes} {m : Rat} (h : spanMantissa s = some (m, t)) : t <:+ s := by
  unfold spanMantissa spanDigits at h
  dsimp only at h
  have hd : s.dropWhile isDigit <:+ s := List.dropWhile_suffix _
  generalize s.dropWhile isDigit = u at h hd
  split at h
  · rename_i t'
    split at h
    · cases h
    · injection h with h
      injection h with _ h
      rw [← h]
      exact ((List.dropWhile_suffix _).trans (List.suffix_cons _ _)).trans hd
  · split at h
    · cases h
    · injection h with h
      injection h with _ h
      rw [← h]
      exact hd

theorem spanExponent_suffix {s t : Bytes} {m : Rat} (h : spanExponent s = some (m, t)) : t <:+ s := by
  unfold spanExponent spanDigits at h
  dsimp only at h
  split at h
  · cases h
  · injection h with h
    injection h with _ h
    rw [← h]
    exact (List.dropWhile_suffix _).trans (spanSign_suffix s)

theorem scanReal_suffix {s t : Bytes} {m : Rat} (h : scanReal s = some (m, t)) : t <:+ s := by
  unfold scanReal at h
  dsimp only at h
  split at h
  · cases h
  · rename_i m' t' hm
    have h1 := (spanMantissa_suffix hm).trans (spanSign_suffix s)
    split at h
    · injection h with h
      injection h with _ h
      rw [← h]
      exact h1
    · rename_i c u
      split at h
      · obtain ⟨⟨e, r⟩, he, h⟩ := Option.map_eq_some_iff.1 h
        injection h with _ h
        rw [← h]
        exact ((spanExponent_suffix he).trans (List.suffix_cons _ _)).trans h1
      · injection h with h
        injection h with _ h
        rw [← h]
        exact h1

theorem scanReals_few (k : Nat) (s : Bytes) : (scanReals k s).length ≤ s.count 44 + 1 := by
  induction k generalizing s with
  | zero => rw [scanReals]; simp
  | succ k ih =>
    rw [scanReals]
    split
    · simp
    · rename_i v t hv
      have h2 := count_suffix ((scanReal_suffix hv).trans (List.dropWhile_suffix _))
      rw [List.count_cons_self] at h2
      have := ih t
      rw [List.length_cons]
      omega
    · simp

theorem option_few (c : Config) (v : Bytes) (hv : v.count 44 < 3) :
    setArea c v = .exits 1 ∧ setLatLon c v = .exits 1 ∧ setAround c v = .exits 1 := by
  have h1 := scanf_few 3 v
  have h2 := scanReals_few 4 v
  rw [show withCommas 3 = areaFormat from rfl] at h1
  refine ⟨?_, ?_, ?_⟩
  · unfold setArea
    split
    · rename_i heq
      rw [heq] at h1
      simp at h1
      omega
    · rfl
  · unfold setLatLon
    split
    · rename_i heq
      rw [heq] at h2
      simp at h2
      omega
    · rfl
  · unfold setAround
    split
    · rename_i heq
      rw [heq] at h2
      simp at h2
      omega
    · rfl

/-- `w=v` for an option that has an argument. -/
theorem events_equals {l : Long} {p v : Bytes} (hp : ∀ c ∈ p, c ≠ 61) (hl : findLong longs p = some l) (ws : List Bytes) :
    events shorts longs none ((str "--" ++ p ++ [61] ++ v) :: ws) =
      (if l.hasArg then .opt l.val (some v) else .bad) :: events shorts longs none ws := by
  show events shorts longs none ((45 :: 45 :: (p ++ [61] ++ v)) :: ws) = _
  rw [events_cons _ _ (by simp), word_long]
  unfold longWord
  have : splitEq (p ++ [61] ++ v) = (p, some v) := by
    unfold splitEq
    obtain ⟨e1, e2⟩ := split_at (sep := 61) p v hp
    rw [e1, e2]
  rw [this]
  dsimp only
  rw [hl]
  dsimp only
  split <;> rfl

/-- Any sample of the settings with a name. -/
theorem sample (n : Bytes) (h : n ∈ [str "area", str "Area", str "around", str "resize"]) :
    ∃ s : Setting, s.name = n ∧ s.argument.isSome ∧
      code s = (if n = str "area" then 97 else if n = str "Area" then 65 else if n = str "around" then 67 else 114) := by
  simp only [List.mem_cons, List.not_mem_nil, or_false] at h
  let w : WholeNumber := ⟨false, [0]⟩
  let d : Decimal := ⟨false, [0], none⟩
  rcases h with rfl | rfl | rfl | rfl
  · exact ⟨.area w w w w, rfl, rfl, rfl⟩
  · exact ⟨.latlon d d d d, rfl, rfl, rfl⟩
  · exact ⟨.around d d d d, rfl, rfl, rfl⟩
  · exact ⟨.resize [] [], rfl, rfl, rfl⟩

theorem loop_wrong {words : List Bytes} (h : Wrong words) (c : Config) (ws : List Bytes) :
    loop c (events shorts longs none (words ++ ws)) = .exits 1 := by
  cases h with
  | unknown p hp hne =>
    obtain ⟨x, xs, rfl⟩ := List.exists_cons_of_ne_nil hne
    show loop c (events shorts longs none ((45 :: 45 :: (x :: xs)) :: ws)) = _
    rw [events_cons _ _ (by simp), word_long]
    unfold longWord
    have : splitEq (x :: xs) = (x :: xs, none) := by
      unfold splitEq
      rw [dropWhile_nil (fun c hc (e : c = 61) => hp.1 (e ▸ hc))]
    rw [this]
    dsimp only
    rw [find_unknown _ hp]
    rfl
  | unknownEquals p v hp =>
    show loop c (events shorts longs none ((45 :: 45 :: (p ++ [61] ++ v)) :: ws)) = _
    rw [events_cons _ _ (by simp), word_long]
    unfold longWord
    have : splitEq (p ++ [61] ++ v) = (p, some v) := by
      unfold splitEq
      obtain ⟨e1, e2⟩ := split_at (sep := 61) p v (fun c hc (e : c = 61) => hp.1 (e ▸ hc))
      rw [e1, e2]
    rw [this]
    dsimp only
    rw [find_unknown _ hp]
    rfl
  | excess s p v ha hp =>
    rw [List.singleton_append, events_equals (abbreviated_no_equals hp) (find_name s p hp)]
    rw [show (entry s).hasArg = false by unfold entry; rw [ha]; rfl]
    rfl
  | letter x w hx =>
    simp only [List.mem_cons, List.not_mem_nil, or_false, not_or] at hx
    show loop c (events shorts longs none ((45 :: x :: w) :: ws)) = _
    rw [events_cons _ _ (by simp [hx.1]), word_short _ _ hx.1, shortWord]
    by_cases h82 : x = 82
    · subst h82
      rfl
    · have : shorts.lookup x = none := by
        unfold shorts
        simp only [List.lookup]
        rw [show (x == 113) = false by simpa using hx.2.1, show (x == 82) = false by simpa using h82,
          show (x == 99) = false by simpa using hx.2.2.1, show (x == 98) = false by simpa using hx.2.2.2]
      rw [this]
      rfl
  | few n p v hn hp hv =>
    obtain ⟨s, rfl, hs, hc⟩ := sample n (by
      simp only [List.mem_cons, List.not_mem_nil, or_false] at hn ⊢
      tauto)
    rw [List.singleton_append, events_equals (abbreviated_no_equals hp) (find_name s p hp)]
    rw [show (entry s).hasArg = true from hs, if_pos rfl, loop]
    obtain ⟨h1, h2, h3⟩ := option_few c v hv
    have : option c (entry s).val ((some v).getD []) = .exits 1 := by
      show option c (code s) v = _
      simp only [List.mem_cons, List.not_mem_nil, or_false] at hn
      rw [hc]
      rcases hn with hn | hn | hn
      · rw [hn]
        exact (option_area c v).trans h1
      · rw [hn]
        exact (option_latlon c v).trans h2
      · rw [hn]
        exact (option_around c v).trans h3
    rw [this]
  | one p v hp hv =>
    rw [List.singleton_append, events_equals (abbreviated_no_equals (s := .resize [] []) hp) (find_name (.resize [] []) p hp)]
    rw [show (entry (.resize [] [])).hasArg = true from rfl, if_pos rfl, loop]
    have : option c (entry (.resize [] [])).val ((some v).getD []) = .exits 1 := by
      refine (option_size c v).trans ?_
      unfold setSize
      rw [dropWhile_nil (fun c hc (e : c = 44) => hv (e ▸ hc))]
    rw [this]

/-- After any settings and files, words that mean nothing end the program with an error, whatever follows. -/
theorem C103_refused {ss : List Setting} {fs args words : List Bytes} (h : Line ss fs args) (hw : Wrong words) (more : List Bytes) :
    parse (args ++ words ++ more) = .exits 1 := by
  unfold parse
  dsimp only
  rw [List.append_assoc, (loop_line h _ _).1, loop_wrong hw]

/-- So does, at the end, an option without the argument it needs. -/
theorem C103_bare {ss : List Setting} {fs args : List Bytes} {word : Bytes} (h : Line ss fs args) (hw : Bare word) :
    parse (args ++ [word]) = .exits 1 := by
  unfold parse
  dsimp only
  rw [(loop_line h _ _).1]
  cases hw with
  | long s p v ha hp =>
    obtain ⟨x, xs, rfl⟩ := List.exists_cons_of_ne_nil (abbreviated_ne_nil hp)
    show (match loop _ (events shorts longs none [45 :: 45 :: (x :: xs)]) with | .run _ => _ | r => r) = _
    rw [events_cons _ _ (by simp), word_long]
    unfold longWord
    rw [split_name hp]
    dsimp only
    rw [find_name s _ hp]
    dsimp only
    rw [show (entry s).hasArg = true by unfold entry; rw [ha]; rfl]
    rfl
  | letter s c v ha hc =>
    obtain ⟨e, hne, hl⟩ := letter_cases hc
    rw [events_cons _ _ (by simp [hne]), word_short _ _ hne, shortWord, hl, ha]
    rfl

/-- The options for help and for the version end the program without an error, whatever follows. -/
theorem C103_help {ss : List Setting} {fs args : List Bytes} {p : Bytes} (h : Line ss fs args)
    (hp : p = str "help" ∨ p = str "version") (more : List Bytes) : parse (args ++ [str "--" ++ p] ++ more) = .exits 0 := by
  unfold parse
  dsimp only
  rw [List.append_assoc, (loop_line h _ _).1]
  rcases hp with rfl | rfl <;> rfl

theorem parse_after {ss : List Setting} {fs args : List Bytes} (h : Line ss fs args) {a b : List Bytes}
    (e : events shorts longs none a = events shorts longs none b) : parse (args ++ a) = parse (args ++ b) := by
  unfold parse
  dsimp only
  rw [(loop_line h a {}).1, (loop_line h a {}).2, (loop_line h b {}).1, (loop_line h b {}).2, e]

/-- Several letters in one word are the same as one word for each. -/
theorem C103_letters {ss : List Setting} {fs args : List Bytes} (h : Line ss fs args) (c : UInt8) (hc : c ≠ 45) (w : Bytes)
    (more : List Bytes) : parse (args ++ [[45, 113, c] ++ w] ++ more) = parse (args ++ [[45, 113], [45, c] ++ w] ++ more) := by
  rw [List.append_assoc, List.append_assoc]
  apply parse_after h
  show events shorts longs none ((45 :: 113 :: c :: w) :: more) = events shorts longs none ((45 :: [113]) :: (45 :: c :: w) :: more)
  have q : ∀ u : Bytes, shortWord shorts (113 :: u) = (.opt 113 none :: (shortWord shorts u).1, (shortWord shorts u).2) := fun _ => rfl
  rw [events_cons _ _ (by simp), events_cons _ _ (by simp), word_short _ _ (by decide), word_short _ _ (by decide), q, q,
    show shortWord shorts [] = ([], none) from rfl]
  dsimp only
  rw [events_cons _ _ (by simp [hc]), word_short _ _ hc]
  rfl

/-! ### Windows -/

theorem last_none {α : Type} {f : Setting → Option α} {ss : List Setting} (h : ∀ s ∈ ss, f s = none) : last f ss = none := by
  unfold last
  rw [List.filterMap_eq_nil_iff.2 h]
  rfl

theorem last_some {α : Type} {f : Setting → Option α} {ss : List Setting} {v : α} (h : last f ss = some v) : ∃ s ∈ ss, f s = some v := by
  unfold last at h
  exact List.mem_filterMap.1 (List.mem_of_getLast? h)

theorem no_proj {c : Config} (h : (c.proj.uly, c.proj.lry, c.proj.ulx, c.proj.lrx) = (0, 0, 0, 0)) : c.proj = {} := by
  rcases hp : c.proj with ⟨ulx, uly, lrx, lry⟩
  rw [hp] at h
  simp only [Prod.mk.injEq] at h
  obtain ⟨rfl, rfl, rfl, rfl⟩ := h
  rfl

/-- A window in pixels that lies inside of the image is what is cut out of it, in its own size. -/
theorem C103_area {ss : List Setting} {fs args : List Bytes} (h : CommandLine ss fs args) (hf : fs ≠ []) {x y dx dy : Int}
    (ha : last Setting.pixels ss = some (x, y, dx, dy)) (hp : ∀ s ∈ ss, s.place = none) (hz : ∀ s ∈ ss, s.size = none)
    (gt : Geo.GT) (nx ny : Int) (hx : 0 ≤ x ∧ 0 < dx ∧ x + dx ≤ nx ∧ nx < 2 ^ 31) (hy : 0 ≤ y ∧ 0 < dy ∧ y + dy ≤ ny ∧ ny < 2 ^ 31) :
    ∃ c, parse args = .run c ∧ firstImage c gt nx ny = .ok (⟨x, y, dx, dy⟩, dx, dy) := by
  obtain ⟨c, hc, -, hs, hm⟩ := C103_settings h hf
  refine ⟨c, hc, ?_⟩
  have hpx := hs.pixels
  rw [ha] at hpx
  have hw : c.win = ⟨x, y, dx, dy⟩ := by
    rcases hwin : c.win with ⟨a, b, d, e⟩
    rw [hwin] at hpx
    simp only [Option.getD_some, Prod.mk.injEq] at hpx
    obtain ⟨rfl, rfl, rfl, rfl⟩ := hpx
    rfl
  have hpl := hs.place
  rw [last_none hp] at hpl
  have hpr := no_proj hpl
  have hsc := hs.size
  rw [last_none hz] at hsc
  obtain ⟨s, hs1, hs2⟩ := last_some ha
  have hne : ¬ (ss.any Setting.pictures = true ∧ ss.all (fun s => !s.sizes) = true) := by
    rintro ⟨-, hall⟩
    have := List.all_eq_true.1 hall s hs1
    cases s <;> first | (cases hs2; done) | (cases this)
  rw [if_neg hne] at hm
  simp only [Prod.mk.injEq] at hm
  unfold firstImage
  rw [hw, hpr, (C19_pixel_window_partial ⟨x, y, dx, dy⟩ gt nx ny (by dsimp only; omega) (by dsimp only; omega) (by dsimp only; omega)).1
    (by unfold GeoSpec.Inside; dsimp only; omega), Outcome.ok_bind]
  dsimp only
  unfold sizesOf
  rw [hm.1, hm.2, no_scale, hsc]
  rfl

/-- Without a window and a size every image is taken as it is, unless pictures are asked for and it is larger than 1280 pixels. -/
theorem C103_whole {ss : List Setting} {fs args : List Bytes} (h : CommandLine ss fs args) (hf : fs ≠ [])
    (hz : ∀ s ∈ ss, s.sizes = false) (gt : Geo.GT) (nx ny : Int) (hx : 0 < nx ∧ nx < 2 ^ 31) (hy : 0 < ny ∧ ny < 2 ^ 31) :
    ∃ c, parse args = .run c ∧
      ((ss.all (fun s => !s.pictures) = true ∨ nx ≤ 1280 ∧ ny ≤ 1280) → firstImage c gt nx ny = .ok (⟨0, 0, nx, ny⟩, nx, ny)) := by
  obtain ⟨c, hc, -, hs, hm⟩ := C103_settings h hf
  refine ⟨c, hc, fun hsmall => ?_⟩
  have hpx := hs.pixels
  rw [last_none (fun s hs' => by have := hz s hs'; cases s <;> first | rfl | cases this)] at hpx
  have hw : c.win = ⟨0, 0, 0, 0⟩ := by
    rcases hwin : c.win with ⟨a, b, d, e⟩
    rw [hwin] at hpx
    simp only [Option.getD_none, Prod.mk.injEq] at hpx
    obtain ⟨rfl, rfl, rfl, rfl⟩ := hpx
    rfl
  have hpl := hs.place
  rw [last_none (fun s hs' => by have := hz s hs'; cases s <;> first | rfl | cases this)] at hpl
  have hpr := no_proj hpl
  have hsc := hs.size
  rw [last_none (fun s hs' => by have := hz s hs'; cases s <;> first | rfl | cases this)] at hsc
  have hno : Geo.scaleIfNeeded c.maxx c.maxy nx.toNat ny.toNat = none := by
    by_cases hpic : ss.any Setting.pictures = true ∧ ss.all (fun s => !s.sizes) = true
    · rw [if_pos hpic] at hm
      simp only [Prod.mk.injEq] at hm
      rw [hm.1, hm.2]
      have hle : nx ≤ 1280 ∧ ny ≤ 1280 := by
        rcases hsmall with hsmall | hle
        · exfalso
          obtain ⟨s, h1, h2⟩ := List.any_eq_true.1 hpic.1
          have := List.all_eq_true.1 hsmall s h1
          rw [h2] at this
          cases this
        · exact hle
      exact C55_fitting_images_untouched (Or.inr (by omega)) (Or.inr (by omega))
    · rw [if_neg hpic] at hm
      simp only [Prod.mk.injEq] at hm
      rw [hm.1, hm.2, no_scale]
  unfold firstImage
  rw [hw, hpr, C19_whole_image gt nx ny (by omega) (by omega), Outcome.ok_bind]
  dsimp only
  unfold sizesOf
  rw [hno, hsc]
  rfl

/-! ### Cases -/

/-- The number 5, and the number 12.5. -/
def five : WholeNumber := ⟨false, [5]⟩
def half : Decimal := ⟨true, [1, 2], some [5]⟩

example : half.text = str "-12.5" ∧ half.value = -25 / 2 := ⟨by decide, by decide +kernel⟩

/-- `-q --jp file -cMsatGRIB --stre -12.5 -- --jpg` -/
theorem line103 : CommandLine [.quiet, .jpg, .conv (str "MsatGRIB"), .stretchTo half] [str "file", str "--jpg"]
    ([str "-q", str "--jp", str "file", str "-cMsatGRIB", str "--stre", str "-12.5"] ++ [str "--"] ++ [str "--jpg"]) := by
  refine CommandLine.dashes _ [str "file"] _ [str "--jpg"] ?_
  refine Line.setting .quiet [str "-q"] _ _ _ trivial (.letter _ 113 rfl rfl) ?_
  refine Line.setting .jpg [str "--jp"] _ _ _ trivial (.long _ (str "jp") rfl (Or.inr (by decide))) ?_
  refine Line.file (str "file") _ _ _ (Or.inl (by decide)) ?_
  refine Line.setting (.conv (str "MsatGRIB")) [str "-cMsatGRIB"] _ _ _ trivial (.joined _ 99 (str "MsatGRIB") rfl rfl (by decide)) ?_
  refine Line.setting (.stretchTo half) [str "--stre", str "-12.5"] _ _ _ (by unfold Setting.Sensible half; decide)
    (.next _ (str "stre") (str "-12.5") (by decide) (Or.inr (by decide))) ?_
  exact Line.none

example : ∃ c, parse [str "-q", str "--jp", str "file", str "-cMsatGRIB", str "--stre", str "-12.5", str "--", str "--jpg"] = .run c ∧
    c.files = [str "file", str "--jpg"] ∧ deedOf c = .convert (str "MsatGRIB") ∧ c.quiet = true ∧ c.stretch = some (0, half.value) := by
  obtain ⟨c, h1, h2, h3, -⟩ := C103_settings line103 (by decide)
  exact ⟨c, h1, h2, h3.deed, h3.quiet, h3.range⟩

/-- `--area=5,5,5,5 file` -/
theorem area103 : CommandLine [.area five five five five] [str "file"] [str "--area=5,5,5,5", str "file"] :=
  .plain _ _ _ (.setting _ [str "--area=5,5,5,5"] _ _ _ (by unfold Setting.Sensible; decide)
    (.equals _ (str "area") (str "5,5,5,5") (by decide) (Or.inl rfl)) (.file _ _ _ _ (Or.inl (by decide)) .none))

example (gt : Geo.GT) : ∃ c, parse [str "--area=5,5,5,5", str "file"] = .run c ∧
    firstImage c gt 100 100 = .ok (⟨5, 5, 5, 5⟩, 5, 5) :=
  C103_area area103 (by decide) (by decide) (by decide) (by decide) gt 100 100 (by decide) (by decide)

example : parse [str "-q", str "--a=1,2,3,4", str "file"] = .exits 1 :=
  C103_refused (args := [str "-q"]) (words := [str "--a=1,2,3,4"]) (.setting .quiet [str "-q"] _ _ _ trivial (.letter _ 113 rfl rfl) .none)
    (.unknownEquals (str "a") (str "1,2,3,4") ⟨by decide, by unfold Names; decide⟩) [str "file"]

example : parse [str "--area=1,2,3", str "file"] = .exits 1 :=
  C103_refused (args := []) (words := [str "--area=1,2,3"]) .none
    (.few (str "area") (str "area") (str "1,2,3") (by decide) (Or.inl rfl) (by decide)) [str "file"]

example : parse [str "-x", str "file"] = .exits 1 :=
  C103_refused (args := []) (words := [str "-x"]) .none (.letter 120 [] (by decide)) [str "file"]

example : parse [str "file", str "--conv"] = .exits 1 :=
  C103_bare (args := [str "file"]) (.file _ _ _ _ (Or.inl (by decide)) .none) (.long (.conv []) (str "conv") [] rfl (Or.inl rfl))

example : parse [str "-qcJPEG", str "file"] = parse [str "-q", str "-cJPEG", str "file"] :=
  C103_letters (args := []) .none 99 (by decide) (str "JPEG") [str "file"]

example (gt : Geo.GT) : ∃ c, parse [str "file"] = .run c ∧ (([] : List Setting).all (fun s => !s.pictures) = true ∨
    (3712 : Int) ≤ 1280 ∧ (3712 : Int) ≤ 1280 → firstImage c gt 3712 3712 = .ok (⟨0, 0, 3712, 3712⟩, 3712, 3712)) :=
  C103_whole (.plain [] [str "file"] [str "file"] (.file _ _ _ _ (Or.inl (by decide)) .none)) (by decide) (by simp) gt 3712 3712
    (by decide) (by decide)

/-! ### Violations -/

/-- Discrepancy: what follows the fourth number of --area is ignored. -/
theorem C103_violated_junk (a b c d : WholeNumber) (h : (Setting.area a b c d).Sensible) (junk : Bytes)
    (hj : junk.takeWhile isDigit = []) (file : Bytes) :
    parse [str "--area=" ++ (commas a.text b.text c.text d.text ++ junk), file] =
      parse [str "--area=" ++ commas a.text b.text c.text d.text, file] := by
  obtain ⟨h1, -⟩ := h a (by simp)
  obtain ⟨h2, -⟩ := h b (by simp)
  obtain ⟨h3, -⟩ := h c (by simp)
  obtain ⟨h4, -⟩ := h d (by simp)
  have key : ∀ v : Bytes, events shorts longs none [str "--area=" ++ v, file] = .opt 97 (some v) :: events shorts longs none [file] := by
    intro v
    exact events_equals (l := ⟨str "area", true, 97⟩) (p := str "area") (v := v) (by decide) rfl [file]
  have e : ∀ v : Bytes, option {} 97 ((some v).getD []) = setArea {} v := fun v => option_area {} v
  unfold parse
  dsimp only
  rw [key, key, loop, loop, operands, operands, e, e]
  unfold setArea
  have e1 := scan_area a b c d h1 h2 h3 h4 [] rfl
  rw [List.append_nil] at e1
  rw [scan_area a b c d h1 h2 h3 h4 junk hj, e1]
  all_goals
    intro w hw
    cases hw

example : str "junk" ≠ [] ∧ (str "junk").takeWhile isDigit = [] := by decide

/-- Discrepancy: a number of --area that is not an integer of the machine is not refused: reading it is undefined. -/
theorem C103_violated_overflow (a b c d : WholeNumber) (ha : a.digits ≠ []) (hb : b.digits ≠ []) (hc : c.digits ≠ []) (hd : d.digits ≠ [])
    (hbig : 2 ^ 31 ≤ a.value) (files : List Bytes) :
    parse ([str "--area=" ++ commas a.text b.text c.text d.text] ++ files) = .undefined := by
  have e1 := scan_area a b c d ha hb hc hd [] rfl
  rw [List.append_nil] at e1
  unfold parse
  dsimp only
  rw [List.singleton_append]
  have key := events_equals (l := ⟨str "area", true, 97⟩) (p := str "area") (v := commas a.text b.text c.text d.text) (by decide) rfl files
  rw [show str "--area=" ++ commas a.text b.text c.text d.text = str "--" ++ str "area" ++ [61] ++ commas a.text b.text c.text d.text
    from rfl, key, if_pos rfl, loop]
  have e : option {} 97 ((some (commas a.text b.text c.text d.text)).getD []) = .undefined := by
    refine (option_area {} _).trans ?_
    rw [Option.getD_some]
    unfold setArea
    rw [e1]
    dsimp only
    have hn : ¬ (Geo.isInt a.value = true) := by
      rw [isInt_iff]
      omega
    rw [if_neg (by simp [hn])]
  dsimp only
  rw [e]

example : (2 : Int) ^ 31 ≤ (⟨false, [3, 0, 0, 0, 0, 0, 0, 0, 0, 0]⟩ : WholeNumber).value := by decide

/-- Discrepancy: a text that is no number is no error for --stretch: it counts as zero, so that the range is empty. -/
theorem C103_violated_stretch (x : UInt8) (t : Bytes) (hx : isDigit x = false ∧ isSpace x = false ∧ x ∉ [43, 45, 46, 58]) (ht : 58 ∉ t)
    (file : Bytes) (hf : PlainName file) :
    ∃ c, parse [str "--stretch=" ++ (x :: t), file] = .run c ∧ c.stretch = some (0, 0) := by
  simp only [List.mem_cons, List.not_mem_nil, or_false, not_or] at hx
  obtain ⟨h1, h2, h3, h4, h5, h6⟩ := hx
  have key : events shorts longs none [str "--stretch=" ++ (x :: t), file] = .opt 83 (some (x :: t)) :: events shorts longs none [file] :=
    events_equals (l := ⟨str "stretch", true, 83⟩) (p := str "stretch") (v := x :: t) (by decide) rfl [file]
  have e0 : strtod (x :: t) = 0 := by
    unfold strtod
    rw [List.dropWhile_cons_of_neg (by rw [h2]; decide)]
    have : spanSign (x :: t) = (false, x :: t) := by
      unfold spanSign
      split
      · rename_i heq; injection heq with e _; exact absurd e h4
      · rename_i heq; injection heq with e _; exact absurd e h3
      · rfl
    rw [this]
    dsimp only
    have : spanMantissa (x :: t) = none := by
      unfold spanMantissa spanDigits
      rw [List.takeWhile_cons_of_neg (by rw [h1]; decide), List.dropWhile_cons_of_neg (by rw [h1]; decide)]
      dsimp only
      split
      · rename_i heq; injection heq with e _; exact absurd e h5
      · rfl
    rw [this]
  have e : option {} 83 ((some (x :: t)).getD []) = .run { ({} : Config) with stretch := some (0, 0) } := by
    refine (option_stretch {} _).trans ?_
    unfold setStretch
    show (match (x :: t).dropWhile (· ≠ 58) with
      | [] => _
      | _ :: y => _) = _
    rw [dropWhile_nil (sep := 58) (l := x :: t) (by
      intro c hc
      rcases List.mem_cons.1 hc with rfl | hc
      · exact h6
      · exact fun e => ht (e ▸ hc))]
    dsimp only [Option.getD]
    rw [e0]
  have ef : events shorts longs none [file] = [.operand file] := events_plain hf []
  refine ⟨{ ({} : Config) with stretch := some (0, 0), files := [file] }, ?_, rfl⟩
  unfold parse
  dsimp only
  rw [key, ef, loop, e]
  rfl

example : ∃ c, parse [str "--stretch=many", str "file"] = .run c ∧ c.stretch = some (0, 0) :=
  C103_violated_stretch 109 (str "any") (by decide) (by decide) (str "file") (Or.inl (by decide))

/-- Discrepancy: the degrees of --around are taken for coordinates of the projection.  On an image whose pixels are at least 1000 units
wide and high no area of at most 360 degrees is ever found: the null pointer that stands for the failure is used. -/
theorem C103_violated_around {ss : List Setting} {fs args : List Bytes} (h : CommandLine ss fs args) (hf : fs ≠ []) {north south west east : Rat}
    (hp : last Setting.place ss = some (north, south, west, east)) (hne : ¬ (north = 0 ∧ south = 0 ∧ west = 0 ∧ east = 0))
    (hw : |east - west| ≤ 360) (gt : Geo.GT) (hg : 1000 ≤ gt.g1) (nx ny : Int) :
    ∃ c, parse args = .run c ∧ firstImage c gt nx ny = .ub := by
  obtain ⟨c, hc, -, hs, -⟩ := C103_settings h hf
  refine ⟨c, hc, ?_⟩
  have hpl := hs.place
  rw [hp] at hpl
  rcases hpr : c.proj with ⟨ulx, uly, lrx, lry⟩
  rw [hpr] at hpl
  simp only [Option.getD_some, Prod.mk.injEq] at hpl
  obtain ⟨rfl, rfl, rfl, rfl⟩ := hpl
  have hgiven : (⟨ulx, uly, lrx, lry⟩ : Geo.ProjWin).given = true := by
    unfold Geo.ProjWin.given
    simp only [Bool.or_eq_true, decide_eq_true_eq]
    tauto
  have hsx : Geo.divThenInt (lrx - ulx) gt.g1 (1 / 2) = .ok 0 := by
    have hpos : (0 : Rat) < gt.g1 := by linarith
    unfold Geo.divThenInt
    rw [if_neg hpos.ne']
    have hb : |(lrx - ulx) / gt.g1| < 1 / 2 := by
      rw [abs_div, abs_of_pos hpos, div_lt_iff₀ hpos]
      linarith
    rw [abs_lt] at hb
    unfold Geo.toInt
    dsimp only
    rw [if_pos (show (0 : Rat) ≤ (lrx - ulx) / gt.g1 + 1 / 2 by linarith), show ⌊(lrx - ulx) / gt.g1 + 1 / 2⌋ = 0 by rw [Int.floor_eq_iff]; constructor <;> push_cast <;> linarith]
    rfl
  have key : ∀ r : Geo.Win, Geo.projectedWin ⟨ulx, uly, lrx, lry⟩ gt nx ny (Geo.defaultWin c.win nx ny) = .ok (some r) → r.xsize = 0 := by
    intro r hr
    unfold Geo.projectedWin at hr
    rw [if_pos hgiven] at hr
    split at hr
    · cases hr
    · obtain ⟨x, -, hr⟩ := Outcome.of_bind_ok hr
      obtain ⟨y, -, hr⟩ := Outcome.of_bind_ok hr
      rw [hsx, Outcome.ok_bind] at hr
      obtain ⟨sy, -, hr⟩ := Outcome.of_bind_ok hr
      split at hr
      · cases hr
      · obtain ⟨b, -, hr⟩ := Outcome.of_bind_ok hr
        cases b with
        | true => cases hr
        | false =>
          simp only [Bool.false_eq_true, if_false] at hr
          obtain ⟨b, -, hr⟩ := Outcome.of_bind_ok hr
          cases b with
          | true => cases hr
          | false =>
            simp only [Bool.false_eq_true, if_false] at hr
            injection hr with hr
            injection hr with hr
            rw [← hr]
  have hno : ∀ w, Geo.projectedWin ⟨ulx, uly, lrx, lry⟩ gt nx ny w = .ub ∨ ∃ o, Geo.projectedWin ⟨ulx, uly, lrx, lry⟩ gt nx ny w = .ok o := by
    intro w
    have hdiv : ∀ a b c, Geo.divThenInt a b c = .ub ∨ ∃ o, Geo.divThenInt a b c = .ok o := by
      intro a b c
      unfold Geo.divThenInt Geo.toInt
      dsimp only
      split
      · exact Or.inl rfl
      · generalize (if 0 ≤ a / b + c then ⌊a / b + c⌋ else ⌈a / b + c⌉) = t
        split
        · exact Or.inr ⟨_, rfl⟩
        · exact Or.inl rfl
    have hbey : ∀ a b c, Geo.beyond a b c = .ub ∨ ∃ o, Geo.beyond a b c = .ok o := by
      intro a b c
      unfold Geo.beyond Geo.addInt
      split
      · exact Or.inr ⟨_, rfl⟩
      · exact Or.inl rfl
    unfold Geo.projectedWin
    rw [if_pos hgiven]
    split
    · exact Or.inr ⟨_, rfl⟩
    · rcases hdiv (ulx - gt.g0) gt.g1 (1 / 1000) with e | ⟨x, e⟩ <;> rw [e]
      · exact Or.inl rfl
      rw [Outcome.ok_bind]
      rcases hdiv (uly - gt.g3) gt.g5 (1 / 1000) with e | ⟨y, e⟩ <;> rw [e]
      · exact Or.inl rfl
      rw [Outcome.ok_bind, hsx, Outcome.ok_bind]
      rcases hdiv (lry - uly) gt.g5 (1 / 2) with e | ⟨sy, e⟩ <;> rw [e]
      · exact Or.inl rfl
      rw [Outcome.ok_bind]
      split
      · exact Or.inr ⟨_, rfl⟩
      · rcases hbey x 0 nx with e | ⟨b, e⟩ <;> rw [e]
        · exact Or.inl rfl
        rw [Outcome.ok_bind]
        cases b
        · simp only [Bool.false_eq_true, if_false]
          rcases hbey y sy ny with e | ⟨b, e⟩ <;> rw [e]
          · exact Or.inl rfl
          rw [Outcome.ok_bind]
          cases b
          · exact Or.inr ⟨_, rfl⟩
          · exact Or.inr ⟨_, rfl⟩
        · exact Or.inr ⟨_, rfl⟩
  unfold firstImage Geo.sourceWin
  rw [hpr]
  rcases hno (Geo.defaultWin c.win nx ny) with e | ⟨o, e⟩
  · rw [e]
    rfl
  · cases o with
    | none =>
      rw [e]
      rfl
    | some r =>
      have hr := key r e
      rw [e, Outcome.ok_bind]
      dsimp only
      have : Geo.verifyWin r nx ny = .ok none := by
        unfold Geo.verifyWin
        rw [if_pos (by omega)]
      rw [this]
      rfl

/-- Ten degrees around 44 North, 11 East, on the full disk of Meteosat. -/
example : ∃ c, parse [str "--around=44,11,10,10", str "file"] = .run c ∧
    firstImage c ⟨-5570248, 3000, 0, 5570248, 0, -3000⟩ 3712 3712 = .ub := by
  let ten : Decimal := ⟨false, [1, 0], none⟩
  let lat : Decimal := ⟨false, [4, 4], none⟩
  let lon : Decimal := ⟨false, [1, 1], none⟩
  refine C103_violated_around (ss := [.around lat lon ten ten]) (north := 49) (south := 39) (west := 6) (east := 16)
    (.plain _ [str "file"] _ (.setting _ [str "--around=44,11,10,10"] _ _ _ (by unfold Setting.Sensible; decide)
      (.equals _ (str "around") (str "44,11,10,10") (by decide) (Or.inl rfl)) (.file _ _ _ _ (Or.inl (by decide)) .none)))
    (by decide) (by decide +kernel) (by norm_num) (by norm_num [abs_of_pos]) _ (by norm_num) _ _

/-- A size as it is written: pixels, or a percentage of the image. -/
theorem size_pixels (a : WholeNumber) (ha : a.digits ≠ []) : MsatCommandLine.sizeOf a.text = .ok (.pixels a.value) := by
  have hl : ∃ d, a.text.getLast? = some (digitChar d) := by
    obtain ⟨m, ds⟩ := a
    rcases List.eq_nil_or_concat ds with rfl | ⟨l, d, rfl⟩
    · exact absurd rfl ha
    · refine ⟨d, ?_⟩
      simp [WholeNumber.text, List.getLast?_append]
  obtain ⟨d, hd⟩ := hl
  have hne : digitChar d ≠ 37 := by
    clear hd
    revert d
    decide
  have hsc := scan_whole a ha [] rfl
  rw [List.append_nil] at hsc
  unfold MsatCommandLine.sizeOf
  rw [hd]
  dsimp only
  rw [if_neg hne]
  unfold atoi
  rw [hsc.2, hsc.1]

theorem size_percent (a : Decimal) (ha : a.whole ≠ []) : MsatCommandLine.sizeOf (a.text ++ [37]) = .ok (.percent a.value) := by
  unfold MsatCommandLine.sizeOf
  rw [List.getLast?_append, List.getLast?_singleton]
  simp only [Option.or_some, Option.some_or, if_pos]
  rw [strtod_text a ha [37] ⟨by decide, by decide, by decide, by decide⟩]

/-- The option --resize: the whole image in that many pixels, or in that many percent of its pixels. -/
theorem C103_resize {ss : List Setting} {fs args : List Bytes} (h : CommandLine ss fs args) (hf : fs ≠ []) {columns lines : Bytes}
    (hz : last Setting.size ss = some (columns, lines)) (hp : ∀ s ∈ ss, s.place = none) (ha : ∀ s ∈ ss, s.pixels = none) (gt : Geo.GT) (nx ny : Int)
    (hx : 0 < nx ∧ nx < 2 ^ 31) (hy : 0 < ny ∧ ny < 2 ^ 31) : ∃ c, parse args = .run c ∧
    (∀ a b : WholeNumber, a.digits ≠ [] → b.digits ≠ [] → columns = a.text → lines = b.text →
      firstImage c gt nx ny = .ok (⟨0, 0, nx, ny⟩, a.value, b.value)) ∧
    ∀ a b : Decimal, a.whole ≠ [] → b.whole ≠ [] → columns = a.text ++ [37] → lines = b.text ++ [37] →
      0 ≤ a.value ∧ a.value / 100 * nx < 2 ^ 31 → 0 ≤ b.value ∧ b.value / 100 * ny < 2 ^ 31 →
      firstImage c gt nx ny = .ok (⟨0, 0, nx, ny⟩, ⌊a.value / 100 * nx⌋, ⌊b.value / 100 * ny⌋) := by
  obtain ⟨c, hc, -, hs, hm⟩ := C103_settings h hf
  refine ⟨c, hc, ?_⟩
  have hpx := hs.pixels
  rw [last_none ha] at hpx
  have hw : c.win = ⟨0, 0, 0, 0⟩ := by
    rcases hwin : c.win with ⟨a, b, d, e⟩
    rw [hwin] at hpx
    simp only [Option.getD_none, Prod.mk.injEq] at hpx
    obtain ⟨rfl, rfl, rfl, rfl⟩ := hpx
    rfl
  have hpl := hs.place
  rw [last_none hp] at hpl
  have hpr := no_proj hpl
  have hsc := hs.size
  rw [hz] at hsc
  obtain ⟨s, hs1, hs2⟩ := last_some hz
  have hne : ¬ (ss.any Setting.pictures = true ∧ ss.all (fun s => !s.sizes) = true) := by
    rintro ⟨-, hall⟩
    have := List.all_eq_true.1 hall s hs1
    cases s <;> first | (cases hs2; done) | (cases this)
  rw [if_neg hne] at hm
  simp only [Prod.mk.injEq] at hm
  have start : firstImage c gt nx ny = (do
      let x ← MsatCommandLine.sizeOf columns
      let y ← MsatCommandLine.sizeOf lines
      let ox ← Geo.outSize (some x) nx
      let oy ← Geo.outSize (some y) ny
      pure ((⟨0, 0, nx, ny⟩ : Geo.Win), ox, oy)) := by
    unfold firstImage
    rw [hw, hpr, C19_whole_image gt nx ny (by omega) (by omega), Outcome.ok_bind]
    dsimp only
    unfold sizesOf
    rw [hm.1, hm.2, no_scale, hsc]
    dsimp only
    cases MsatCommandLine.sizeOf columns <;> [skip; rfl; rfl; rfl; rfl]
    cases MsatCommandLine.sizeOf lines <;> rfl
  have percent : ∀ (q : Rat) (n : Int), 0 ≤ q → 0 < n → q / 100 * n < 2 ^ 31 → Geo.outSize (some (.percent q)) n = .ok ⌊q / 100 * n⌋ := by
    intro q n hq hn hlt
    unfold Geo.outSize Geo.toInt
    dsimp only
    have hpos : 0 ≤ q / 100 * (n : Rat) := by
      have : (0 : Rat) < n := by exact_mod_cast hn
      positivity
    rw [if_pos hpos, if_pos]
    rw [isInt_iff]
    have h1 : 0 ≤ ⌊q / 100 * (n : Rat)⌋ := Int.floor_nonneg.2 hpos
    have h2 : ⌊q / 100 * (n : Rat)⌋ < 2 ^ 31 := Int.floor_lt.2 (by push_cast; exact hlt)
    omega
  constructor
  · rintro a b hda hdb rfl rfl
    rw [start, size_pixels a hda, size_pixels b hdb]
    rfl
  · rintro a b hda hdb rfl rfl ⟨ha1, ha2⟩ ⟨hb1, hb2⟩
    rw [start, size_percent a hda, size_percent b hdb, Outcome.ok_bind, Outcome.ok_bind, percent _ _ ha1 hx.1 ha2, percent _ _ hb1 hy.1 hb2]
    rfl

/-- Half of the columns and 12.5% of the lines. -/
example (gt : Geo.GT) : ∃ c, parse [str "--resize=50%,12.5%", str "file"] = .run c ∧ firstImage c gt 3712 1000 = .ok (⟨0, 0, 3712, 1000⟩, 1856, 125) := by
  let half : Decimal := ⟨false, [5, 0], none⟩
  let eighth : Decimal := ⟨false, [1, 2], some [5]⟩
  obtain ⟨c, h1, -, h2⟩ := C103_resize (ss := [.resize (str "50%") (str "12.5%")]) (columns := str "50%") (lines := str "12.5%")
    (.plain _ [str "file"] _ (.setting _ [str "--resize=50%,12.5%"] _ _ _ (by unfold Setting.Sensible; decide)
      (.equals _ (str "resize") (str "50%,12.5%") (by decide) (Or.inl rfl)) (.file _ _ _ _ (Or.inl (by decide)) .none)))
    (by decide) (by decide) (by decide) (by decide) gt 3712 1000 (by decide) (by decide)
  refine ⟨c, h1, ?_⟩
  have e1 : half.value = 50 := by decide +kernel
  have e2 : eighth.value = 25 / 2 := by decide +kernel
  have := h2 half eighth (by decide) (by decide) (by decide +kernel) (by decide +kernel) (by rw [e1]; norm_num) (by rw [e2]; norm_num)
  rw [this, e1, e2]
  norm_num

/-- Discrepancy: --resize with an empty size is not refused; the character before the text is read. -/
theorem C103_violated_empty_size {ss : List Setting} {fs args : List Bytes} (h : CommandLine ss fs args) (hf : fs ≠ []) {lines : Bytes}
    (hz : last Setting.size ss = some ([], lines)) (hp : ∀ s ∈ ss, s.place = none) (ha : ∀ s ∈ ss, s.pixels = none) (gt : Geo.GT) (nx ny : Int)
    (hx : 0 < nx ∧ nx < 2 ^ 31) (hy : 0 < ny ∧ ny < 2 ^ 31) : ∃ c, parse args = .run c ∧ firstImage c gt nx ny = .ub := by
  obtain ⟨c, hc, -, hs, hm⟩ := C103_settings h hf
  refine ⟨c, hc, ?_⟩
  have hpx := hs.pixels
  rw [last_none ha] at hpx
  have hw : c.win = ⟨0, 0, 0, 0⟩ := by
    rcases hwin : c.win with ⟨a, b, d, e⟩
    rw [hwin] at hpx
    simp only [Option.getD_none, Prod.mk.injEq] at hpx
    obtain ⟨rfl, rfl, rfl, rfl⟩ := hpx
    rfl
  have hpl := hs.place
  rw [last_none hp] at hpl
  have hpr := no_proj hpl
  have hsc := hs.size
  rw [hz] at hsc
  obtain ⟨s, hs1, hs2⟩ := last_some hz
  have hne : ¬ (ss.any Setting.pictures = true ∧ ss.all (fun s => !s.sizes) = true) := by
    rintro ⟨-, hall⟩
    have := List.all_eq_true.1 hall s hs1
    cases s <;> first | (cases hs2; done) | (cases this)
  rw [if_neg hne] at hm
  simp only [Prod.mk.injEq] at hm
  unfold firstImage
  rw [hw, hpr, C19_whole_image gt nx ny (by omega) (by omega), Outcome.ok_bind]
  dsimp only
  unfold sizesOf
  rw [hm.1, hm.2, no_scale, hsc]
  rfl

example (gt : Geo.GT) : ∃ c, parse [str "--resize=,100", str "file"] = .run c ∧ firstImage c gt 100 100 = .ub :=
  C103_violated_empty_size (ss := [.resize [] (str "100")]) (lines := str "100")
    (.plain _ [str "file"] _ (.setting _ [str "--resize=,100"] _ _ _ (by unfold Setting.Sensible; decide)
      (.equals _ (str "resize") (str ",100") (by decide) (Or.inl rfl)) (.file _ _ _ _ (Or.inl (by decide)) .none)))
    (by decide) (by decide) (by decide) (by decide) gt 100 100 (by decide) (by decide)

/-- Discrepancy: a picture asked for before --conv limits the size of what is converted, as if it were a picture. -/
theorem C103_violated_limit {ss : List Setting} {fs args : List Bytes} (h : CommandLine ss fs args) (hf : fs ≠ []) {format : Bytes}
    (hd : last Setting.deed ss = some (.convert format)) (hpic : ss.any Setting.pictures = true) (hz : ∀ s ∈ ss, s.sizes = false)
    (gt : Geo.GT) (nx ny : Int) (hx : 1280 < nx ∧ nx < 2 ^ 31) (hy : 0 < ny ∧ ny < 2 ^ 31) :
    ∃ c ox oy, parse args = .run c ∧ deedOf c = .convert format ∧ firstImage c gt nx ny = .ok (⟨0, 0, nx, ny⟩, ox, oy) ∧ ox < nx ∧ oy < ny := by
  obtain ⟨c, hc, -, hs, hm⟩ := C103_settings h hf
  have hdeed := hs.deed
  rw [hd] at hdeed
  have hpx := hs.pixels
  rw [last_none (fun s hs' => by have := hz s hs'; cases s <;> first | rfl | cases this)] at hpx
  have hw : c.win = ⟨0, 0, 0, 0⟩ := by
    rcases hwin : c.win with ⟨a, b, d, e⟩
    rw [hwin] at hpx
    simp only [Option.getD_none, Prod.mk.injEq] at hpx
    obtain ⟨rfl, rfl, rfl, rfl⟩ := hpx
    rfl
  have hpl := hs.place
  rw [last_none (fun s hs' => by have := hz s hs'; cases s <;> first | rfl | cases this)] at hpl
  have hpr := no_proj hpl
  rw [if_pos ⟨hpic, List.all_eq_true.2 (fun s hs => by rw [hz s hs]; rfl)⟩] at hm
  simp only [Prod.mk.injEq] at hm
  obtain ⟨tx, ty, hscale, h1, h2, -, -⟩ := C55_scaled_down_to_fit (maxx := 1280) (maxy := 1280) (sx := nx.toNat) (sy := ny.toNat)
    (by omega) (by omega) (by
      rintro ⟨hh, -⟩
      unfold Fits at hh
      omega)
  refine ⟨c, tx, ty, hc, hdeed, ?_, by omega, by omega⟩
  unfold firstImage
  rw [hw, hpr, C19_whole_image gt nx ny (by omega) (by omega), Outcome.ok_bind]
  dsimp only
  unfold sizesOf
  rw [hm.1, hm.2, hscale]
  rfl

example (gt : Geo.GT) := C103_violated_limit line103 (by decide) (format := str "MsatGRIB") (by decide) (by decide) (by decide) gt 3712 3712
  (by decide) (by decide)

end Msat.Props
