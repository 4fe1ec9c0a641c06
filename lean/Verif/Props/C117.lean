import Verif.Model.XritCommandLine
import Verif.Spec.XritCommandLine
import Verif.Props.C103

/-
C117 The command lines of XRIT2Image and XRIT2NetCDF.
-/
namespace Msat.Props
open Msat
open Msat.MsatCommandLine (Long Event findLong splitEq longWord shortWord word events)
open Msat.MsatCommandLineSpec (WholeNumber Decimal PlainName commas)
open XritCommandLine XritCommandLineSpec

/-! ### getopt_long with any table -/

theorem table_cons (sh : List (UInt8 × Bool)) (lo : List Long) (w : Bytes) (ws : List Bytes) (h : w ≠ [45, 45]) :
    events sh lo none (w :: ws) = (word sh lo w).1 ++ events sh lo (word sh lo w).2 ws := by
  rw [events, if_neg h]

theorem table_short (sh : List (UInt8 × Bool)) (lo : List Long) (c : UInt8) (w : Bytes) (h : c ≠ 45) :
    word sh lo (45 :: c :: w) = shortWord sh (c :: w) := by
  unfold word
  split
  · rename_i heq
    injection heq with _ heq
    injection heq with heq _
    exact absurd heq h
  · rename_i heq
    injection heq with _ heq
    injection heq with h1 h2
    rw [h1, h2]
  · rename_i h1 h2
    exact absurd rfl (h2 c w)

theorem table_split (p : Bytes) (h : ∀ c ∈ p, c ≠ 61) : splitEq p = (p, none) := by
  unfold splitEq
  have : p.dropWhile (· ≠ 61) = [] := dropWhile_nil h
  rw [this]

theorem table_split_value (p v : Bytes) (h : ∀ c ∈ p, c ≠ 61) : splitEq (p ++ [61] ++ v) = (p, some v) := by
  unfold splitEq
  obtain ⟨e1, e2⟩ := split_at (sep := 61) p v h
  rw [e1, e2]

theorem table_plain (sh : List (UInt8 × Bool)) (lo : List Long) {f : Bytes} (h : PlainName f) (ws : List Bytes) :
    events sh lo none (f :: ws) = .operand f :: events sh lo none ws := by
  have hw : f ≠ [45, 45] ∧ word sh lo f = ([.operand f], none) := by
    rcases h with h | rfl
    · constructor
      · rintro rfl
        exact h rfl
      · unfold word
        split
        · exact absurd rfl h
        · exact absurd rfl h
        · rfl
    · exact ⟨by decide, rfl⟩
  rw [table_cons _ _ _ _ hw.1, hw.2]
  rfl

/-! ### The two tables -/

/-- Which program it is. -/
def isNetcdf : Program → Bool
  | .image => false
  | .netcdf => true

/-- The entry of a setting in the table. -/
def xritEntry (s : Setting) : Long := ⟨s.name, s.argument.isSome, s.letter⟩

theorem xrit_only (P : Program) (s : Setting) (h : s.known (isNetcdf P) = true) : (longs P).filter (fun l => l.name == s.name) = [xritEntry s] ∧
    (longs P).find? (fun l => l.name == s.name) = some (xritEntry s) := by
  cases P <;> cases s <;> first | exact absurd (show false = true from h) (by decide) | exact ⟨by rfl, by rfl⟩

theorem xrit_names (P : Program) : names (isNetcdf P) = (longs P).map Long.name := by cases P <;> rfl

theorem xrit_find (P : Program) (s : Setting) (hk : s.known (isNetcdf P) = true) (p : Bytes) (h : Names (isNetcdf P) p s.name) :
    findLong (longs P) p = some (xritEntry s) := by
  unfold findLong
  by_cases hp : p = s.name
  · rw [hp, (xrit_only P s hk).2]
  · obtain ⟨h1, h2⟩ := h.resolve_left hp
    have hn : (longs P).find? (fun l => l.name == p) = none := by
      rw [List.find?_eq_none]
      intro l hl hlp
      rw [beq_iff_eq] at hlp
      exact hp (h2 p (by rw [xrit_names]; exact List.mem_map.2 ⟨l, hl, hlp⟩) (List.prefix_refl p))
    have hf : (longs P).filter (fun l => p.isPrefixOf l.name) = (longs P).filter (fun l => l.name == s.name) := by
      apply List.filter_congr
      intro l hl
      rw [Bool.eq_iff_iff, List.isPrefixOf_iff_prefix, beq_iff_eq]
      constructor
      · intro hpl
        exact h2 _ (by rw [xrit_names]; exact List.mem_map.2 ⟨l, hl, rfl⟩) hpl
      · intro e
        rw [e]
        exact h1
    rw [hn, hf, (xrit_only P s hk).1]

theorem xrit_known (P : Program) (s : Setting) (hk : s.known (isNetcdf P) = true) : s.name ∈ names (isNetcdf P) := by
  rw [xrit_names]
  exact List.mem_map.2 ⟨xritEntry s, List.mem_of_find?_eq_some (xrit_only P s hk).2, rfl⟩

theorem xrit_no_equals (P : Program) (n p : Bytes) (hn : n ∈ names (isNetcdf P)) (h : Names (isNetcdf P) p n) : ∀ c ∈ p, c ≠ 61 := by
  have hall : ∀ b : Bool, ∀ n ∈ names b, ∀ c ∈ n, c ≠ 61 := by decide
  intro c hc
  rcases h with rfl | ⟨h1, -⟩
  · exact hall _ _ hn c hc
  · exact hall _ _ hn c (h1.subset hc)

theorem xrit_ne_nil (P : Program) (n p : Bytes) (hn : n ∈ names (isNetcdf P)) (h : Names (isNetcdf P) p n) : p ≠ [] := by
  have hall : ∀ b : Bool, ([] : Bytes) ∉ names b ∧ str "help" ∈ names b ∧ str "version" ∈ names b := by decide
  rintro rfl
  rcases h with h | ⟨-, h2⟩
  · exact (hall _).1 (h ▸ hn)
  · have a := h2 (str "help") (hall _).2.1 List.nil_prefix
    have b := h2 (str "version") (hall _).2.2 List.nil_prefix
    rw [← b] at a
    revert a
    decide

theorem xrit_letter (P : Program) (s : Setting) (hk : s.known (isNetcdf P) = true) : s.letter ≠ 45 ∧
    (shorts P).lookup s.letter = some s.argument.isSome := by
  cases P <;> cases s <;> first | exact absurd (show false = true from hk) (by decide) | exact ⟨by simp [Setting.letter], by rfl⟩

/-- However a setting is written, `getopt_long` returns its letter and its argument. -/
theorem xrit_written (P : Program) {s : Setting} {words : List Bytes} (hk : s.known (isNetcdf P) = true) (h : Written (isNetcdf P) s words)
    (ws : List Bytes) : events (shorts P) (longs P) none (words ++ ws) = .opt s.letter s.argument :: events (shorts P) (longs P) none ws := by
  have hn := xrit_known P s hk
  obtain ⟨hne, hl⟩ := xrit_letter P s hk
  cases h with
  | long p ha hp =>
    obtain ⟨x, xs, e⟩ := List.exists_cons_of_ne_nil (xrit_ne_nil P _ _ hn hp)
    show events (shorts P) (longs P) none ((45 :: 45 :: p) :: ws) = _
    rw [table_cons _ _ _ _ (by rw [e]; simp)]
    show (longWord (longs P) p).1 ++ events (shorts P) (longs P) (longWord (longs P) p).2 ws = _
    unfold longWord
    rw [table_split p (xrit_no_equals P _ _ hn hp)]
    dsimp only
    rw [xrit_find P s hk _ hp]
    dsimp only
    rw [show (xritEntry s).hasArg = false by unfold xritEntry; rw [ha]; rfl, ha]
    rfl
  | equals p v ha hp =>
    show events (shorts P) (longs P) none ((45 :: 45 :: (p ++ [61] ++ v)) :: ws) = _
    rw [table_cons _ _ _ _ (by simp)]
    show (longWord (longs P) (p ++ [61] ++ v)).1 ++ events (shorts P) (longs P) (longWord (longs P) (p ++ [61] ++ v)).2 ws = _
    unfold longWord
    rw [table_split_value p v (xrit_no_equals P _ _ hn hp)]
    dsimp only
    rw [xrit_find P s hk _ hp]
    dsimp only
    rw [show (xritEntry s).hasArg = true by unfold xritEntry; rw [ha]; rfl, ha]
    rfl
  | next p v ha hp =>
    obtain ⟨x, xs, e⟩ := List.exists_cons_of_ne_nil (xrit_ne_nil P _ _ hn hp)
    show events (shorts P) (longs P) none ((45 :: 45 :: p) :: v :: ws) = _
    rw [table_cons _ _ _ _ (by rw [e]; simp)]
    show (longWord (longs P) p).1 ++ events (shorts P) (longs P) (longWord (longs P) p).2 (v :: ws) = _
    unfold longWord
    rw [table_split p (xrit_no_equals P _ _ hn hp)]
    dsimp only
    rw [xrit_find P s hk _ hp]
    dsimp only
    rw [show (xritEntry s).hasArg = true by unfold xritEntry; rw [ha]; rfl, ha]
    rfl
  | letter ha =>
    show events (shorts P) (longs P) none ([45, s.letter] :: ws) = _
    rw [table_cons _ _ _ _ (by simp [hne]), table_short _ _ _ _ hne, shortWord, hl, ha]
    rfl
  | joined v ha hv =>
    show events (shorts P) (longs P) none ((45 :: s.letter :: v) :: ws) = _
    rw [table_cons _ _ _ _ (by simp [hne]), table_short _ _ _ _ hne, shortWord, hl, ha]
    dsimp only [Option.isSome]
    rw [if_neg hv]
    rfl
  | apart v ha =>
    show events (shorts P) (longs P) none ([45, s.letter] :: v :: ws) = _
    rw [table_cons _ _ _ _ (by simp [hne]), table_short _ _ _ _ hne, shortWord, hl, ha]
    dsimp only [Option.isSome]
    rw [if_pos rfl]
    rfl

/-! ### What the settings do -/

/-- What a setting changes. -/
def settingDoes (o : Options) : Setting → Options
  | .directory d => { o with asked := { o.asked with directory := some d } }
  | .resolution d => { o with asked := { o.asked with resolution := some d } }
  | .product1 d => { o with asked := { o.asked with productid1 := some d } }
  | .product2 d => { o with asked := { o.asked with productid2 := some d } }
  | .time d => { o with asked := { o.asked with timing := some d } }
  | .format f => { o with format := some f }
  | .scale n => { o with scale := n.value }
  | .overlay f => { o with overlay := some f }
  | .normalize => { o with normalize := true }
  | .area a b c d => { o with subarea := true, area := ⟨a.value - 1, b.value, c.value - 1, d.value⟩ }

theorem option_xrit (P : Program) (o : Options) (s : Setting) (hk : s.known (isNetcdf P) = true) (hs : s.Sensible) :
    option P o s.letter (s.argument.getD []) = .run (settingDoes o s) := by
  cases s with
  | scale n =>
    cases P with
    | netcdf => exact absurd (show false = true from hk) (by decide)
    | image =>
      show Parsed.run { o with scale := MsatCommandLine.strtod n.text } = _
      have e := strtod_text n hs [] ends_nil
      rw [List.append_nil] at e
      rw [e]
      rfl
  | area a b c d =>
    cases P with
    | image => exact absurd (show false = true from hk) (by decide)
    | netcdf =>
      show setArea o (commas a.text b.text c.text d.text) = _
      obtain ⟨h, ha, hc⟩ := hs
      have e := scan_area a b c d (h a (by simp)).1 (h b (by simp)).1 (h c (by simp)).1 (h d (by simp)).1 [] rfl
      rw [List.append_nil] at e
      have e' : Text.scanf XritTools.areaFormat (commas a.text b.text c.text d.text) = [a.value, b.value, c.value, d.value] := e
      unfold setArea
      dsimp only
      rw [e', if_pos]
      · have i1 := (h a (by simp)).2
        have i2 := (h c (by simp)).2
        show (match XritTools.int32 (c.value - 1), XritTools.int32 (a.value - 1) with
          | .ok p, .ok l => Parsed.run { o with subarea := true, area := ⟨l, b.value, p, d.value⟩ }
          | _, _ => Parsed.undefined) = _
        unfold XritTools.int32
        rw [if_pos (by omega), if_pos (by omega)]
        rfl
      · rw [List.all_eq_true]
        intro x hx
        rw [isInt_iff]
        simp only [List.mem_cons, List.not_mem_nil, or_false] at hx
        rcases hx with rfl | rfl | rfl | rfl
        · exact (h a (by simp)).2
        · exact (h b (by simp)).2
        · exact (h c (by simp)).2
        · exact (h d (by simp)).2
  | _ => cases P <;> first | exact absurd (show false = true from hk) (by decide) | rfl

theorem loop_xrit (P : Program) {ss : List Setting} {args : List Bytes} (h : Line (isNetcdf P) ss args) (ws : List Bytes) (o : Options) :
    loop P o (events (shorts P) (longs P) none (args ++ ws)) = loop P (ss.foldl settingDoes o) (events (shorts P) (longs P) none ws) := by
  induction h generalizing o with
  | none => rfl
  | setting s words ss args hk hs hw _ ih =>
    rw [List.append_assoc, xrit_written P hk hw, loop, option_xrit P o s hk hs]
    dsimp only
    rw [List.foldl_cons]
    exact ih (settingDoes o s)
  | word w ss args hp _ ih =>
    rw [List.cons_append, table_plain _ _ hp, loop]
    exact ih o

theorem loop_words (P : Program) (ws : List Bytes) (o : Options) : loop P o (ws.map .operand) = .run o := by
  induction ws with
  | nil => rfl
  | cons w ws ih => rw [List.map_cons, loop, ih]

theorem xrit_line (P : Program) {ss : List Setting} {args : List Bytes} (h : CommandLine (isNetcdf P) ss args) :
    loop P {} (events (shorts P) (longs P) none args) = .run (ss.foldl settingDoes {}) := by
  cases h with
  | plain h' =>
    have h := ‹Line (isNetcdf P) ss args›
    have h1 := loop_xrit P h [] {}
    rw [List.append_nil] at h1
    rw [h1]
    rfl
  | dashes args more h =>
    have h1 := loop_xrit P h ([str "--"] ++ more) {}
    have e : events (shorts P) (longs P) none ([str "--"] ++ more) = more.map .operand := by
      rw [List.singleton_append, events, if_pos (by decide)]
    rw [← List.append_assoc] at h1
    rw [h1, e, loop_words]

theorem xrit_last {β α : Type} (g : β → Option α) (f : Setting → Option α) (step : β → Setting → β)
    (h : ∀ b s, g (step b s) = (f s).or (g b)) (ss : List Setting) (b : β) : g (ss.foldl step b) = (last f ss).or (g b) := by
  induction ss generalizing b with
  | nil => rfl
  | cons s ss ih =>
    rw [List.foldl_cons, ih, h]
    unfold last
    rw [List.filterMap_cons]
    cases hf : f s with
    | none => rfl
    | some v =>
      dsimp only
      rw [List.getLast?_cons]
      cases (ss.filterMap f).getLast? <;> rfl

/-- What the options are is what the settings say, the last counts. -/
theorem xrit_says (ss : List Setting) (o : Options) (he : o = ss.foldl settingDoes {}) :
    o.asked = ⟨last Setting.saysDirectory ss, last Setting.saysResolution ss, last Setting.saysProduct1 ss, last Setting.saysProduct2 ss,
      last Setting.saysTime ss⟩ ∧
    o.format = last Setting.saysFormat ss ∧ o.overlay = last Setting.saysOverlay ss ∧ o.scale = (last Setting.saysScale ss).getD 1 ∧
    o.normalize = decide (Setting.normalize ∈ ss) ∧
    (if o.subarea then some (o.area.linStart, o.area.nLin, o.area.pixStart, o.area.nPix) else none) = last Setting.saysArea ss := by
  subst he
  have e1 := xrit_last (fun o : Options => o.asked.directory) Setting.saysDirectory settingDoes (by intro b s; cases s <;> rfl) ss {}
  have e2 := xrit_last (fun o : Options => o.asked.resolution) Setting.saysResolution settingDoes (by intro b s; cases s <;> rfl) ss {}
  have e3 := xrit_last (fun o : Options => o.asked.productid1) Setting.saysProduct1 settingDoes (by intro b s; cases s <;> rfl) ss {}
  have e4 := xrit_last (fun o : Options => o.asked.productid2) Setting.saysProduct2 settingDoes (by intro b s; cases s <;> rfl) ss {}
  have e5 := xrit_last (fun o : Options => o.asked.timing) Setting.saysTime settingDoes (by intro b s; cases s <;> rfl) ss {}
  have e6 := xrit_last (fun o : Options => o.format) Setting.saysFormat settingDoes (by intro b s; cases s <;> rfl) ss {}
  have e7 := xrit_last (fun o : Options => o.overlay) Setting.saysOverlay settingDoes (by intro b s; cases s <;> rfl) ss {}
  have e8 := xrit_last (fun o : Options => some o.scale) Setting.saysScale settingDoes (by intro b s; cases s <;> rfl) ss {}
  have e9 := xrit_last (fun o : Options => if o.subarea then some (o.area.linStart, o.area.nLin, o.area.pixStart, o.area.nPix) else none)
    Setting.saysArea settingDoes (by intro b s; cases s <;> rfl) ss {}
  have e10 : ∀ (ss : List Setting) (o : Options), (ss.foldl settingDoes o).normalize = (o.normalize || decide (Setting.normalize ∈ ss)) := by
    intro ss
    induction ss with
    | nil => intro o; simp
    | cons s ss ih =>
      intro o
      rw [List.foldl_cons, ih]
      cases s <;> simp [settingDoes]
  dsimp only at e1 e2 e3 e4 e5 e6 e7 e9
  rw [show ∀ x : Option Bytes, x.or none = x from fun x => by cases x <;> rfl] at e1 e2 e3 e4 e5 e6 e7
  refine ⟨?_, e6, e7, ?_, ?_, ?_⟩
  · have h : ∀ a : XritTools.Asked, a = ⟨a.directory, a.resolution, a.productid1, a.productid2, a.timing⟩ := fun _ => rfl
    exact (h _).trans (by rw [e1, e2, e3, e4, e5])
  · have : ∀ x : Option Rat, some (ss.foldl settingDoes {}).scale = x.or (some 1) → (ss.foldl settingDoes {}).scale = x.getD 1 := by
      intro x h
      cases x <;> exact Option.some.inj h
    exact this _ e8
  · rw [e10]; rfl
  · rw [e9]
    cases last Setting.saysArea ss <;> rfl

/-! ### C117 -/

/-- However the options are written, abbreviated, and mixed with other words, and whatever is said more than once (the last counts), the
programs go on with what has been said if all of resolution, identifiers and time have been said: the directory is the working directory
if none is said, the scale is one, the window is that of XRIT2NetCDF. -/
theorem C117_settings (P : Program) {ss : List Setting} {args : List Bytes} (h : CommandLine (isNetcdf P) ss args) {r p1 p2 t : Bytes}
    (hr : last Setting.saysResolution ss = some r) (h1 : last Setting.saysProduct1 ss = some p1) (h2 : last Setting.saysProduct2 ss = some p2)
    (ht : last Setting.saysTime ss = some t) :
    ∃ o, parse P args = .run o ∧
      o.asked.product = some ⟨(last Setting.saysDirectory ss).getD (str "."), r, p1, p2, t⟩ ∧
      o.format = last Setting.saysFormat ss ∧ o.overlay = last Setting.saysOverlay ss ∧ o.scale = (last Setting.saysScale ss).getD 1 ∧
      (o.normalize = true ↔ Setting.normalize ∈ ss) ∧
      (if o.subarea then some (o.area.linStart, o.area.nLin, o.area.pixStart, o.area.nPix) else none) = last Setting.saysArea ss := by
  obtain ⟨a, b, c, d, e, f⟩ := xrit_says ss _ rfl
  have hp : (ss.foldl settingDoes {}).asked.product = some ⟨(last Setting.saysDirectory ss).getD (str "."), r, p1, p2, t⟩ := by
    rw [a]
    unfold XritTools.Asked.product
    dsimp only
    rw [hr, h1, h2, ht]
  refine ⟨_, ?_, hp, b, c, d, ?_, f⟩
  · unfold parse
    rw [xrit_line P h]
    dsimp only
    rw [hp]
  · rw [e, decide_eq_true_iff]

/-- Without one of the resolution, the identifiers and the time the programs end with status 1. -/
theorem C117_obligatory (P : Program) {ss : List Setting} {args : List Bytes} (h : CommandLine (isNetcdf P) ss args)
    (hm : last Setting.saysResolution ss = none ∨ last Setting.saysProduct1 ss = none ∨ last Setting.saysProduct2 ss = none ∨
      last Setting.saysTime ss = none) : parse P args = .exits 1 := by
  obtain ⟨a, -⟩ := xrit_says ss _ rfl
  have hp : (ss.foldl settingDoes {}).asked.product = none := by
    rw [a]
    unfold XritTools.Asked.product
    dsimp only
    rcases hm with hm | hm | hm | hm
    · rw [hm]
    · rw [hm]; split <;> simp_all
    · rw [hm]; split <;> simp_all
    · rw [hm]; split <;> simp_all
  unfold parse
  rw [xrit_line P h]
  dsimp only
  rw [hp]

theorem xrit_find_unknown (P : Program) (p : Bytes) (h : ∀ n ∈ names (isNetcdf P), ¬ Names (isNetcdf P) p n) : findLong (longs P) p = none := by
  unfold findLong
  have hn : (longs P).find? (fun l => l.name == p) = none := by
    rw [List.find?_eq_none]
    intro l hl hlp
    rw [beq_iff_eq] at hlp
    exact h p (by rw [xrit_names]; exact List.mem_map.2 ⟨l, hl, hlp⟩) (Or.inl rfl)
  rw [hn]
  dsimp only
  split
  · rename_i l hl
    exfalso
    have hm : l ∈ (longs P).filter (fun l => p.isPrefixOf l.name) := by rw [hl]; simp
    rw [List.mem_filter, List.isPrefixOf_iff_prefix] at hm
    refine h l.name (by rw [xrit_names]; exact List.mem_map.2 ⟨l, hm.1, rfl⟩) (Or.inr ⟨hm.2, ?_⟩)
    intro n hn hp
    rw [xrit_names] at hn
    obtain ⟨l', hl', rfl⟩ := List.mem_map.1 hn
    have : l' ∈ (longs P).filter (fun l => p.isPrefixOf l.name) := by
      rw [List.mem_filter, List.isPrefixOf_iff_prefix]
      exact ⟨hl', hp⟩
    rw [hl, List.mem_singleton] at this
    rw [this]
  · rfl

/-- Every letter of the tables is that of a setting or one of `V`, `h` and `?`. -/
theorem xrit_lookup_none (P : Program) (c : UInt8) (h1 : c ∉ [45, 86, 104, 63]) (h2 : ∀ s : Setting, s.known (isNetcdf P) = true → s.letter ≠ c) :
    (shorts P).lookup c = none := by
  simp only [List.mem_cons, List.not_mem_nil, or_false, not_or] at h1
  obtain ⟨-, a, b, d⟩ := h1
  rw [List.lookup_eq_none_iff]
  have e1 := h2 (.directory []) (by cases P <;> rfl)
  have e2 := h2 (.resolution []) (by cases P <;> rfl)
  have e3 := h2 (.product1 []) (by cases P <;> rfl)
  have e4 := h2 (.product2 []) (by cases P <;> rfl)
  have e5 := h2 (.time []) (by cases P <;> rfl)
  simp only [Setting.letter] at e1 e2 e3 e4 e5
  intro x hx
  rw [bne_iff_ne]
  intro he
  cases P with
  | image =>
    have e6 := h2 (.format []) rfl
    have e7 := h2 (.scale ⟨false, [], none⟩) rfl
    have e8 := h2 (.overlay []) rfl
    have e9 := h2 .normalize rfl
    simp only [Setting.letter] at e6 e7 e8 e9
    simp only [shorts, List.mem_cons, List.not_mem_nil, or_false] at hx
    rcases hx with rfl | rfl | rfl | rfl | rfl | rfl | rfl | rfl | rfl | rfl | rfl | rfl <;> simp_all
  | netcdf =>
    have e6 := h2 (.area ⟨false, []⟩ ⟨false, []⟩ ⟨false, []⟩ ⟨false, []⟩) rfl
    simp only [Setting.letter] at e6
    simp only [shorts, List.mem_cons, List.not_mem_nil, or_false] at hx
    rcases hx with rfl | rfl | rfl | rfl | rfl | rfl | rfl | rfl | rfl <;> simp_all

theorem xrit_after (P : Program) {ss : List Setting} {args : List Bytes} (h : Line (isNetcdf P) ss args) {ws : List Bytes} {e : Event} {es : List Event}
    (he : events (shorts P) (longs P) none ws = e :: es) (hx : ∀ o, loop P o (e :: es) = .exits 0) : parse P (args ++ ws) = .exits 0 := by
  unfold parse
  rw [loop_xrit P h, he, hx]

/-- The options for help and for the version end the programs without an error, whatever follows. -/
theorem C117_help (P : Program) {ss : List Setting} {args : List Bytes} (h : Line (isNetcdf P) ss args) {w : Bytes}
    (hw : w = str "-h" ∨ w = str "-?" ∨ w = str "-V" ∨ ∃ p n, w = str "--" ++ p ∧ n ∈ [str "help", str "version"] ∧ Names (isNetcdf P) p n) (more : List Bytes) :
    parse P (args ++ w :: more) = .exits 0 := by
  rcases hw with rfl | rfl | rfl | ⟨p, n, rfl, hn, hp⟩
  · exact xrit_after P h (e := .opt 104 none) (es := events (shorts P) (longs P) none more) (by cases P <;> rfl) (by intro o; cases P <;> rfl)
  · exact xrit_after P h (e := .opt 63 none) (es := events (shorts P) (longs P) none more) (by cases P <;> rfl) (by intro o; cases P <;> rfl)
  · exact xrit_after P h (e := .opt 86 none) (es := events (shorts P) (longs P) none more) (by cases P <;> rfl) (by intro o; cases P <;> rfl)
  · have hm : n ∈ names (isNetcdf P) := by
      simp only [List.mem_cons, List.not_mem_nil, or_false] at hn
      rcases hn with rfl | rfl <;> cases P <;> decide
    have hf : ∃ v, (v = 104 ∨ v = 86) ∧ findLong (longs P) p = some ⟨n, false, v⟩ := by
      simp only [List.mem_cons, List.not_mem_nil, or_false] at hn
      unfold findLong
      have only : ∃ v, (v = 104 ∨ v = 86) ∧ (longs P).filter (fun l => l.name == n) = [⟨n, false, v⟩] ∧ (longs P).find? (fun l => l.name == n) = some ⟨n, false, v⟩ := by
        rcases hn with rfl | rfl
        · exact ⟨104, .inl rfl, by cases P <;> rfl, by cases P <;> rfl⟩
        · exact ⟨86, .inr rfl, by cases P <;> rfl, by cases P <;> rfl⟩
      obtain ⟨v, hv, o1, o2⟩ := only
      refine ⟨v, hv, ?_⟩
      by_cases hpn : p = n
      · rw [hpn, o2]
      · obtain ⟨h1, h2⟩ := hp.resolve_left hpn
        have hno : (longs P).find? (fun l => l.name == p) = none := by
          rw [List.find?_eq_none]
          intro l hl hlp
          rw [beq_iff_eq] at hlp
          exact hpn (h2 p (by rw [xrit_names]; exact List.mem_map.2 ⟨l, hl, hlp⟩) (List.prefix_refl p))
        have hfl : (longs P).filter (fun l => p.isPrefixOf l.name) = (longs P).filter (fun l => l.name == n) := by
          apply List.filter_congr
          intro l hl
          rw [Bool.eq_iff_iff, List.isPrefixOf_iff_prefix, beq_iff_eq]
          constructor
          · intro hpl
            exact h2 _ (by rw [xrit_names]; exact List.mem_map.2 ⟨l, hl, rfl⟩) hpl
          · intro e
            rw [e]
            exact h1
        rw [hno, hfl, o1]
    obtain ⟨v, hv, hf⟩ := hf
    obtain ⟨x, xs, e⟩ := List.exists_cons_of_ne_nil (xrit_ne_nil P _ _ hm hp)
    refine xrit_after P h (e := .opt v none) (es := events (shorts P) (longs P) none more) ?_ ?_
    · show events (shorts P) (longs P) none ((45 :: 45 :: p) :: more) = _
      rw [table_cons _ _ _ _ (by rw [e]; simp)]
      show (longWord (longs P) p).1 ++ events (shorts P) (longs P) (longWord (longs P) p).2 more = _
      unfold longWord
      rw [table_split p (xrit_no_equals P _ _ hm hp)]
      dsimp only
      rw [hf]
      rfl
    · intro o
      rcases hv with rfl | rfl <;> cases P <;> rfl

/-- Discrepancy: an option that does not exist ends the programs with status 0, as if all had been done, whatever else is asked for. -/
theorem C117_violated_status (P : Program) {ss : List Setting} {args words : List Bytes} (h : Line (isNetcdf P) ss args)
    (hw : Wrong (isNetcdf P) words) (more : List Bytes) : parse P (args ++ words ++ more) = .exits 0 := by
  rw [List.append_assoc]
  have hx : ∀ (es : List Event) (o : Options), loop P o (.bad :: es) = .exits 0 := by intro es o; cases P <;> rfl
  cases hw with
  | unknown p hp he hn =>
    obtain ⟨x, xs, e⟩ := List.exists_cons_of_ne_nil hp
    refine xrit_after P h (e := .bad) (es := events (shorts P) (longs P) none more) ?_ (hx _)
    show events (shorts P) (longs P) none ((45 :: 45 :: p) :: more) = _
    rw [table_cons _ _ _ _ (by rw [e]; simp)]
    show (longWord (longs P) p).1 ++ events (shorts P) (longs P) (longWord (longs P) p).2 more = _
    unfold longWord
    rw [table_split p (fun c hc hc' => he (hc' ▸ hc))]
    dsimp only
    rw [xrit_find_unknown P p hn]
    rfl
  | unknownEquals p v he hn =>
    refine xrit_after P h (e := .bad) (es := events (shorts P) (longs P) none more) ?_ (hx _)
    show events (shorts P) (longs P) none ((45 :: 45 :: (p ++ [61] ++ v)) :: more) = _
    rw [table_cons _ _ _ _ (by simp)]
    show (longWord (longs P) (p ++ [61] ++ v)).1 ++ events (shorts P) (longs P) (longWord (longs P) (p ++ [61] ++ v)).2 more = _
    unfold longWord
    rw [table_split_value p v (fun c hc hc' => he (hc' ▸ hc))]
    dsimp only
    rw [xrit_find_unknown P p hn]
    rfl
  | letter c w hc hs =>
    have hne : c ≠ 45 := fun e => hc (by rw [e]; simp)
    refine xrit_after P h (e := .bad) (es := (shortWord (shorts P) w).1 ++ events (shorts P) (longs P) (shortWord (shorts P) w).2 more) ?_ (hx _)
    show events (shorts P) (longs P) none ((45 :: c :: w) :: more) = _
    rw [table_cons _ _ _ _ (by simp [hne]), table_short _ _ _ _ hne, shortWord, xrit_lookup_none P c hc hs]
    rfl

/-- Discrepancy: words that are not options, like the names of files, are not refused: they change nothing. -/
theorem C117_violated_words (P : Program) {ss : List Setting} {args : List Bytes} (h : Line (isNetcdf P) ss args) (w : Bytes) (hw : PlainName w) :
    parse P (args ++ [w]) = parse P args := by
  have e : loop P {} (events (shorts P) (longs P) none (args ++ [w])) = loop P {} (events (shorts P) (longs P) none args) := by
    have h1 := loop_xrit P h [w] {}
    have h2 := loop_xrit P h [] {}
    rw [List.append_nil] at h2
    rw [h1, h2, table_plain _ _ hw]
    rfl
  unfold parse
  rw [e]

/-- Discrepancy: a window of XRIT2NetCDF with only one number is not refused: it has no lines and no pixels. -/
theorem C117_violated_window (n : WholeNumber) (hd : n.digits ≠ []) (h1 : -2 ^ 31 < n.value) (h2 : n.value < 2 ^ 31) (o : Options)
    (ho : o.area = ⟨1, 0, 1, 0⟩) : option .netcdf o 97 n.text = .run { o with subarea := true, area := ⟨n.value - 1, 0, 0, 0⟩ } := by
  have e : Text.scanf XritTools.areaFormat n.text = [n.value] := by
    have := scanf_whole (XritTools.areaFormat.drop 1) n hd [] rfl
    rw [List.append_nil] at this
    exact this.trans rfl
  show setArea o n.text = _
  unfold setArea
  dsimp only
  rw [e, ho, if_pos]
  · show (match XritTools.int32 (1 - 1), XritTools.int32 (n.value - 1) with
      | .ok p, .ok l => Parsed.run { o with subarea := true, area := ⟨l, 0, p, 0⟩ }
      | _, _ => Parsed.undefined) = _
    unfold XritTools.int32
    rw [if_pos (by omega), if_pos (by omega)]
    rfl
  · rw [List.all_eq_true]
    intro x hx
    rw [List.mem_singleton] at hx
    rw [hx, isInt_iff]
    omega

/-- Discrepancy: the first pixel of an earlier window is moved to the left by a later one that has no first pixel. -/
theorem C117_violated_again (a b c d n : WholeNumber) (hs : (Setting.area a b c d).Sensible) (hd : n.digits ≠ []) (h1 : -2 ^ 31 < n.value)
    (h2 : n.value < 2 ^ 31) (hc : 1 - 2 ^ 31 < c.value) (ws : List Bytes)
    (hw : ws = [str "-a", (Setting.area a b c d).argument.getD [], str "-a", n.text]) (o : Options) :
    loop .netcdf o (events (shorts .netcdf) (longs .netcdf) none ws) =
      .run { o with subarea := true, area := ⟨n.value - 1, b.value, c.value - 2, d.value⟩ } := by
  have e : Text.scanf XritTools.areaFormat n.text = [n.value] := by
    have := scanf_whole (XritTools.areaFormat.drop 1) n hd [] rfl
    rw [List.append_nil] at this
    exact this.trans rfl
  have hev : events (shorts .netcdf) (longs .netcdf) none ws = [.opt 97 (Setting.area a b c d).argument, .opt 97 (some n.text)] := by
    rw [hw]
    rfl
  rw [hev, loop, show option .netcdf o 97 ((Setting.area a b c d).argument.getD []) = .run (settingDoes o (.area a b c d)) from option_xrit .netcdf o (.area a b c d) rfl hs]
  dsimp only
  rw [loop]
  have hset : option .netcdf (settingDoes o (.area a b c d)) 97 ((some n.text).getD []) =
      .run { o with subarea := true, area := ⟨n.value - 1, b.value, c.value - 2, d.value⟩ } := by
    show setArea (settingDoes o (.area a b c d)) n.text = _
    have i2 := (hs.1 c (by simp)).2
    unfold setArea
    dsimp only
    rw [e, if_pos]
    · show (match XritTools.int32 (c.value - 1 - 1), XritTools.int32 (n.value - 1) with
        | .ok p, .ok l => Parsed.run { o with subarea := true, area := ⟨l, b.value, p, d.value⟩ }
        | _, _ => Parsed.undefined) = _
      unfold XritTools.int32
      rw [if_pos (by omega), if_pos (by omega)]
      rw [show c.value - 1 - 1 = c.value - 2 by omega]
    · rw [List.all_eq_true]
      intro x hx
      rw [List.mem_singleton] at hx
      rw [hx, isInt_iff]
      omega
  rw [hset]
  rfl

/-- What XRIT2Image does with a command line is what it does for the product that has been asked for. -/
theorem C117_image (env : Hrit.Env) (ls : Bytes → List Bytes) (disk : Hrit.Disk) (creates : Bytes → Bool) {ss : List Setting} {args : List Bytes}
    (h : CommandLine false ss args) :
    imageMain env ls disk creates args =
      XritTools.xrit2Image env ls disk creates ⟨last Setting.saysDirectory ss, last Setting.saysResolution ss, last Setting.saysProduct1 ss,
        last Setting.saysProduct2 ss, last Setting.saysTime ss⟩ (last Setting.saysFormat ss) (decide (Setting.normalize ∈ ss))
        (last Setting.saysOverlay ss) := by
  obtain ⟨a, b, c, d, e, f⟩ := xrit_says ss _ rfl
  have hl := xrit_line .image h
  unfold imageMain parse
  rw [hl]
  dsimp only
  rw [← a, ← b, ← c, ← e]
  cases hp : (ss.foldl settingDoes {}).asked.product with
  | none =>
    dsimp only
    unfold XritTools.xrit2Image
    rw [hp]
  | some fa => rfl

theorem xrit_sensible (P : Program) {ss : List Setting} {args : List Bytes} (h : CommandLine (isNetcdf P) ss args) : ∀ s ∈ ss, s.Sensible := by
  have hl : ∀ {ss : List Setting} {args : List Bytes}, Line (isNetcdf P) ss args → ∀ s ∈ ss, s.Sensible := by
    intro ss args h
    induction h with
    | none => intro s hs; exact absurd hs (by simp)
    | setting s words ss args _ h1 _ _ ih =>
      intro s' hs'
      rcases List.mem_cons.1 hs' with rfl | h2
      · exact h1
      · exact ih _ h2
    | word w ss args _ _ ih => exact ih
  cases h with
  | plain h' => exact hl ‹Line (isNetcdf P) ss args›
  | dashes args more h => exact hl h

theorem area_text (a b c d : WholeNumber) (hs : (Setting.area a b c d).Sensible) :
    XritTools.areaOf (commas a.text b.text c.text d.text) = .ok ⟨a.value - 1, b.value, c.value - 1, d.value⟩ := by
  obtain ⟨h, ha, hc⟩ := hs
  have e := scan_area a b c d (h a (by simp)).1 (h b (by simp)).1 (h c (by simp)).1 (h d (by simp)).1 [] rfl
  rw [List.append_nil] at e
  have e' : Text.scanf XritTools.areaFormat (commas a.text b.text c.text d.text) = [a.value, b.value, c.value, d.value] := e
  have i1 := (h a (by simp)).2
  have i2 := (h c (by simp)).2
  have j1 : XritTools.int32 (a.value - 1) = .ok (a.value - 1) := by rw [XritTools.int32, if_pos (by omega)]
  have j2 : XritTools.int32 (c.value - 1) = .ok (c.value - 1) := by rw [XritTools.int32, if_pos (by omega)]
  rw [XritTools.areaOf, e']
  simp only [List.getElem?_cons_succ, List.getElem?_cons_zero, Option.getD_some, j1, j2, Outcome.ok_bind, Outcome.pure_eq]

theorem area_asked (ss : List Setting) (hs : ∀ s ∈ ss, s.Sensible) :
    XritTools.areaAsked (last Setting.saysWindow ss) = .ok ((last Setting.saysArea ss).map fun v => ⟨v.1, v.2.1, v.2.2.1, v.2.2.2⟩) := by
  have key : ∀ (ss : List Setting), (∀ s ∈ ss, s.Sensible) →
      (last Setting.saysWindow ss = none ∧ last Setting.saysArea ss = none) ∨
      ∃ a b c d, (Setting.area a b c d).Sensible ∧ last Setting.saysWindow ss = some (commas a.text b.text c.text d.text) ∧
        last Setting.saysArea ss = some (a.value - 1, b.value, c.value - 1, d.value) := by
    intro ss hs
    induction ss with
    | nil => exact .inl ⟨rfl, rfl⟩
    | cons s ss ih =>
      have hstep : ∀ {α : Type} (f : Setting → Option α), last f (s :: ss) = (last f ss).or (f s) := by
        intro α f
        unfold last
        rw [List.filterMap_cons]
        cases hf : f s with
        | none => cases (ss.filterMap f).getLast? <;> rfl
        | some v =>
          dsimp only
          rw [List.getLast?_cons]
          cases (ss.filterMap f).getLast? <;> rfl
      rw [hstep, hstep]
      rcases ih fun x hx => hs x (List.mem_cons_of_mem _ hx) with ⟨h1, h2⟩ | ⟨a, b, c, d, h0, h1, h2⟩
      · rw [h1, h2]
        cases s with
        | area a b c d => exact .inr ⟨a, b, c, d, hs _ List.mem_cons_self, rfl, rfl⟩
        | _ => exact .inl ⟨rfl, rfl⟩
      · rw [h1, h2]
        exact .inr ⟨a, b, c, d, h0, rfl, rfl⟩
  rcases key ss hs with ⟨h1, h2⟩ | ⟨a, b, c, d, h0, h1, h2⟩
  · rw [h1, h2]; rfl
  · rw [h1, h2, XritTools.areaAsked, area_text a b c d h0]; rfl

/-- What XRIT2NetCDF does with a command line is what it does for the product and the last window that have been asked for (see C94). -/
theorem C117_netcdf (w : XritTools.World) (env : Hrit.Env) (ls : Bytes → List Bytes) (disk : Hrit.Disk)
    (readPrologue : Bytes → Outcome (Option XritDataset.Prologue)) {ss : List Setting} {args : List Bytes} (h : CommandLine true ss args) :
    netcdfMain w env ls disk readPrologue args =
      XritTools.xrit2NetCDF w env ls disk readPrologue ⟨last Setting.saysDirectory ss, last Setting.saysResolution ss,
        last Setting.saysProduct1 ss, last Setting.saysProduct2 ss, last Setting.saysTime ss⟩ (last Setting.saysWindow ss) := by
  obtain ⟨a, -, -, -, -, f⟩ := xrit_says ss _ rfl
  have hl := xrit_line .netcdf h
  unfold netcdfMain parse XritTools.xrit2NetCDF
  rw [hl, area_asked ss (xrit_sensible .netcdf h), Outcome.ok_bind, ← f, ← a]
  dsimp only
  have hm : ∀ o : Options, ((if o.subarea then some (o.area.linStart, o.area.nLin, o.area.pixStart, o.area.nPix) else none).map
      fun v => (⟨v.1, v.2.1, v.2.2.1, v.2.2.2⟩ : XritTools.Area)) = if o.subarea then some o.area else none := by
    intro o
    cases o.subarea <;> rfl
  rw [hm]
  cases hp : (ss.foldl settingDoes {}).asked.product with
  | none =>
    dsimp only
    unfold XritTools.netcdfOfArea
    rw [hp]
  | some fa => rfl

/-! ### Examples -/

/-- `-r H --productid1=MSG2 file -cIR_108 --ti 200611141200 -n --outsc=2.5` -/
theorem line117 : CommandLine false [.resolution (str "H"), .product1 (str "MSG2"), .product2 (str "IR_108"), .time (str "200611141200"), .normalize,
    .scale ⟨false, [2], some [5]⟩] [str "-r", str "H", str "--productid1=MSG2", str "file", str "-cIR_108", str "--ti", str "200611141200", str "-n", str "--outsc=2.5"] :=
  .plain _ _ (.setting (.resolution (str "H")) [str "-r", str "H"] _ _ rfl trivial (.apart _ _ rfl)
    (.setting (.product1 (str "MSG2")) [str "--productid1=MSG2"] _ _ rfl trivial (.equals (.product1 (str "MSG2")) (str "productid1") (str "MSG2") rfl (.inl rfl))
      (.word (str "file") _ _ (.inl (by decide))
        (.setting (.product2 (str "IR_108")) [str "-cIR_108"] _ _ rfl trivial (.joined (.product2 (str "IR_108")) (str "IR_108") rfl (by decide))
          (.setting (.time (str "200611141200")) [str "--ti", str "200611141200"] _ _ rfl trivial
            (.next (.time (str "200611141200")) (str "ti") (str "200611141200") rfl (.inr ⟨by decide, by decide⟩))
            (.setting .normalize [str "-n"] _ _ rfl trivial (.letter .normalize rfl)
              (.setting (.scale ⟨false, [2], some [5]⟩) [str "--outsc=2.5"] _ _ rfl (by unfold Setting.Sensible; decide)
                (.equals (.scale ⟨false, [2], some [5]⟩) (str "outsc") (str "2.5") rfl (.inr ⟨by decide, by decide⟩)) .none)))))))

example : ∃ o, parse .image [str "-r", str "H", str "--productid1=MSG2", str "file", str "-cIR_108", str "--ti", str "200611141200", str "-n", str "--outsc=2.5"] = .run o ∧
    o.asked.product = some ⟨str ".", str "H", str "MSG2", str "IR_108", str "200611141200"⟩ ∧ o.scale = 5 / 2 := by
  obtain ⟨o, h1, h2, -, -, h3, -⟩ := C117_settings .image line117 rfl rfl rfl rfl
  refine ⟨o, h1, h2, h3.trans ?_⟩
  decide +kernel

/-- `-a 1,10,2,20`, without the rest. -/
theorem area117 : CommandLine true [.area ⟨false, [1]⟩ ⟨false, [1, 0]⟩ ⟨false, [2]⟩ ⟨false, [2, 0]⟩] [str "-a", str "1,10,2,20"] :=
  .plain _ _ (.setting (.area ⟨false, [1]⟩ ⟨false, [1, 0]⟩ ⟨false, [2]⟩ ⟨false, [2, 0]⟩) [str "-a", str "1,10,2,20"] _ _ rfl (by unfold Setting.Sensible; decide)
    (.apart _ (str "1,10,2,20") rfl) .none)

example : parse .netcdf [str "-a", str "1,10,2,20"] = .exits 1 := C117_obligatory .netcdf area117 (.inl rfl)

example : last Setting.saysArea [.area ⟨false, [1]⟩ ⟨false, [1, 0]⟩ ⟨false, [2]⟩ ⟨false, [2, 0]⟩] = some (0, 10, 1, 20) := by decide +kernel

/-- The window is understood, but the product is missing. -/
example (w : XritTools.World) (env : Hrit.Env) (ls : Bytes → List Bytes) (disk : Hrit.Disk)
    (readPrologue : Bytes → Outcome (Option XritDataset.Prologue)) :
    netcdfMain w env ls disk readPrologue [str "-a", str "1,10,2,20"] = .ok ⟨1, none⟩ :=
  (C117_netcdf w env ls disk readPrologue area117).trans (by
    show XritTools.xrit2NetCDF w env ls disk readPrologue ⟨none, none, none, none, none⟩ (some (str "1,10,2,20")) = _
    rw [XritTools.xrit2NetCDF, show XritTools.areaAsked (some (str "1,10,2,20")) = .ok (some ⟨0, 10, 1, 20⟩) by decide +kernel]
    rfl)

example : parse .netcdf [str "--vers"] = .exits 0 :=
  C117_help .netcdf .none (.inr (.inr (.inr ⟨str "vers", str "version", rfl, by decide, .inr ⟨by decide, by decide⟩⟩))) []

/-- A name that is ambiguous, and the window, which XRIT2Image does not have. -/
example : Wrong false [str "--product=x"] ∧ Wrong false [str "-a1,2,3,4"] := by
  refine ⟨.unknownEquals (str "product") (str "x") (by decide) ?_, .letter 97 (str "1,2,3,4") (by decide) ?_⟩
  · intro n hn hN
    rcases hN with rfl | ⟨h1, h2⟩
    · exact absurd hn (by decide)
    · have a := h2 (str "productid1") (by decide) (by decide)
      have b := h2 (str "productid2") (by decide) (by decide)
      exact absurd (a.trans b.symm) (by decide)
  · intro s hs
    cases s <;> first | exact absurd (show false = true from hs) (by decide) | simp [Setting.letter]

example : (Setting.area ⟨false, [1]⟩ ⟨false, [1, 0]⟩ ⟨false, [2]⟩ ⟨false, [2, 0]⟩).Sensible ∧ (⟨false, [7]⟩ : WholeNumber).digits ≠ [] ∧
    (⟨false, [7]⟩ : WholeNumber).value = 7 := by
  unfold Setting.Sensible; decide

end Msat.Props
