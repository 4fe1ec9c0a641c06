import Verif.Model.IniDump
import Verif.Spec.IniDump
import Verif.Props.C62

/-
C105 Saving a dictionary and reading it back.
-/
namespace Msat.Props
open Ini IniSpec

/-! ### The document that is written -/

/-- The item of an entry in a section. -/
def item105 (n : Bytes) (s : Slot) : Option Item :=
  match s.key with
  | none => none
  | some k =>
    if (n ++ [58]).isPrefixOf k then
      some (.plain [] (k.drop (n.length + 1)) (List.replicate (30 - (k.drop (n.length + 1)).length) 32 ++ [32]) [32] (s.val.getD []) [] none)
    else none

def docOf (slots : List Slot) (names : List Bytes) : List Item :=
  names.flatMap fun n => [.blank [], .sec [] n []] ++ slots.filterMap (item105 n)

theorem render_items (n : Bytes) (slots : List Slot) : render (slots.filterMap (item105 n)) = slots.flatMap (keyLine n) := by
  induction slots with
  | nil => rfl
  | cons s ss ih =>
    rw [List.flatMap_cons, ← ih]
    unfold keyLine
    cases hk : s.key with
    | none =>
      rw [List.filterMap_cons_none (by unfold item105; rw [hk])]
      rfl
    | some k =>
      dsimp only
      by_cases hp : (n ++ [58]).isPrefixOf k = true
      · rw [if_pos hp]
        rw [List.filterMap_cons_some (b := _) (by unfold item105; rw [hk]; dsimp only; rw [if_pos hp])]
        unfold render padded
        rw [List.flatMap_cons]
        simp [Item.text, remarkText]
      · rw [if_neg hp]
        rw [List.filterMap_cons_none (by unfold item105; rw [hk]; dsimp only; rw [if_neg hp])]
        rfl

theorem render_append (a b : List Item) : render (a ++ b) = render a ++ render b := by
  unfold render
  rw [List.flatMap_append]

theorem dumpSections_doc (d : Dict) (names : List Bytes) (hn : ∀ n : Nat, getsecname d n = names[n]?) (hl : ∀ n ∈ names, n.length ≤ 1023)
    (rest : List Bytes) : ∀ i, names.drop i = rest → dumpSections d i rest.length = .ok (render (docOf d.slots rest)) := by
  induction rest with
  | nil => intro i _; rfl
  | cons n rest ih =>
    intro i h
    have h1 : names[i]? = some n := by
      have := List.getElem?_drop (xs := names) (i := i) (j := 0)
      rw [h] at this
      simpa using this.symm
    have h2 : names.drop (i + 1) = rest := by
      rw [← List.drop_drop, h]
      rfl
    have hlen := hl n (List.mem_of_getElem? h1)
    rw [List.length_cons, dumpSections, hn i, h1]
    dsimp only
    unfold dumpSection lineSize
    rw [if_pos (by omega), Outcome.ok_bind, ih (i + 1) h2, Outcome.ok_bind]
    show Outcome.ok _ = Outcome.ok _
    congr 1
    unfold docOf
    rw [List.flatMap_cons, render_append, render_append, render_items]
    simp [render, Item.text]

/-! ### Its entries -/

/-- The operation of an entry in a section. -/
def op105 (n : Bytes) (s : Slot) : Option Op :=
  match s.key with
  | none => none
  | some k => if (n ++ [58]).isPrefixOf k then some (.set (n ++ [58] ++ (k.drop (n.length + 1)).map fold) (some (s.val.getD []))) else none

theorem entries_items (n : Bytes) (slots : List Slot) (rest : List Item) :
    entries n (slots.filterMap (item105 n) ++ rest) = slots.filterMap (op105 n) ++ entries n rest := by
  induction slots with
  | nil => rfl
  | cons s ss ih =>
    cases hk : s.key with
    | none =>
      rw [List.filterMap_cons_none (by unfold item105; rw [hk]), List.filterMap_cons_none (by unfold op105; rw [hk]), ih]
    | some k =>
      by_cases hp : (n ++ [58]).isPrefixOf k = true
      · rw [List.filterMap_cons_some (b := _) (by unfold item105; rw [hk]; dsimp only; rw [if_pos hp]),
          List.filterMap_cons_some (b := _) (by unfold op105; rw [hk]; dsimp only; rw [if_pos hp])]
        rw [List.cons_append, entries, ih]
        rfl
      · rw [List.filterMap_cons_none (by unfold item105; rw [hk]; dsimp only; rw [if_neg hp]),
          List.filterMap_cons_none (by unfold op105; rw [hk]; dsimp only; rw [if_neg hp]), ih]

theorem entries_doc (slots : List Slot) (names : List Bytes) (hf : ∀ n ∈ names, n.map fold = n) : ∀ cur : Bytes,
    entries cur (docOf slots names ++ [.blank []]) = names.flatMap fun n => .set n none :: slots.filterMap (op105 n) := by
  induction names with
  | nil => intro cur; rfl
  | cons n names ih =>
    intro cur
    unfold docOf
    rw [List.flatMap_cons, List.flatMap_cons]
    show entries cur ((.blank [] :: .sec [] n [] :: slots.filterMap (item105 n)) ++ docOf slots names ++ [.blank []]) = _
    rw [List.cons_append, List.cons_append, List.cons_append, List.cons_append, entries, entries, hf n (by simp), List.append_assoc,
      entries_items, ih (fun m hm => hf m (by simp [hm]))]
    rfl

theorem value_consistent (ops : List Op) (k : Bytes) (v : Option (Option Bytes)) (h1 : ∀ op ∈ ops, ∃ x, op = .set k x ∧ v = some x ∨ op.key ≠ k)
    (h2 : v ≠ none → ∃ op ∈ ops, op.key = k) : value ops k = v := by
  have main : ∀ (ops : List Op) (cur : Option (Option Bytes)), (∀ op ∈ ops, ∃ x, op = .set k x ∧ v = some x ∨ op.key ≠ k) →
      (cur = v ∨ ∃ op ∈ ops, op.key = k) →
      ops.foldl (fun cur op => if op.key = k then match op with
        | .set _ v => some v
        | .unset _ => none
      else cur) cur = v := by
    intro ops
    induction ops with
    | nil =>
      intro cur _ h
      rcases h with h | ⟨op, h, _⟩
      · exact h
      · cases h
    | cons op ops ih =>
      intro cur h1 h2
      rw [List.foldl_cons]
      apply ih _ (fun op ho => h1 op (by simp [ho]))
      obtain ⟨x, hx⟩ := h1 op (by simp)
      rcases hx with ⟨rfl, hx⟩ | hx
      · left
        rw [hx]
        exact if_pos rfl
      · rw [if_neg hx]
        rcases h2 with h2 | ⟨op', h, hk⟩
        · exact .inl h2
        · rcases List.mem_cons.1 h with rfl | h
          · exact absurd hk hx
          · exact .inr ⟨op', h, hk⟩
  unfold value
  apply main ops none h1
  by_cases hv : v = none
  · exact .inl hv.symm
  · exact .inr (h2 hv)

/-- The section of a key is what is before its first colon. -/
theorem section_unique {n m k : Bytes} (hn : 58 ∉ n) (hm : 58 ∉ m) {j : Bytes} (h : n ++ 58 :: k = m ++ 58 :: j) : n = m ∧ k = j := by
  induction n generalizing m with
  | nil =>
    cases m with
    | nil => simpa using h
    | cons c cs => simp at h; exact absurd (by rw [← h.1]; simp) hm
  | cons a as ih =>
    cases m with
    | nil => simp at h; exact absurd (by rw [h.1]; simp) hn
    | cons c cs =>
      simp at h
      obtain ⟨h1, h2⟩ := ih (m := cs) (fun h' => hn (by simp [h'])) (fun h' => hm (by simp [h'])) h.2
      exact ⟨by rw [h.1, h1], h2⟩

theorem prefix_section {n k : Bytes} : (n ++ [58]).isPrefixOf k = true ↔ ∃ j, k = n ++ 58 :: j := by
  rw [List.isPrefixOf_iff_prefix]
  constructor
  · rintro ⟨j, h⟩; exact ⟨j, by rw [← h]; simp⟩
  · rintro ⟨j, h⟩; exact ⟨j, by rw [h]; simp⟩

theorem drop_section (n j : Bytes) : (n ++ 58 :: j).drop (n.length + 1) = j := by
  rw [show n ++ 58 :: j = (n ++ [58]) ++ j by simp]
  rw [show n.length + 1 = (n ++ [58]).length by simp, List.drop_left]

theorem saved_value (hist : List Op) (d : Dict) (h : Inv d hist) (hs : Savable hist) (names : List Bytes) (hn : ∀ k, k ∈ names ↔ IsSection hist k)
    (key : Bytes) (v : Option (Option Bytes)) (hv : Kept hist key ∧ v = value hist key ∨ ¬ Kept hist key ∧ v = none) :
    value (names.flatMap fun n => .set n none :: d.slots.filterMap (op105 n)) key = v := by
  have slotv : ∀ s ∈ d.slots, ∀ k, s.key = some k → value hist k = some s.val := by
    intro s hs k hk
    obtain ⟨i, hi⟩ := List.getElem?_of_mem hs
    exact (h.val k s.val).1 ⟨i, s, hi, hk, rfl⟩
  apply value_consistent
  · intro op hop
    obtain ⟨n, hnm, hop⟩ := List.mem_flatMap.1 hop
    have hsec := (hn n).1 hnm
    rcases List.mem_cons.1 hop with rfl | hop
    · by_cases hk : n = key
      · subst hk
        refine ⟨none, .inl ⟨rfl, ?_⟩⟩
        rcases hv with ⟨_, hv⟩ | ⟨hno, _⟩
        · rw [hv, (hs.sections n hsec).1]
        · exact absurd ⟨n, hsec, .inl rfl⟩ hno
      · exact ⟨none, .inr hk⟩
    · obtain ⟨s, hsl, hop⟩ := List.mem_filterMap.1 hop
      unfold op105 at hop
      cases hk : s.key with
      | none => rw [hk] at hop; cases hop
      | some k =>
        rw [hk] at hop
        dsimp only at hop
        by_cases hp : (n ++ [58]).isPrefixOf k = true
        · rw [if_pos hp] at hop
          injection hop with hop
          obtain ⟨j, rfl⟩ := prefix_section.1 hp
          have hval := slotv s hsl _ hk
          obtain ⟨t, ht, hw⟩ := hs.keys n j s.val hsec hval
          rw [drop_section, hw.2.2.2.1, ht] at hop
          subst hop
          by_cases hkey : n ++ [58] ++ j = key
          · subst hkey
            refine ⟨some t, .inl ⟨rfl, ?_⟩⟩
            rcases hv with ⟨_, hv⟩ | ⟨hno, _⟩
            · rw [hv, ← ht, ← hval]
              simp
            · exact absurd ⟨n, hsec, .inr ⟨j, by simp⟩⟩ hno
          · exact ⟨some t, .inr hkey⟩
        · rw [if_neg hp] at hop; cases hop
  · intro hv0
    rcases hv with ⟨⟨n, hsec, hk⟩, hv⟩ | ⟨_, hv⟩
    · rcases hk with rfl | ⟨j, rfl⟩
      · exact ⟨.set key none, List.mem_flatMap.2 ⟨key, (hn _).2 hsec, by simp⟩, rfl⟩
      · obtain ⟨w, hw⟩ := Option.ne_none_iff_exists'.1 hv0
        rw [hv] at hw
        obtain ⟨i, s, hi, hk, hsv⟩ := (h.val _ w).2 hw
        obtain ⟨t, ht, hwr⟩ := hs.keys n j w hsec hw
        refine ⟨.set (n ++ [58] ++ j) (some t), List.mem_flatMap.2 ⟨n, (hn n).2 hsec, ?_⟩, by simp [Op.key]⟩
        refine List.mem_cons_of_mem _ (List.mem_filterMap.2 ⟨s, List.mem_of_getElem? hi, ?_⟩)
        unfold op105
        rw [hk]
        dsimp only
        rw [if_pos (prefix_section.2 ⟨j, rfl⟩), drop_section, hwr.2.2.2.1, hsv, ht]
        rfl
    · exact absurd hv hv0

theorem blanks_spaces (n : Nat) : IsBlanks (List.replicate n 32 ++ [32]) := by
  intro c hc
  left
  rcases List.mem_append.1 hc with h | h
  · exact List.eq_of_mem_replicate h
  · simpa using h

theorem doc_ok (hist : List Op) (d : Dict) (h : Inv d hist) (hs : Savable hist) (names : List Bytes) (hn : ∀ k, k ∈ names ↔ IsSection hist k) :
    ∀ i ∈ docOf d.slots names ++ [.blank []], i.Ok ∧ i.Line := by
  have hb : (Item.blank []).Ok ∧ (Item.blank []).Line := ⟨fun c hc => (by cases hc), by simp [Item.Line, Item.text]⟩
  intro i hi
  rcases List.mem_append.1 hi with hi | hi
  · obtain ⟨n, hnm, hi⟩ := List.mem_flatMap.1 hi
    have hsec := (hn n).1 hnm
    obtain ⟨h1, h2, h3, h4, h5, h6⟩ := (hs.sections n hsec).2
    rcases List.mem_append.1 hi with hi | hi
    · simp only [List.mem_cons, List.not_mem_nil, or_false] at hi
      rcases hi with rfl | rfl
      · exact hb
      · refine ⟨⟨fun c hc => (by cases hc), h1, h2⟩, ?_, ?_, ?_⟩
        · simp [Item.text, h3]
        · simp [Item.text, h4]
        · simp [Item.text]; omega
    · obtain ⟨s, hsl, hi⟩ := List.mem_filterMap.1 hi
      unfold item105 at hi
      cases hk : s.key with
      | none => rw [hk] at hi; cases hi
      | some k =>
        rw [hk] at hi
        dsimp only at hi
        by_cases hp : (n ++ [58]).isPrefixOf k = true
        · rw [if_pos hp] at hi
          injection hi with hi
          obtain ⟨j, rfl⟩ := prefix_section.1 hp
          obtain ⟨idx, hidx⟩ := List.getElem?_of_mem hsl
          have hval := (h.val _ s.val).1 ⟨idx, s, hidx, hk, rfl⟩
          obtain ⟨t, ht, k1, k2, k3, k4, k5, k6, t1, t2, t3, t4, t5, t6, hlen⟩ := hs.keys n j s.val hsec hval
          rw [drop_section, ht] at hi
          subst hi
          have hsp : ∀ c, c ∈ List.replicate (30 - j.length) (32 : UInt8) → c = 32 := fun c hc => List.eq_of_mem_replicate hc
          refine ⟨⟨fun c hc => (by cases hc), blanks_spaces _, fun c hc => .inl (by simpa using hc), fun c hc => (by cases hc), k1, k2, k3, t1, t2,
            t3, t4, fun m t hm => by cases hm⟩, ?_, ?_, ?_⟩
          · simp [Item.text, remarkText, k5, t5]
          · simp [Item.text, remarkText, k6, t6]
          · simp [Item.text, remarkText]; omega
        · rw [if_neg hp] at hi; cases hi
  · simp only [List.mem_cons, List.not_mem_nil, or_false] at hi
    subst hi
    exact hb

/-! ### The round trip -/

/-- A dictionary that has been saved with `iniparser_dump_ini` and is read back has the same sections, keys and values, whatever the
operations that made it; keys outside of sections are lost. -/
theorem C105_round_trip_partial (size : Nat) (hist : List Op) (d : Dict) (hd : runOps (newDict size) hist = .ok d) (hs : Savable hist) :
    ∃ text d', dumpIni d = .ok text ∧ iniNew (some text) = .ok (some d') ∧ ∀ key : Bytes, key.length ≤ 1024 → Ini.hash (key.map fold) ≠ 0 →
      (Kept hist (key.map fold) → getstring d' key = getstring d key) ∧ (¬ Kept hist (key.map fold) → getstring d' key = .ok .default) := by
  have h := inv_of_run hd
  obtain ⟨d0, e0, names, _, hn, hns, hsn, _⟩ := C37_sections size hist
  rw [hd] at e0
  injection e0 with e0
  subst e0
  have hne : names ≠ [] := by
    obtain ⟨n, hn'⟩ := hs.some
    exact List.ne_nil_of_mem ((hn n).2 hn')
  have hlen : 0 < names.length := List.length_pos_iff.2 hne
  have hsec := fun n hm => (hs.sections n ((hn n).1 hm)).2
  obtain ⟨d', hread, hrun, hget⟩ := C62_read_partial (docOf d.slots names ++ [.blank []]) (doc_ok hist d h hs names hn)
  refine ⟨render (docOf d.slots names ++ [.blank []]), d', ?_, hread, ?_⟩
  · unfold dumpIni
    rw [hns, if_neg (by omega),
      dumpSections_doc d names hsn (fun n hm => by have := (hsec n hm).2.2.2.2.2; omega) names 0 rfl, Outcome.ok_bind, render_append]
    rfl
  · intro key hkl hz
    have hg := hget key hkl (.inl hz)
    rw [entries_doc d.slots names (fun n hm => (hsec n hm).2.2.2.2.1)] at hg
    have hgd : getstring d key = .ok (match value hist (key.map fold) with | none => .default | some v => .value v) := by
      unfold getstring
      rw [strlwc_fold hkl]
      exact get_inv h _ hz
    constructor
    · intro hk
      rw [hg, hgd, saved_value hist d h hs names hn _ _ (.inl ⟨hk, rfl⟩)]
      cases value hist (key.map fold) <;> rfl
    · intro hk
      rw [hg, saved_value hist d h hs names hn _ none (.inr ⟨hk, rfl⟩)]

/-- What is read after a dictionary has been saved. -/
def savedAndRead (hist : List Op) (key : Bytes) : Outcome Found := do
  let d ← runOps (newDict 0) hist
  let text ← dumpIni d
  match ← iniNew (some text) with
  | none => .ok .default
  | some d' => getstring d' key

/-- The history of the examples: two entries in a section, one of them changed, and one outside. -/
def hist105 : List Op :=
  [.set (str "img") none, .set (str "img:w") (some (str "1")), .set (str ":x") (some (str "y")), .set (str "img:path") (some (str "a b")),
   .set (str "img:w") (some (str "20"))]

theorem hist105_value (k : Bytes) : value hist105 k =
    if k = str "img" then some none else if k = str "img:w" then some (some (str "20")) else if k = str ":x" then some (some (str "y")) else
      if k = str "img:path" then some (some (str "a b")) else none := by
  by_cases h1 : k = str "img"
  · subst h1; decide +kernel
  by_cases h2 : k = str "img:w"
  · subst h2; decide +kernel
  by_cases h3 : k = str ":x"
  · subst h3; decide +kernel
  by_cases h4 : k = str "img:path"
  · subst h4; decide +kernel
  rw [if_neg h1, if_neg h2, if_neg h3, if_neg h4]
  have g1 := Ne.symm h1
  have g2 := Ne.symm h2
  have g3 := Ne.symm h3
  have g4 := Ne.symm h4
  exact (if_neg g2).trans ((if_neg g4).trans ((if_neg g3).trans ((if_neg g2).trans (if_neg g1))))

theorem neat_of {k : Bytes} (a b : UInt8) (r l : Bytes) (h1 : k = a :: r) (h2 : k = l ++ [b]) (h3 : a ∉ [32, 9, 11, 12, 13]) (h4 : b ∉ [32, 9, 11, 12, 13]) :
    Neat k := by
  refine ⟨⟨a, r, h1, ?_⟩, ⟨b, l, h2, ?_⟩⟩
  · intro h
    exact h3 (by simpa using h a (by simp))
  · intro h
    exact h4 (by simpa using h b (by simp))

theorem hist105_savable : Savable hist105 := by
  have hsec : ∀ n, IsSection hist105 n → n = str "img" := by
    rintro n ⟨hv, hc⟩
    rw [hist105_value] at hv
    by_cases h1 : n = str "img"
    · exact h1
    by_cases h2 : n = str "img:w"
    · subst h2; exact absurd hc (by decide +kernel)
    by_cases h3 : n = str ":x"
    · subst h3; exact absurd hc (by decide +kernel)
    by_cases h4 : n = str "img:path"
    · subst h4; exact absurd hc (by decide +kernel)
    rw [if_neg h1, if_neg h2, if_neg h3, if_neg h4] at hv
    cases hv
  refine ⟨⟨str "img", by rw [IsSection, hist105_value]; decide +kernel⟩, ?_, ?_⟩
  · intro n hn
    rw [hsec n hn]
    refine ⟨by decide +kernel, ?_⟩
    unfold WritableName
    decide +kernel
  · intro n k v hn hv
    rw [hsec n hn] at hv
    rw [hist105_value] at hv
    by_cases h2 : k = str "w"
    · subst h2
      rw [if_neg (by decide +kernel), if_pos (by decide +kernel)] at hv
      injection hv with hv
      refine ⟨str "20", hv.symm, neat_of 119 119 [] [] (by decide +kernel) (by decide +kernel) (by decide) (by decide), ?_⟩
      have : Neat (str "20") := neat_of 50 48 [48] [50] (by decide +kernel) (by decide +kernel) (by decide) (by decide)
      simp only [this, true_and]
      decide +kernel
    by_cases h4 : k = str "path"
    · subst h4
      rw [if_neg (by decide +kernel), if_neg (by decide +kernel), if_neg (by decide +kernel), if_pos (by decide +kernel)] at hv
      injection hv with hv
      refine ⟨str "a b", hv.symm, neat_of 112 104 (str "ath") (str "pat") (by decide +kernel) (by decide +kernel) (by decide) (by decide), ?_⟩
      have : Neat (str "a b") := neat_of 97 98 (str " b") (str "a ") (by decide +kernel) (by decide +kernel) (by decide) (by decide)
      simp only [this, true_and]
      decide +kernel
    exfalso
    have e1 : str "img" ++ 58 :: k ≠ str "img" := by
      intro e
      have := congrArg List.length e
      simp at this
    have e2 : str "img" ++ 58 :: k ≠ str "img:w" := fun e => h2 (List.cons.inj (List.append_cancel_left (e.trans (show str "img:w" = str "img" ++ 58 :: str "w" by decide +kernel)))).2
    have e3 : str "img" ++ 58 :: k ≠ str ":x" := by
      intro e
      have := congrArg List.head? e
      revert this
      show ¬ some 105 = some 58
      decide
    have e4 : str "img" ++ 58 :: k ≠ str "img:path" := fun e => h4 (List.cons.inj (List.append_cancel_left (e.trans (show str "img:path" = str "img" ++ 58 :: str "path" by decide +kernel)))).2
    rw [if_neg e1, if_neg e2, if_neg e3, if_neg e4] at hv
    cases hv

/-- The dictionary of the example is saved and read back. -/
example : Savable hist105 ∧ Kept hist105 (str "img:w") ∧ ¬ Kept hist105 (str ":x") ∧ savedAndRead hist105 (str "IMG:W") = .ok (.value (some (str "20"))) ∧
    savedAndRead hist105 (str "img:path") = .ok (.value (some (str "a b"))) ∧ savedAndRead hist105 (str ":x") = .ok .default := by
  have hi : IsSection hist105 (str "img") := by rw [IsSection, hist105_value]; decide +kernel
  refine ⟨hist105_savable, ⟨str "img", hi, .inr ⟨str "w", by decide +kernel⟩⟩, ?_, by decide +kernel⟩
  rintro ⟨n, hn, hk⟩
  have hn0 := (hist105_savable.sections n hn).2.1
  obtain ⟨c, cs, rfl⟩ := List.exists_cons_of_ne_nil hn0
  have hc : c ≠ 58 := fun e => hn.2 (by rw [e]; simp)
  have hx : str ":x" = 58 :: str "x" := by decide +kernel
  rw [hx] at hk
  rcases hk with hk | ⟨j, hk⟩
  · injection hk with e; exact hc e.symm
  · injection hk with e; exact hc e.symm

/-- Discrepancy: a key outside of sections, like those of a file before its first section, is not saved. -/
theorem C105_violated_outside (size : Nat) (hist : List Op) (d : Dict) (hd : runOps (newDict size) hist = .ok d) (hs : Savable hist)
    (k v : Bytes) (hk : k.map fold = k) (hl : k.length ≤ 1023) (hz : Ini.hash (58 :: k) ≠ 0) (hv : value hist (58 :: k) = some (some v)) :
    getstring d (58 :: k) = .ok (.value (some v)) ∧
    ∃ text d', dumpIni d = .ok text ∧ iniNew (some text) = .ok (some d') ∧ getstring d' (58 :: k) = .ok .default := by
  have hfold : (58 :: k).map fold = 58 :: k := by
    rw [List.map_cons, hk]
    rfl
  have hlen : (58 :: k).length ≤ 1024 := by simpa using hl
  refine ⟨?_, ?_⟩
  · unfold getstring
    rw [strlwc_fold hlen, hfold, get_inv (inv_of_run hd) _ hz, hv]
  · obtain ⟨text, d', h1, h2, h3⟩ := C105_round_trip_partial size hist d hd hs
    refine ⟨text, d', h1, h2, (h3 (58 :: k) hlen (by rw [hfold]; exact hz)).2 ?_⟩
    rw [hfold]
    rintro ⟨n, hn, hkn⟩
    have hn0 := (hs.sections n hn).2.1
    obtain ⟨c, cs, rfl⟩ := List.exists_cons_of_ne_nil hn0
    have hc : c ≠ 58 := fun e => hn.2 (by rw [e]; simp)
    rcases hkn with hkn | ⟨j, hkn⟩
    · injection hkn with e; exact hc e.symm
    · injection hkn with e; exact hc e.symm

/-- The key outside of the section in the example. -/
example : ∃ d, runOps (newDict 0) hist105 = .ok d ∧ value hist105 (58 :: str "x") = some (some (str "y")) ∧ Ini.hash (58 :: str "x") ≠ 0 := by
  obtain ⟨d, e, _⟩ := C37_sections 0 hist105
  exact ⟨d, e, by decide +kernel⟩

/-- Discrepancy: a section name of 1024 characters, which `iniparser_setstr` accepts, is written after the end of a buffer. -/
theorem C105_violated_overflow (n : Bytes) (hn : n.length = 1024) (hc : 58 ∉ n) :
    ∃ d, runOps (newDict 0) [.set n none] = .ok d ∧ dumpIni d = .ub := by
  obtain ⟨d, e, names, hnd, hm, hns, hsn, _⟩ := C37_sections 0 [.set n none]
  refine ⟨d, e, ?_⟩
  have hmem : ∀ k, k ∈ names ↔ k = n := by
    intro k
    rw [hm]
    unfold IsSection value
    by_cases hk : n = k
    · subst hk; simp [Op.key, hc]
    · simp [Op.key, hk, Ne.symm hk]
  have hnames : names = [n] := by
    cases names with
    | nil => exact absurd ((hmem n).2 rfl) (by simp)
    | cons a as =>
      have ha := (hmem a).1 (by simp)
      subst ha
      cases as with
      | nil => rfl
      | cons b bs =>
        have hb := (hmem b).1 (by simp)
        subst hb
        simp at hnd
  subst hnames
  unfold dumpIni
  rw [hns, if_neg (by simp)]
  show (dumpSections d 0 1).bind _ = _
  rw [dumpSections, hsn 0]
  dsimp only [List.getElem?_cons_zero]
  unfold dumpSection lineSize
  rw [if_neg (by omega)]
  rfl

theorem dumpPlain_zero (n : Nat) : dumpPlain (List.replicate n Slot.zero) = .ok [] := by
  induction n with
  | zero => rfl
  | succ n ih => rw [List.replicate_succ, dumpPlain]; exact ih

/-- A dictionary with one entry. -/
theorem one_entry (k : Bytes) (v : Option Bytes) :
    ∃ n, runOps (newDict 0) [.set k v] = .ok ⟨1, ⟨some k, v, Ini.hash k⟩ :: List.replicate n Slot.zero⟩ := by
  refine ⟨127, ?_⟩
  have h1 : newDict 0 = ⟨0, Slot.zero :: List.replicate 127 Slot.zero⟩ := rfl
  rw [h1]
  generalize 127 = n
  rw [runOps]
  have hset : Ini.set ⟨0, Slot.zero :: List.replicate n Slot.zero⟩ k v = .ok ⟨1, ⟨some k, v, Ini.hash k⟩ :: List.replicate n Slot.zero⟩ := by
    unfold Ini.set
    have h0 : ¬ ((0 : Int) > 0) := by decide
    simp only [if_neg h0]
    unfold Ini.insert
    have h1 : ¬ ((0 : Int) = ((Slot.zero :: List.replicate n Slot.zero).length : Int)) := by
      rw [List.length_cons]
      omega
    simp only [if_neg h1]
    rfl
  rw [hset]
  rfl

theorem nsec_one (c : Int) (n : Nat) (k : Bytes) (v : Option Bytes) (h : UInt32) :
    getnsec ⟨c, ⟨some (58 :: k), v, h⟩ :: List.replicate n Slot.zero⟩ = 0 := by
  unfold getnsec
  rw [foldl_count]
  have h1 : Slot.isSection ⟨some (58 :: k), v, h⟩ = false := by simp [Slot.isSection]
  have h2 : (List.replicate n Slot.zero).countP Slot.isSection = 0 := by
    rw [List.countP_eq_zero]
    intro s hs
    rw [List.eq_of_mem_replicate hs]
    simp [Slot.isSection, Slot.zero]
  rw [List.countP_cons, h1, h2]
  simp

/-- Discrepancy: a file without sections is not read back as it was: `k = v` is saved as `:k = v`, which is another key. -/
theorem C105_violated_no_section (k v : Bytes) (h : Writable k v) (hl : k.length + v.length ≤ 1000) (hz : Ini.hash (58 :: k) ≠ 0) (hz2 : Ini.hash (58 :: 58 :: k) ≠ 0) :
    ∃ d text d', iniNew (some (k ++ [32, 61, 32] ++ v ++ [10])) = .ok (some d) ∧ getstring d (58 :: k) = .ok (.value (some v)) ∧
      dumpIni d = .ok text ∧ iniNew (some text) = .ok (some d') ∧ getstring d' (58 :: k) = .ok .default ∧
      getstring d' (58 :: 58 :: k) = .ok (.value (some v)) := by
  obtain ⟨k1, k2, k3, k4, k5, k6, t1, t2, t3, t4, t5, t6, hlen⟩ := h
  have mk : ∀ kk : Bytes, Neat kk → 61 ∉ kk → kk.head? ∉ [some 91, some 59, some 35] → 10 ∉ kk → 0 ∉ kk → kk.length ≤ k.length + 1 →
      ∀ i ∈ [Item.plain [] kk [32] [32] v [] none], i.Ok ∧ i.Line := by
    intro kk a1 a2 a3 a4 a5 a6 i hi
    simp only [List.mem_cons, List.not_mem_nil, or_false] at hi
    subst hi
    refine ⟨⟨fun c hc => (by cases hc), fun c hc => .inl (by simpa using hc), fun c hc => .inl (by simpa using hc), fun c hc => (by cases hc), a1, a2, a3,
      t1, t2, t3, t4, fun m t hm => by cases hm⟩, ?_, ?_, ?_⟩
    · simp [Item.text, remarkText, a4, t5]
    · simp [Item.text, remarkText, a5, t6]
    · simp [Item.text, remarkText]; omega
  have hr : ∀ kk : Bytes, render [Item.plain [] kk [32] [32] v [] none] = kk ++ [32, 61, 32] ++ v ++ [10] := by
    intro kk
    simp [render, Item.text, remarkText]
  obtain ⟨d, hd1, hd2, hd3⟩ := C62_read_partial [Item.plain [] k [32] [32] v [] none] (mk k k1 k2 k3 k5 k6 (by omega))
  have hneat : Neat (58 :: k) := by
    refine ⟨⟨58, k, rfl, ?_⟩, ?_⟩
    · intro hb
      have := hb 58 (by simp)
      revert this
      decide
    · obtain ⟨c, r, hc, hb⟩ := k1.2
      exact ⟨c, 58 :: r, by rw [hc]; rfl, hb⟩
  obtain ⟨d', he1, he2, he3⟩ := C62_read_partial [Item.plain [] (58 :: k) [32] [32] v [] none]
    (mk (58 :: k) hneat (by simp [k2]) (by simp) (by simp [k5]) (by simp [k6]) (by simp))
  have hops : entries [] [Item.plain [] k [32] [32] v [] none] = [.set (58 :: k) (some v)] := by
    show [Op.set ([] ++ [58] ++ k.map fold) (some v)] = _
    rw [k4]
    rfl
  have hfold : (58 :: k).map fold = 58 :: k := by rw [List.map_cons, k4]; rfl
  have hfold2 : (58 :: 58 :: k).map fold = 58 :: 58 :: k := by rw [List.map_cons, hfold]; rfl
  have hops2 : entries [] [Item.plain [] (58 :: k) [32] [32] v [] none] = [.set (58 :: 58 :: k) (some v)] := by
    show [Op.set ([] ++ [58] ++ (58 :: k).map fold) (some v)] = _
    rw [hfold]
    rfl
  rw [hr] at hd1 he1
  rw [hops] at hd2 hd3
  rw [hops2] at he2 he3
  refine ⟨d, _, d', hd1, ?_, ?_, he1, ?_, ?_⟩
  · rw [hd3 (58 :: k) (by simp; omega) (.inl (by rw [hfold]; exact hz)), hfold]
    simp [value, Op.key]
  · obtain ⟨n, hone⟩ := one_entry (58 :: k) (some v)
    have hd2 := Outcome.ok.inj (hone.symm.trans hd2)
    subst hd2
    unfold dumpIni
    rw [nsec_one, if_pos (by decide), dumpPlain]
    dsimp only
    rw [dumpPlain_zero]
    show Outcome.ok _ = Outcome.ok _
    rw [List.append_nil]
  · rw [he3 (58 :: k) (by simp; omega) (.inl (by rw [hfold]; exact hz)), hfold]
    have : (58 :: 58 :: k : Bytes) ≠ 58 :: k := by
      intro e
      have := congrArg List.length e
      simp at this
    simp [value, Op.key, this]
  · rw [he3 (58 :: 58 :: k) (by simp; omega) (.inl (by rw [hfold2]; exact hz2)), hfold2]
    simp [value, Op.key]

/-- Such a key and value, and such a section name: -/
theorem writable_example : Writable (str "k") (str "v") ∧ WritableName (str "s") := by
  have h1 : Neat (str "k") := neat_of 107 107 [] [] (by decide +kernel) (by decide +kernel) (by decide) (by decide)
  have h2 : Neat (str "v") := neat_of 118 118 [] [] (by decide +kernel) (by decide +kernel) (by decide) (by decide)
  unfold Writable WritableName
  simp only [h1, h2, true_and]
  decide +kernel

example : Writable (str "k") (str "v") ∧ Ini.hash (58 :: str "k") ≠ 0 ∧ Ini.hash (58 :: 58 :: str "k") ≠ 0 ∧
    WritableName (str "s") ∧ (58 : UInt8) ∉ str "s" ∧ Ini.hash (str "s" ++ 58 :: str "k") ≠ 0 :=
  ⟨writable_example.1, by decide +kernel, by decide +kernel, writable_example.2, by decide +kernel, by decide +kernel⟩

/-- Discrepancy: values are saved without quotes, so that a value with a semicolon or a hash sign, which can be read from a quoted text,
is cut there when it is read back. -/
theorem C105_violated_remark (n k a b : Bytes) (m : UInt8) (hm : m ∈ marks) (hn : WritableName n) (hnc : 58 ∉ n) (h : Writable k a)
    (hb : 10 ∉ b ∧ 0 ∉ b) (hl : max 30 k.length + 4 + a.length + b.length ≤ 1022) (hz : Ini.hash (n ++ 58 :: k) ≠ 0) (hkl : n.length + k.length ≤ 1000) :
    ∃ d text d', runOps (newDict 0) [.set n none, .set (n ++ 58 :: k) (some (a ++ m :: b))] = .ok d ∧ dumpIni d = .ok text ∧
      iniNew (some text) = .ok (some d') ∧ getstring d' (n ++ 58 :: k) = .ok (.value (some a)) := by
  obtain ⟨d, e, names, hnd, hmem, hns, hsn, _⟩ := C37_sections 0 [.set n none, .set (n ++ 58 :: k) (some (a ++ m :: b))]
  have hinv := inv_of_run e
  have hne : n ++ 58 :: k ≠ n := by
    intro e
    have := congrArg List.length e
    simp at this
  have hval : ∀ q, value [.set n none, .set (n ++ 58 :: k) (some (a ++ m :: b))] q =
      if q = n then some none else if q = n ++ 58 :: k then some (some (a ++ m :: b)) else none := by
    intro q
    by_cases h1 : q = n
    · subst h1; simp [value, Op.key, hne]
    · by_cases h2 : q = n ++ 58 :: k
      · subst h2; simp [value, Op.key]
      · simp [value, Op.key, Ne.symm h1, Ne.symm h2, h1, h2]
  have hmem' : ∀ q, q ∈ names ↔ q = n := by
    intro q
    rw [hmem]
    unfold IsSection
    rw [hval]
    by_cases h1 : q = n
    · subst h1; simp [hnc]
    · rw [if_neg h1]
      by_cases h2 : q = n ++ 58 :: k
      · subst h2; simp
      · simp [h1, h2]
  have hnames : names = [n] := by
    cases names with
    | nil => exact absurd ((hmem' n).2 rfl) (by simp)
    | cons x xs =>
      have ha := (hmem' x).1 (by simp)
      subst ha
      cases xs with
      | nil => rfl
      | cons y ys =>
        have hb := (hmem' y).1 (by simp)
        subst hb
        simp at hnd
  subst hnames
  obtain ⟨n1, n2, n3, n4, n5, n6⟩ := hn
  obtain ⟨k1, k2, k3, k4, k5, k6, t1, t2, t3, t4, t5, t6, hlen⟩ := h
  -- the lines of the section: only one slot has this key
  have hlines : d.slots.flatMap (keyLine n) = padded k ++ [32, 61, 32] ++ (a ++ m :: b) ++ [10] := by
    obtain ⟨i, s, hi, hk, hsv⟩ := (hinv.val (n ++ 58 :: k) (some (a ++ m :: b))).2 (by rw [hval, if_neg hne, if_pos rfl])
    have hother : ∀ (j : Nat) t, d.slots[j]? = some t → j ≠ i → keyLine n t = [] := by
      intro j t hj hji
      unfold keyLine
      cases hkt : t.key with
      | none => rfl
      | some kt =>
        dsimp only
        rw [if_neg]
        intro hp
        obtain ⟨q, rfl⟩ := prefix_section.1 hp
        have hv := (hinv.val (n ++ 58 :: q) t.val).1 ⟨j, t, hj, hkt, rfl⟩
        rw [hval] at hv
        have hne' : n ++ 58 :: q ≠ n := by
          intro e
          have := congrArg List.length e
          simp at this
        rw [if_neg hne'] at hv
        by_cases hq : n ++ 58 :: q = n ++ 58 :: k
        · rw [hq] at hkt
          exact hji (hinv.uq j i t s _ hj hi hkt hk)
        · rw [if_neg hq] at hv; cases hv
    have hthis : keyLine n s = padded k ++ [32, 61, 32] ++ (a ++ m :: b) ++ [10] := by
      unfold keyLine
      rw [hk]
      dsimp only
      rw [if_pos (prefix_section.2 ⟨k, rfl⟩), drop_section, hsv]
      rfl
    rw [← hthis]
    clear hthis hsv hk hval hmem hmem' hinv e hns hsn hnd
    generalize d.slots = l at hi hother
    induction l generalizing i with
    | nil => simp at hi
    | cons x xs ih =>
      rw [List.flatMap_cons]
      cases i with
      | zero =>
        simp at hi
        subst hi
        have : xs.flatMap (keyLine n) = [] := by
          rw [List.flatMap_eq_nil_iff]
          intro t ht
          obtain ⟨j, hj⟩ := List.getElem?_of_mem ht
          exact hother (j + 1) t (by simpa using hj) (by omega)
        rw [this, List.append_nil]
      | succ i =>
        rw [hother 0 x rfl (by omega), List.nil_append]
        exact ih i (by simpa using hi) fun j t hj hji => hother (j + 1) t (by simpa using hj) (by omega)
  have hok : ∀ i ∈ [Item.blank [], .sec [] n [], .plain [] k (List.replicate (30 - k.length) 32 ++ [32]) [32] a [] (some (m, b)), .blank []], i.Ok ∧ i.Line := by
    have hb' : (Item.blank []).Ok ∧ (Item.blank []).Line := ⟨fun c hc => (by cases hc), by simp [Item.Line, Item.text]⟩
    have hm10 : m ≠ 10 ∧ m ≠ 0 := by
      simp only [marks, List.mem_cons, List.not_mem_nil, or_false] at hm
      rcases hm with rfl | rfl <;> decide
    intro i hi
    simp only [List.mem_cons, List.not_mem_nil, or_false] at hi
    rcases hi with rfl | rfl | rfl | rfl
    · exact hb'
    · refine ⟨⟨fun c hc => (by cases hc), n1, n2⟩, ?_, ?_, ?_⟩
      · simp [Item.text, n3]
      · simp [Item.text, n4]
      · simp [Item.text]; omega
    · refine ⟨⟨fun c hc => (by cases hc), blanks_spaces _, fun c hc => .inl (by simpa using hc), fun c hc => (by cases hc), k1, k2, k3, t1, t2,
        t3, t4, fun m' t hm' => by injection hm' with hm'; injection hm' with h1 h2; subst h1; exact hm⟩, ?_, ?_, ?_⟩
      · simp [Item.text, remarkText, k5, t5, hb.1, Ne.symm hm10.1]
      · simp [Item.text, remarkText, k6, t6, hb.2, Ne.symm hm10.2]
      · simp [Item.text, remarkText]; omega
    · exact hb'
  obtain ⟨d', hd1, hd2, hd3⟩ := C62_read_partial _ hok
  refine ⟨d, _, d', e, ?_, hd1, ?_⟩
  · unfold dumpIni
    rw [hns, if_neg (by simp)]
    show (dumpSections d 0 1).bind _ = _
    rw [dumpSections, hsn 0]
    dsimp only [List.getElem?_cons_zero]
    unfold dumpSection lineSize
    rw [if_pos (by omega), Outcome.ok_bind, dumpSections, hlines]
    rw [Outcome.ok_bind]
    refine congrArg Outcome.ok ?_
    simp [render, Item.text, remarkText, padded]
  · have hfold : (n ++ 58 :: k).map fold = n ++ 58 :: k := by
      rw [List.map_append, List.map_cons, n5, k4]
      rfl
    rw [hd3 (n ++ 58 :: k) (by simp; omega) (.inl (by rw [hfold]; exact hz)), hfold]
    have : entries [] [Item.blank [], .sec [] n [], .plain [] k (List.replicate (30 - k.length) 32 ++ [32]) [32] a [] (some (m, b)), .blank []] =
        [.set n none, .set (n ++ 58 :: k) (some a)] := by
      show [Op.set (n.map fold) none, Op.set (n.map fold ++ [58] ++ k.map fold) (some a)] = _
      rw [n5, k4]
      simp
    rw [this]
    simp [value, Op.key]

/-- Discrepancy: an empty value is not read back: its line is ignored. -/
theorem C105_violated_empty_value :
    savedAndRead [.set (str "s") none, .set (str "s:k") (some []), .set (str "s:j") (some (str "1"))] (str "s:k") = .ok .default ∧
    savedAndRead [.set (str "s") none, .set (str "s:k") (some []), .set (str "s:j") (some (str "1"))] (str "s:j") = .ok (.value (some (str "1"))) := by
  decide +kernel

/-- Discrepancy: without any section, an entry without value makes a null pointer be printed. -/
theorem C105_violated_null (k : Bytes) : ∃ d, runOps (newDict 0) [.set (58 :: k) none] = .ok d ∧ dumpIni d = .ub := by
  obtain ⟨n, hone⟩ := one_entry (58 :: k) none
  refine ⟨_, hone, ?_⟩
  unfold dumpIni
  rw [nsec_one, if_pos (by decide)]
  rfl

/-- `iniparser_dump`: a line for each entry, in the order of the positions, and nothing else. -/
theorem C105_dump (size : Nat) (hist : List Op) (d : Dict) (hd : runOps (newDict size) hist = .ok d) :
    ∃ keys : List Bytes, keys.Nodup ∧ (∀ k, k ∈ keys ↔ value hist k ≠ none) ∧
      dump d = keys.flatMap fun k => [91] ++ k ++ [93, 61] ++ (match value hist k with
        | some (some v) => [91] ++ v ++ [93]
        | _ => str "UNDEF") ++ [10] := by
  have h := inv_of_run hd
  refine ⟨d.slots.filterMap (·.key), ?_, ?_, ?_⟩
  · have huq := h.uq
    generalize d.slots = l at huq
    induction l with
    | nil => exact List.nodup_nil
    | cons s l ih =>
      have ih := ih (fun i j a b k ha hb hka hkb => by
        have := huq (i + 1) (j + 1) a b k (by simpa using ha) (by simpa using hb) hka hkb
        omega)
      cases hk : s.key with
      | none => rw [List.filterMap_cons_none hk]; exact ih
      | some k =>
        rw [List.filterMap_cons_some hk, List.nodup_cons]
        refine ⟨fun hm => ?_, ih⟩
        obtain ⟨t, ht, htk⟩ := List.mem_filterMap.1 hm
        obtain ⟨j, hj⟩ := List.getElem?_of_mem ht
        have := huq 0 (j + 1) s t k rfl (by simpa using hj) hk htk
        omega
  · intro k
    rw [List.mem_filterMap]
    constructor
    · rintro ⟨s, hs, hk⟩
      obtain ⟨i, hi⟩ := List.getElem?_of_mem hs
      rw [(h.val k s.val).1 ⟨i, s, hi, hk, rfl⟩]
      simp
    · intro hv
      obtain ⟨v, hv⟩ := Option.ne_none_iff_exists'.1 hv
      obtain ⟨i, s, hi, hk, _⟩ := (h.val k v).2 hv
      exact ⟨s, List.mem_of_getElem? hi, hk⟩
  · unfold dump
    have hsv : ∀ s ∈ d.slots, ∀ k, s.key = some k → value hist k = some s.val := by
      intro s hs k hk
      obtain ⟨i, hi⟩ := List.getElem?_of_mem hs
      exact (h.val k s.val).1 ⟨i, s, hi, hk, rfl⟩
    generalize d.slots = l at hsv
    induction l with
    | nil => rfl
    | cons s l ih =>
      rw [List.flatMap_cons, ih (fun t ht => hsv t (by simp [ht]))]
      cases hk : s.key with
      | none => rw [List.filterMap_cons_none hk]; rfl
      | some k =>
        rw [List.filterMap_cons_some hk, List.flatMap_cons, hsv s (by simp) k hk]
        congr 1
        cases s.val <;> simp

end Msat.Props
