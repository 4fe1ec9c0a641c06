import Verif.Lemmas.RecordPrint

/-
Auxiliary facts: the text of a record determines the texts of its values.
-/
namespace Msat.RecordTexts
open Msat Layout RecordTextsSpec Text

/-! ### The characters of the texts of values -/

/-- Texts of integers. -/
theorem decimal_chars : ∀ (n : Nat), decimal n ≠ [] ∧ ∀ c ∈ decimal n, isDigit c = true := by
  intro n
  induction n using Nat.strongRecOn with
  | _ n ih =>
    rw [decimal]
    split
    next h =>
      refine ⟨by simp, fun c hc => ?_⟩
      rw [List.mem_singleton.1 hc, show n = n % 10 by omega]
      exact digit_isDigit n
    next h =>
      refine ⟨by simp, fun c hc => ?_⟩
      rcases List.mem_append.1 hc with hc | hc
      · exact (ih (n / 10) (by omega)).2 c hc
      · rw [List.mem_singleton.1 hc]
        exact digit_isDigit n

theorem fmt0_chars (w : Nat) (v : Int) : ∀ c ∈ fmt0 w v, isDigit c = true ∨ c = 45 := by
  intro c hc
  unfold fmt0 at hc
  split at hc
  · rcases List.mem_cons.1 hc with rfl | hc
    · exact .inr rfl
    rcases List.mem_append.1 hc with hc | hc
    · rw [List.eq_of_mem_replicate hc]; exact .inl rfl
    · exact .inl ((decimal_chars _).2 c hc)
  · rcases List.mem_append.1 hc with hc | hc
    · rw [List.eq_of_mem_replicate hc]; exact .inl rfl
    · exact .inl ((decimal_chars _).2 c hc)

theorem digit_ne {c : UInt8} (h : isDigit c = true ∨ c = 45) : c ≠ 10 ∧ c ≠ 32 ∧ c ≠ 41 := by
  rcases h with h | rfl
  · refine ⟨?_, ?_, ?_⟩ <;> (rintro rfl; revert h; decide)
  · decide

theorem signed_chars (i : Int) : signed i ≠ [] ∧ ∀ c ∈ signed i, isDigit c = true ∨ c = 45 := by
  unfold signed
  split
  · refine ⟨by simp [str], fun c hc => ?_⟩
    rcases List.mem_append.1 hc with hc | hc
    · exact .inr (by simpa [str] using hc)
    · exact .inl ((decimal_chars _).2 c hc)
  · exact ⟨(decimal_chars _).1, fun c hc => .inl ((decimal_chars _).2 c hc)⟩

theorem shortText_chars (c : Time.CdsShort) : (10 : UInt8) ∉ TimeTexts.shortText c := by
  intro hm
  unfold TimeTexts.shortText at hm
  generalize XritDataset.gmtime c.unixtime = g at hm
  rcases g with ⟨y, m, d, h, mi⟩
  dsimp only at hm
  unfold TimeTexts.strftime at hm
  simp only [List.mem_append] at hm
  have k : ∀ w v, (10 : UInt8) ∉ fmt0 w v := fun w v hc => (digit_ne (fmt0_chars w v _ hc)).1 rfl
  have e1 : (10 : UInt8) ∉ str "-" := by decide
  have e2 : (10 : UInt8) ∉ str ":" := by decide
  have e3 : (10 : UInt8) ∉ str " " := by decide
  have e4 : (10 : UInt8) ∉ str " +" := by decide
  have e5 : (10 : UInt8) ∉ str " msecs" := by decide
  simp only [k, e1, e2, e3, e4, e5, or_self] at hm

theorem insert24_chars {s t r : Bytes} (h : TimeTexts.insert24 s t = .ok r) (hs : (10 : UInt8) ∉ s) (ht : (10 : UInt8) ∉ t) : (10 : UInt8) ∉ r := by
  unfold TimeTexts.insert24 at h
  split at h
  · cases h
  · rw [← Outcome.ok.inj h]
    intro hm
    rcases List.mem_append.1 hm with hm | hm
    · rcases List.mem_append.1 hm with hm | hm
      · exact hs (List.mem_of_mem_take hm)
      · exact ht hm
    · exact hs (List.mem_of_mem_drop hm)

theorem fmt3_length (b : UInt8) : (fmt0 3 b.toNat).length = 3 := by
  rw [fmt0_digits (by omega) (by have := b.toNat_lt; omega), digits_length]

theorem coarse_length (t : Bytes) : (TimeTexts.coarseText t).length = 15 := by
  unfold TimeTexts.coarseText
  simp only [List.length_append, fmt3_length]
  rfl

theorem fine_length (t : Bytes) : (TimeTexts.fineText t).length = 11 := by
  unfold TimeTexts.fineText
  simp only [List.length_append, fmt3_length]
  rfl

/-- Forms whose texts are on one line. -/
def oneLine : Form → Bool
  | .name table => table.all fun e => decide ((10 : UInt8) ∉ str e.2)
  | _ => true

theorem nameOf_chars {table : List (Nat × String)} (h : oneLine (.name table) = true) (n : Nat) : (10 : UInt8) ∉ str (nameOf table n) := by
  unfold nameOf
  cases e : table.lookup n with
  | none => decide
  | some s =>
    have hm : (n, s) ∈ table := by
      clear h
      induction table with
      | nil => cases e
      | cons a as ih =>
        rcases a with ⟨a, b⟩
        rw [List.lookup_cons] at e
        by_cases h : (n == a) = true
        · rw [h] at e
          rw [beq_iff_eq] at h
          rw [h, ← Option.some.inj e]
          exact List.mem_cons_self
        · rw [Bool.not_eq_true] at h
          rw [h] at e
          exact List.mem_cons_of_mem _ (ih e)
    exact of_decide_eq_true (List.all_eq_true.1 h _ hm)

theorem spacecraft_chars (n : Nat) : (10 : UInt8) ∉ str (HritTexts.spacecraftName n) ∧ (41 : UInt8) ∉ str (HritTexts.spacecraftName n) := by
  unfold HritTexts.spacecraftName
  split <;> decide

theorem unit_chars (n : Nat) : (10 : UInt8) ∉ str (unitName n) ∧ (41 : UInt8) ∉ str (unitName n) := by
  unfold unitName
  repeat' split
  all_goals decide

theorem value_oneLine {w : World} (hw : Plain w) {f : Form} {v : Val} {s : Bytes} (hf : oneLine f = true) (h : valueText w f v = .ok s) :
    (10 : UInt8) ∉ s := by
  unfold valueText at h
  have k : ∀ w v, (10 : UInt8) ∉ fmt0 w v := fun w v hc => (digit_ne (fmt0_chars w v _ hc)).1 rfl
  have k1 : (10 : UInt8) ∉ str "." := by decide
  have k2 : (10 : UInt8) ∉ str " " := by decide
  split at h
  · rw [← Outcome.ok.inj h]
    exact fun hc => (digit_ne (.inl ((decimal_chars _).2 _ hc))).1 rfl
  · rw [← Outcome.ok.inj h]
    exact fun hc => (digit_ne ((signed_chars _).2 _ hc)).1 rfl
  · rw [← Outcome.ok.inj h]
    exact fun hc => ((hw.r4 _).2 _ hc).1 rfl
  · rw [← Outcome.ok.inj h]
    exact fun hc => ((hw.r8 _).2 _ hc).1 rfl
  · rw [← Outcome.ok.inj h]
    exact shortText_chars _
  · exact insert24_chars h (shortText_chars _) (by simp only [List.mem_append, k, k1, or_self, not_false_eq_true])
  · exact insert24_chars h (shortText_chars _) (by simp only [List.mem_append, k, k1, or_self, not_false_eq_true])
  · rw [← Outcome.ok.inj h]
    exact fun hc => hw.gtime _ _ hc rfl
  · rw [← Outcome.ok.inj h]
    unfold TimeTexts.coarseText
    simp only [List.mem_append, k, k2, or_self, not_false_eq_true]
  · rw [← Outcome.ok.inj h]
    unfold TimeTexts.fineText
    simp only [List.mem_append, k, k2, or_self, not_false_eq_true]
  · rw [← Outcome.ok.inj h]
    exact fun hc => ((hw.cucReal _).2 _ hc).1 rfl
  · rw [← Outcome.ok.inj h]
    exact nameOf_chars hf _
  · rw [← Outcome.ok.inj h]
    exact (spacecraft_chars _).1
  · rw [← Outcome.ok.inj h]
    exact (unit_chars _).1
  · split at h
    · rw [← Outcome.ok.inj h]
      exact fun hc => (digit_ne (.inl ((decimal_chars _).2 _ hc))).1 rfl
    · cases h
  · rw [← Outcome.ok.inj h]
    exact fun hc => hw.bits _ _ _ hc rfl
  · rw [← Outcome.ok.inj h]
    exact fun hc => hw.bits _ _ _ hc rfl
  · cases h

/-! ### Where the text of a value ends -/

/-- Forms of numbers, which have no blanks and no parentheses. -/
def isNumber : Form → Bool
  | .dec | .r4 | .r8 | .cucReal | .byte _ => true
  | _ => false

theorem number_chars {w : World} (hw : Plain w) {f : Form} {v : Val} {s : Bytes} (hf : isNumber f = true) (h : valueText w f v = .ok s) :
    s ≠ [] ∧ ∀ c ∈ s, c ≠ 10 ∧ c ≠ 32 ∧ c ≠ 41 := by
  unfold valueText at h
  split at h <;> first | exact absurd hf Bool.false_ne_true | skip
  · rw [← Outcome.ok.inj h]
    exact ⟨(decimal_chars _).1, fun c hc => digit_ne (.inl ((decimal_chars _).2 _ hc))⟩
  · rw [← Outcome.ok.inj h]
    exact ⟨(signed_chars _).1, fun c hc => digit_ne ((signed_chars _).2 _ hc)⟩
  · rw [← Outcome.ok.inj h]
    exact hw.r4 _
  · rw [← Outcome.ok.inj h]
    exact hw.r8 _
  · rw [← Outcome.ok.inj h]
    exact hw.cucReal _
  · split at h
    · rw [← Outcome.ok.inj h]
      exact ⟨(decimal_chars _).1, fun c hc => digit_ne (.inl ((decimal_chars _).2 _ hc))⟩
    · cases h
  · cases h

/-- Whether what follows a value tells where its text ends. -/
def closes (f : Form) (k : Nat) (fill : UInt8) : What → Bool
  | .endl => oneLine f && fill != 10
  | .lit s => match str s with
    | [] => false
    | c :: _ =>
      (isNumber f && (c == 41 && k == 0 || c == 32 && fill == 32)) || ((f == .unit || f == .spacecraft) && c == 41 && k == 0) ||
        ((f == .cucCoarse || f == .cucFine) && k == 0)
  | _ => false

theorem cut {c : UInt8} {a a' r r' : Bytes} (ha : c ∉ a) (ha' : c ∉ a') (h : a ++ c :: r = a' ++ c :: r') : a = a' ∧ r = r' := by
  induction a generalizing a' with
  | nil =>
    cases a' with
    | nil => exact ⟨rfl, (List.cons.inj h).2⟩
    | cons x xs => exact absurd (by rw [(List.cons.inj h).1]; simp) ha'
  | cons x xs ih =>
    cases a' with
    | nil => exact absurd (by rw [← (List.cons.inj h).1]; simp) ha
    | cons y ys =>
      obtain ⟨e1, e2⟩ := List.cons.inj h
      obtain ⟨i1, i2⟩ := ih (fun h => ha (List.mem_cons_of_mem _ h)) (fun h => ha' (List.mem_cons_of_mem _ h)) e2
      exact ⟨by rw [e1, i1], i2⟩

theorem drop_blanks (n : Nat) {s r : Bytes} (hs : s ≠ []) (hb : ∀ c ∈ s, c ≠ 32) :
    (List.replicate n (32 : UInt8) ++ s ++ r).dropWhile (· == 32) = s ++ r := by
  induction n with
  | zero =>
    cases s with
    | nil => exact absurd rfl hs
    | cons c cs =>
      rw [List.replicate_zero, List.nil_append, List.cons_append, List.dropWhile_cons]
      have : (c == 32) = false := by simpa using hb c (by simp)
      rw [this]
      rfl
  | succ n ih =>
    rw [List.replicate_succ, List.cons_append, List.cons_append, List.dropWhile_cons]
    exact ih

theorem cut_padded {k : Nat} {s s' r r' : Bytes} (hs : s ≠ []) (hb : ∀ c ∈ s, c ≠ 32) (hs' : s' ≠ []) (hb' : ∀ c ∈ s', c ≠ 32)
    (h : pad k 32 s ++ 32 :: r = pad k 32 s' ++ 32 :: r') : s = s' ∧ r = r' := by
  unfold pad at h
  have h := congrArg (List.dropWhile (· == 32)) h
  rw [drop_blanks _ hs hb, drop_blanks _ hs' hb'] at h
  exact cut (fun hc => hb _ hc rfl) (fun hc => hb' _ hc rfl) h

theorem pad_zero (c : UInt8) (s : Bytes) : pad 0 c s = s := by
  unfold pad
  rw [Nat.zero_sub]
  rfl

/-- What is written after a value, when it tells where the value ends. -/
theorem value_cut {w : World} (hw : Plain w) {f : Form} {k : Nat} {fill : UInt8} {y : What} (hy : closes f k fill y = true) {o o' : Members}
    {v v' : Val} {s s' b b' r r' : Bytes} (hs : valueText w f v = .ok s) (hs' : valueText w f v' = .ok s')
    (hb : whatText w o y = .ok b) (hb' : whatText w o' y = .ok b')
    (h : pad k fill s ++ (b ++ r) = pad k fill s' ++ (b' ++ r')) :
    pad k fill s = pad k fill s' ∧ b ++ r = b' ++ r' := by
  cases y with
  | index | value | bar => cases hy
  | endl =>
    unfold closes at hy
    dsimp only at hy
    rw [Bool.and_eq_true, bne_iff_ne] at hy
    rw [← Outcome.ok.inj hb, ← Outcome.ok.inj hb'] at h ⊢
    have hn : ∀ {s v}, valueText w f v = .ok s → (10 : UInt8) ∉ pad k fill s := by
      intro s v h hm
      unfold pad at hm
      rcases List.mem_append.1 hm with hm | hm
      · exact hy.2 (List.eq_of_mem_replicate hm).symm
      · exact value_oneLine hw hy.1 h hm
    obtain ⟨h1, h2⟩ := cut (hn hs) (hn hs') h
    exact ⟨h1, congrArg (List.cons _) h2⟩
  | lit t =>
    unfold closes at hy
    dsimp only at hy
    have e : b = str t := (Outcome.ok.inj hb).symm
    have e' : b' = str t := (Outcome.ok.inj hb').symm
    rw [e, e'] at h ⊢
    generalize str t = u at h hy
    cases u with
    | nil => cases hy
    | cons c cs =>
      dsimp only at hy
      simp only [Bool.or_eq_true, Bool.and_eq_true, beq_iff_eq] at hy
      rcases hy with (⟨h1, h2⟩ | ⟨⟨h1, h2⟩, h3⟩) | ⟨h1, h2⟩
      · obtain ⟨n1, n2⟩ := number_chars hw h1 hs
        obtain ⟨n1', n2'⟩ := number_chars hw h1 hs'
        rcases h2 with ⟨h2, h3⟩ | ⟨h2, h3⟩
        · subst h2 h3
          rw [pad_zero, pad_zero] at h ⊢
          obtain ⟨g1, g2⟩ := cut (fun hc => (n2 _ hc).2.2 rfl) (fun hc => (n2' _ hc).2.2 rfl) h
          exact ⟨g1, congrArg (List.cons _) g2⟩
        · subst h2 h3
          obtain ⟨g1, g2⟩ := cut_padded n1 (fun c hc => (n2 c hc).2.1) n1' (fun c hc => (n2' c hc).2.1) h
          exact ⟨by rw [g1], congrArg (List.cons _) g2⟩
      · subst h2 h3
        rw [pad_zero, pad_zero] at h ⊢
        have hn : ∀ {s v}, valueText w f v = .ok s → (41 : UInt8) ∉ s := by
          intro s v h
          rcases h1 with rfl | rfl
          · cases v <;> cases h
            exact (unit_chars _).2
          · cases v <;> cases h
            exact (spacecraft_chars _).2
        obtain ⟨g1, g2⟩ := cut (hn hs) (hn hs') h
        exact ⟨g1, congrArg (List.cons _) g2⟩
      · subst h2
        rw [pad_zero, pad_zero] at h ⊢
        have hl : ∀ {s v}, valueText w f v = .ok s → s.length = if f = .cucCoarse then 15 else 11 := by
          intro s v h
          rcases h1 with rfl | rfl
          · rw [if_pos rfl]
            cases v <;> cases h
            exact coarse_length _
          · rw [if_neg (by decide)]
            cases v <;> cases h
            exact fine_length _
        exact List.append_inj h (by rw [hl hs, hl hs'])

/-- Whether an item, if it is a value, is followed by something that tells where it ends. -/
def closed (x : Item) (xs : Text) : Bool :=
  match x.what, xs with
  | .value _ f k c _, y :: _ => y.guards == x.guards && closes f k c y.what
  | .value _ _ _ _ _, [] => false
  | .bar _ _ _, y :: _ => y.guards == x.guards && y.what == .endl
  | .bar _ _ _, [] => false
  | _, _ => true

/-- Whether every value of a text is followed by something that tells where it ends. -/
def separated : Text → Bool
  | [] => true
  | x :: xs => closed x xs && separated xs

theorem separated_cons {x : Item} {xs : Text} (h : separated (x :: xs) = true) :
    separated xs = true ∧
    (match x.what with
      | .value _ f k c _ => ∃ y ys, xs = y :: ys ∧ y.guards = x.guards ∧ closes f k c y.what = true
      | .bar _ _ _ => ∃ y ys, xs = y :: ys ∧ y.guards = x.guards ∧ y.what = .endl
      | _ => True) := by
  unfold separated at h
  rw [Bool.and_eq_true] at h
  refine ⟨h.2, ?_⟩
  have h := h.1
  unfold closed at h
  rcases x with ⟨g, wh⟩
  cases wh with
  | lit | index | endl => trivial
  | value p f k c a =>
    cases xs with
    | nil => cases h
    | cons y ys =>
      dsimp only at h
      rw [Bool.and_eq_true, beq_iff_eq] at h
      exact ⟨y, ys, rfl, h.1, h.2⟩
  | bar p n i =>
    cases xs with
    | nil => cases h
    | cons y ys =>
      dsimp only at h
      rw [Bool.and_eq_true, beq_iff_eq, beq_iff_eq] at h
      exact ⟨y, ys, rfl, h.1, h.2⟩

theorem separated_append {a b : Text} (ha : separated a = true) (hb : separated b = true) : separated (a ++ b) = true := by
  induction a with
  | nil => exact hb
  | cons x xs ih =>
    obtain ⟨h1, h2⟩ := separated_cons ha
    rw [List.cons_append, separated, Bool.and_eq_true]
    refine ⟨?_, ih h1⟩
    unfold closed
    rcases x with ⟨g, wh⟩
    cases wh with
    | lit | index | endl => rfl
    | value p f k c a =>
      obtain ⟨y, ys, rfl, e1, e2⟩ := h2
      dsimp only [List.cons_append]
      dsimp only at e1
      rw [e2, Bool.and_true, beq_iff_eq, e1]
    | bar p n i =>
      obtain ⟨y, ys, rfl, e1, e2⟩ := h2
      dsimp only [List.cons_append]
      dsimp only at e1
      rw [e2, Bool.and_eq_true, beq_iff_eq, e1]
      exact ⟨rfl, rfl⟩

theorem separated_map {g : Item → Item} (hg : ∀ x y : Item, y.guards = x.guards → (g y).guards = (g x).guards)
    (hw : ∀ x : Item, match x.what with
      | .value _ f k c a => ∃ p', (g x).what = .value p' f k c a
      | .bar _ n i => ∃ p', (g x).what = .bar p' n i
      | z => (g x).what = z) {t : Text} (h : separated t = true) : separated (t.map g) = true := by
  induction t with
  | nil => rfl
  | cons x xs ih =>
    obtain ⟨h1, h2⟩ := separated_cons h
    rw [List.map_cons, separated, Bool.and_eq_true]
    refine ⟨?_, ih h1⟩
    unfold closed
    have hx := hw x
    rcases x with ⟨gs, wh⟩
    cases wh with
    | lit | index | endl => dsimp only at hx; rw [hx]
    | value p f k c a =>
      obtain ⟨p', hx⟩ := hx
      obtain ⟨y, ys, rfl, e1, e2⟩ := h2
      rw [hx, List.map_cons]
      dsimp only
      rw [Bool.and_eq_true, beq_iff_eq]
      refine ⟨hg _ _ e1, ?_⟩
      have hy := hw y
      revert hy e2
      cases y.what with
      | index | value | bar => intro e2; cases e2
      | lit | endl => intro e2 hy; dsimp only at hy; rw [hy]; exact e2
    | bar p n i =>
      obtain ⟨p', hx⟩ := hx
      obtain ⟨y, ys, rfl, e1, e2⟩ := h2
      rw [hx, List.map_cons]
      dsimp only
      rw [Bool.and_eq_true, beq_iff_eq, beq_iff_eq]
      refine ⟨hg _ _ e1, ?_⟩
      have hy := hw y
      rw [e2] at hy
      exact hy

theorem separated_sub {p : Path} {t : Text} (h : separated t = true) : separated (sub p t) = true := by
  unfold sub
  refine separated_map ?_ ?_ h
  · intro x y e
    unfold Item.under
    rw [e]
  · rintro ⟨g, wh⟩
    cases wh with
    | lit | index | endl => rfl
    | value | bar => exact ⟨_, rfl⟩

theorem separated_when {p : Path} {t : Text} (h : separated t = true) : separated (RecordTexts.when p t) = true := by
  unfold RecordTexts.when
  refine separated_map ?_ ?_ h
  · intro x y e
    dsimp only
    rw [e]
  · rintro ⟨g, wh⟩
    cases wh with
    | lit | index | endl => rfl
    | value | bar => exact ⟨_, rfl⟩

theorem separated_each {n : Nat} {f : Nat → Text} (h : ∀ i, i < n → separated (f i) = true) : separated (each n f) = true := by
  induction n with
  | zero => rfl
  | succ n ih =>
    unfold each
    rw [List.range_succ, List.flatMap_append, List.flatMap_singleton]
    exact separated_append (ih fun i hi => h i (by omega)) (h n (by omega))

/-! ### The text determines what is written of every value -/

theorem print_cons {w : World} {o : Members} {x : Item} {xs : Text} {s : Bytes} (h : print w o (x :: xs) = .ok s) :
    ∃ a b, itemText w o x = .ok a ∧ print w o xs = .ok b ∧ s = a ++ b := by
  unfold print at h
  obtain ⟨a, ha, h⟩ := Outcome.of_bind_ok h
  obtain ⟨b, hb, h⟩ := Outcome.of_bind_ok h
  exact ⟨a, b, ha, hb, (Outcome.ok.inj h).symm⟩

theorem item_cases {w : World} {o : Members} {x : Item} {a : Bytes} (h : itemText w o x = .ok a) :
    (holds o x.guards = .ok true ∧ whatText w o x.what = .ok a) ∨ (holds o x.guards = .ok false ∧ a = []) := by
  unfold itemText at h
  obtain ⟨b, hb, h⟩ := Outcome.of_bind_ok h
  cases b with
  | true => exact .inl ⟨hb, h⟩
  | false => exact .inr ⟨hb, (Outcome.ok.inj h).symm⟩

theorem value_what {w : World} {o : Members} {p : Path} {f : Form} {k : Nat} {c : UInt8} {b : Bool} {a : Bytes}
    (h : whatText w o (.value p f k c b) = .ok a) : ∃ v s, member o p = .ok v ∧ valueText w f v = .ok s ∧ a = pad k c s := by
  unfold whatText at h
  dsimp only at h
  obtain ⟨v, hv, h⟩ := Outcome.of_bind_ok h
  obtain ⟨s, hs, h⟩ := Outcome.of_bind_ok h
  exact ⟨v, s, hv, hs, (Outcome.ok.inj h).symm⟩

theorem bar_what {w : World} {o : Members} {p : Path} {n i : Nat} {a : Bytes} (h : whatText w o (.bar p n i) = .ok a) :
    ∃ k, a = List.replicate k 42 := by
  unfold whatText at h
  dsimp only at h
  obtain ⟨cs, _, h⟩ := Outcome.of_bind_ok h
  unfold barText at h
  split at h
  · cases h
  · split at h
    · cases h
    · exact ⟨_, (Outcome.ok.inj h).symm⟩

theorem determined {w : World} (hw : Plain w) {o o' : Members} : ∀ {t : Text} {s : Bytes}, separated t = true →
    (∀ x ∈ t, holds o x.guards = holds o' x.guards) → print w o t = .ok s → print w o' t = .ok s →
    ∀ x ∈ t, holds o x.guards = .ok true → whatText w o x.what = whatText w o' x.what
  | [], _, _, _, _, _, x, hx, _ => by cases hx
  | x :: xs, s, ht, hg, h, h', z, hz, hzv => by
    obtain ⟨a, b, ha, hb, rfl⟩ := print_cons h
    obtain ⟨a', b', ha', hb', e⟩ := print_cons h'
    obtain ⟨hs, hn⟩ := separated_cons ht
    suffices key : b = b' ∧ (holds o x.guards = .ok true → whatText w o x.what = whatText w o' x.what) by
      rcases List.mem_cons.1 hz with rfl | hz
      · exact key.2 hzv
      · exact determined hw hs (fun y hy => hg y (List.mem_cons_of_mem _ hy)) hb (key.1 ▸ hb') z hz hzv
    have hgx := hg x (by simp)
    rcases item_cases ha with ⟨hv, ha⟩ | ⟨hv, rfl⟩
    · rcases item_cases ha' with ⟨hv', ha'⟩ | ⟨hv', rfl⟩
      · rcases x with ⟨g, wh⟩
        cases wh with
        | lit | index | endl =>
          have : a = a' := (Outcome.ok.inj ha).symm.trans (Outcome.ok.inj ha')
          exact ⟨List.append_cancel_left (this ▸ e), fun _ => rfl⟩
        | value p f k c r =>
          obtain ⟨y, ys, rfl, e1, e2⟩ := hn
          obtain ⟨b1, b2, hb1, hb2, rfl⟩ := print_cons hb
          obtain ⟨b1', b2', hb1', hb2', rfl⟩ := print_cons hb'
          have k1 : whatText w o y.what = .ok b1 := by
            rcases item_cases hb1 with ⟨_, k⟩ | ⟨k, _⟩
            · exact k
            · rw [e1, hv] at k; cases k
          have k1' : whatText w o' y.what = .ok b1' := by
            rcases item_cases hb1' with ⟨_, k⟩ | ⟨k, _⟩
            · exact k
            · rw [e1, hv'] at k; cases k
          obtain ⟨v, u, m1, m2, m3⟩ := value_what ha
          obtain ⟨v', u', m1', m2', m3'⟩ := value_what ha'
          rw [m3, m3'] at e
          obtain ⟨c1, c2⟩ := value_cut hw e2 m2 m2' k1 k1' e
          refine ⟨c2, fun _ => ?_⟩
          rw [ha, ha', m3, m3', c1]
        | bar p n i =>
          obtain ⟨y, ys, rfl, e1, e2⟩ := hn
          obtain ⟨b1, b2, hb1, hb2, rfl⟩ := print_cons hb
          obtain ⟨b1', b2', hb1', hb2', rfl⟩ := print_cons hb'
          have k1 : b1 = [10] := by
            rcases item_cases hb1 with ⟨_, k⟩ | ⟨k, _⟩
            · rw [e2] at k; exact (Outcome.ok.inj k).symm
            · rw [e1, hv] at k; cases k
          have k1' : b1' = [10] := by
            rcases item_cases hb1' with ⟨_, k⟩ | ⟨k, _⟩
            · rw [e2] at k; exact (Outcome.ok.inj k).symm
            · rw [e1, hv'] at k; cases k
          obtain ⟨u, m⟩ := bar_what ha
          obtain ⟨u', m'⟩ := bar_what ha'
          have hno : ∀ u, (10 : UInt8) ∉ List.replicate u (42 : UInt8) := by
            intro u hm
            exact absurd (List.eq_of_mem_replicate hm) (by decide)
          subst k1 k1'
          have e' : List.replicate u 42 ++ 10 :: b2 = List.replicate u' 42 ++ 10 :: b2' := by
            rw [m, m'] at e
            exact e
          obtain ⟨c1, c2⟩ := cut (hno _) (hno _) e'
          refine ⟨by rw [c2], fun _ => ?_⟩
          rw [ha, ha', m, m', c1]
      · rw [hgx, hv'] at hv; cases hv
    · rcases item_cases ha' with ⟨hv', ha'⟩ | ⟨hv', rfl⟩
      · rw [hgx, hv'] at hv; cases hv
      · exact ⟨e, fun h => by rw [hv] at h; cases h⟩

end Msat.RecordTexts
