import Verif.Lemmas.Terminal

/-
C109: a text written with colours is shown in those colours by a terminal that follows ECMA-48, and the terminal is left with its default look;
what is not a terminal gets the text alone.
-/
namespace Msat.Props
open Terminal TerminalSpec

/-- What is not a terminal gets the text as it is, from `color` and from any nesting of scopes. -/
theorem C109_not_terminal (fg bg : Int) (s : Bytes) : color false fg bg s = s ∧ colorFg false fg s = s ∧ colorBg false bg s = s :=
  ⟨rfl, rfl, rfl⟩

/-- A stream is taken for a terminal only if it has a file descriptor and the system says that it is one; other errors than "not a terminal" are
thrown. -/
theorem C109_open (fd : Bool) (res : Int) (e : Errno) :
    (open_ fd res e = .ok true ↔ fd = true ∧ res = 1) ∧ (open_ fd res e).Handled ∧
    ((open_ fd res e).Throws ↔ fd = true ∧ res ≠ 1 ∧ e = .other) := by
  unfold open_
  cases fd <;> by_cases h : res = 1 <;> cases e <;> simp [h, Outcome.Handled, Outcome.Throws]

/-- Text in a foreground colour is shown in that colour, bold if it is bright, on the background there was, whatever was shown before; the
look is the default one afterwards. -/
theorem C109_foreground (c : Colour) (hc : c ≠ ⟨none, false⟩) (t : Bytes) (ht : NoEscape t) (s : State) (hs : s.mode = .ground) :
    feed s (colorFg true c.code t) = ⟨default, .ground, s.shown ++ t.map (·, onForeground c s.look)⟩ := by
  unfold colorFg
  rw [feed_color s hs _ _ t ht]
  dsimp only
  rw [if_neg (fun h : (0 : Int) ≠ 0 => h rfl), List.append_nil, fg_look, if_neg]
  rw [fgCodes_code]
  obtain ⟨_ | k, _ | _⟩ := c <;> simp at hc ⊢

example : feed ⟨default, .ground, []⟩ (colorFg true (Colour.code ⟨some 1, true⟩) (str "failed")) =
    ⟨default, .ground, (str "failed").map (·, ⟨some 1, none, true⟩)⟩ :=
  C109_foreground ⟨some 1, true⟩ (by decide) _ (by decide) _ rfl

theorem bg_look (b : Colour) (hb : b.bright = true ∨ b.hue = none) (l : Look) :
    ((if b.code ≠ 0 then bgCodes b.code else [])).foldl select l = onBackground b l := by
  rw [bgCodes_code]
  obtain ⟨_ | k, br⟩ := b
  · rfl
  · rcases hb with hb | hb
    · simp only at hb
      subst hb
      have hk := k.isLt
      show select l (100 + k.val) = _
      unfold select
      rw [if_neg (by omega), if_neg (by omega), if_neg (by omega), if_neg (by omega), if_neg (by omega), if_pos ⟨by omega, by omega⟩]
      show _ = ({ l with bg := some (k.val + 8) } : Look)
      congr 2
      omega
    · cases hb

/-- Text in a foreground colour on a bright background colour (or on the one there was) is shown so. -/
theorem C109_background_partial (c b : Colour) (hb : b.bright = true ∨ b.hue = none) (hn : c ≠ ⟨none, false⟩ ∨ b.hue ≠ none) (t : Bytes)
    (ht : NoEscape t) (s : State) (hs : s.mode = .ground) :
    feed s (color true c.code b.code t) = ⟨default, .ground, s.shown ++ t.map (·, onBackground b (onForeground c s.look))⟩ := by
  rw [feed_color s hs _ _ t ht]
  dsimp only
  rw [if_neg, List.foldl_append, fg_look, bg_look b hb]
  rw [fgCodes_code, bgCodes_code]
  obtain ⟨_ | k, _ | _⟩ := c <;> obtain ⟨_ | j, _ | _⟩ := b <;> simp at hn ⊢

example : feed ⟨default, .ground, []⟩ (color true (Colour.code ⟨some 0, false⟩) (Colour.code ⟨some 3, true⟩) (str "warning")) =
    ⟨default, .ground, (str "warning").map (·, ⟨some 0, some 11, false⟩)⟩ :=
  C109_background_partial ⟨some 0, false⟩ ⟨some 3, true⟩ (.inl rfl) (.inl (by decide)) _ (by decide) _ rfl

/-- Discrepancy: a background colour that is not bright is written with the codes 90 to 97 instead of 40 to 47
(msat/utils/term.cc:84): the background does not change, and the text is shown in the bright version of the *background* colour, whatever
foreground colour was asked for. -/
theorem C109_violated_background (c : Colour) (k : Fin 8) (t : Bytes) (ht : NoEscape t) (s : State) (hs : s.mode = .ground) :
    feed s (color true c.code (Colour.code ⟨some k, false⟩) t) =
      ⟨default, .ground, s.shown ++ t.map (·, { onForeground c s.look with fg := some (k.val + 8) })⟩ := by
  rw [feed_color s hs _ _ t ht]
  dsimp only
  have hk := k.isLt
  rw [if_neg, List.foldl_append, fg_look, bgCodes_code]
  · congr 3
    funext x
    congr 1
    show select _ (90 + k.val) = _
    unfold select
    rw [if_neg (by omega), if_neg (by omega), if_neg (by omega), if_neg (by omega), if_pos ⟨by omega, by omega⟩]
    congr 2
    omega
  · rw [bgCodes_code]
    simp

/-- So no text (written where the background was another) with a background colour that is not bright is shown as asked. -/
theorem C109_violated_background_wrong (c : Colour) (k : Fin 8) (x : UInt8) (hx : x ≠ 27) (s : State) (hs : s.mode = .ground)
    (hb : s.look.bg ≠ some k.val) :
    (feed s (color true c.code (Colour.code ⟨some k, false⟩) [x])).shown ≠
      s.shown ++ [(x, onBackground ⟨some k, false⟩ (onForeground c s.look))] := by
  rw [C109_violated_background c k [x] (by intro y hy; simp at hy; subst hy; exact hx) s hs]
  intro h
  have h1 := List.append_cancel_left h
  simp only [List.map_cons, List.map_nil, List.cons.injEq, Prod.mk.injEq, and_true, true_and] at h1
  exact hb (congrArg Look.bg h1)

/-! ### Scopes -/

/-- The texts of a program, as far as it goes: an exception skips what follows. -/
def uncoloured : Program → Bytes × Bool
  | .done => ([], false)
  | .fail => ([], true)
  | .text s rest => (s ++ (uncoloured rest).1, (uncoloured rest).2)
  | .colored _ _ inside rest => if (uncoloured inside).2 then uncoloured inside else ((uncoloured inside).1 ++ (uncoloured rest).1, (uncoloured rest).2)

/-- The texts of a program have no control sequences. -/
def PlainTexts : Program → Prop
  | .done => True
  | .fail => True
  | .text s rest => NoEscape s ∧ PlainTexts rest
  | .colored _ _ inside rest => PlainTexts inside ∧ PlainTexts rest

theorem run_texts (p : Program) : run false p = uncoloured p := by
  induction p with
  | done => rfl
  | fail => rfl
  | text s rest ih => simp only [run, uncoloured, ih]
  | colored fg bg inside rest ih1 ih2 =>
    simp only [run, uncoloured, ih1, ih2, Bool.false_eq_true, if_false, List.nil_append, List.append_nil]
    split
    · rename_i h
      exact Prod.ext rfl h.symm
    · rfl

/-- What is not a terminal gets the texts of a program and nothing else. -/
theorem C109_scopes_not_terminal (p : Program) : run false p = uncoloured p := run_texts p

theorem run_shown (p : Program) (hp : PlainTexts p) (s : State) (hs : s.mode = .ground) :
    (feed s (run true p).1).mode = .ground ∧ (feed s (run true p).1).shown.map (·.1) = s.shown.map (·.1) ++ (uncoloured p).1 ∧
    (run true p).2 = (uncoloured p).2 := by
  induction p generalizing s with
  | done => exact ⟨hs, by simp [run, feed, uncoloured], rfl⟩
  | fail => exact ⟨hs, by simp [run, feed, uncoloured], rfl⟩
  | text t rest ih =>
    simp only [run, uncoloured]
    rw [feed_append, feed_text t hp.1 s hs]
    obtain ⟨h1, h2, h3⟩ := ih hp.2 { s with shown := s.shown ++ t.map (·, s.look) } hs
    refine ⟨h1, ?_, h3⟩
    rw [h2]
    simp [Function.comp_def]
  | colored fg bg inside rest ih1 ih2 =>
    have hq : (feed s (setSequence fg bg)).mode = .ground ∧ (feed s (setSequence fg bg)).shown = s.shown := by
      unfold setSequence
      rw [feed_sequence s hs]
      exact ⟨hs, rfl⟩
    obtain ⟨h1, h2, h3⟩ := ih1 hp.1 (feed s (setSequence fg bg)) hq.1
    have ha : ∀ r, feed s (setSequence fg bg ++ (run true inside).1 ++ resetSequence ++ r) =
        feed { feed (feed s (setSequence fg bg)) (run true inside).1 with look := default } r := by
      intro r
      rw [feed_append, feed_append, feed_append, feed_reset _ h1]
    simp only [run, uncoloured, if_true]
    by_cases hx : (run true inside).2 = true
    · rw [if_pos hx, if_pos (h3 ▸ hx)]
      have := ha []
      rw [List.append_nil] at this
      dsimp only
      rw [this]
      refine ⟨h1, ?_, hx.symm.trans h3⟩
      show List.map _ (feed (feed s (setSequence fg bg)) (run true inside).1).shown = _
      rw [h2, hq.2]
    · rw [if_neg hx, if_neg (h3 ▸ hx)]
      dsimp only
      rw [ha]
      obtain ⟨g1, g2, g3⟩ := ih2 hp.2 { feed (feed s (setSequence fg bg)) (run true inside).1 with look := default } h1
      refine ⟨g1, ?_, g3⟩
      rw [g2]
      dsimp only
      rw [h2, hq.2, List.append_assoc]

/-- Any nesting of scopes shows the texts that would be written without colours, in order and nothing else, also when an exception leaves some
of the scopes; no sequence is left open. -/
theorem C109_scopes (p : Program) (hp : PlainTexts p) (s : State) (hs : s.mode = .ground) :
    (feed s (run true p).1).shown.map (·.1) = s.shown.map (·.1) ++ (uncoloured p).1 ∧ (feed s (run true p).1).mode = .ground ∧
    (run true p).2 = (uncoloured p).2 :=
  ⟨(run_shown p hp s hs).2.1, (run_shown p hp s hs).1, (run_shown p hp s hs).2.2⟩

theorem run_default (p : Program) (hp : PlainTexts p) (s : State) (hs : s.mode = .ground) (hl : s.look = default) :
    (feed s (run true p).1).look = default := by
  induction p generalizing s with
  | done => exact hl
  | fail => exact hl
  | text t rest ih =>
    simp only [run]
    rw [feed_append, feed_text t hp.1 s hs]
    exact ih hp.2 _ hs hl
  | colored fg bg inside rest ih1 ih2 =>
    have hq : (feed s (setSequence fg bg)).mode = .ground := by
      unfold setSequence
      rw [feed_sequence s hs]
      exact hs
    have h1 := (run_shown inside hp.1 _ hq).1
    simp only [run, if_true]
    by_cases hx : (run true inside).2 = true
    · rw [if_pos hx]
      dsimp only
      rw [feed_append, feed_append, feed_reset _ h1]
    · rw [if_neg hx]
      dsimp only
      rw [feed_append, feed_append, feed_append, feed_reset _ h1]
      exact ih2 hp.2 _ h1 rfl

/-- After any program, left normally or by an exception, the terminal has its default look, if it had it before. -/
theorem C109_restored (p : Program) (hp : PlainTexts p) (s : State) (hs : s.mode = .ground) (hl : s.look = default) :
    (feed s (run true p).1).look = default := run_default p hp s hs hl

/-- Text directly in one scope is shown as text with `color`. -/
theorem C109_scope_colour (fg bg : Int) (t : Bytes) : (run true (.colored fg bg (.text t .done) .done)).1 = color true fg bg t := by
  simp [run, color]

/-- A red scope with a bold scope inside that is left by an exception. -/
def nestedProgram : Program := .colored 2 0 (.text (str "a") (.colored 16 0 (.text (str "b") .fail) .done)) (.text (str "never") .done)

example : PlainTexts nestedProgram ∧ uncoloured nestedProgram = (str "ab", true) ∧
    (feed ⟨default, .ground, []⟩ (run true nestedProgram).1).shown.map (·.1) = str "ab" :=
  have hp : PlainTexts nestedProgram := ⟨⟨by decide, ⟨by decide, trivial⟩, trivial⟩, by decide, trivial⟩
  ⟨hp, by decide, (C109_scopes nestedProgram hp ⟨default, .ground, []⟩ rfl).1.trans (by decide)⟩

/-- Discrepancy: the end of a scope resets everything (msat/utils/term.cc:29), so what follows a scope inside another one is shown in the
default look instead of that of the outer scope. -/
theorem C109_violated_nested (fg bg fg2 bg2 : Int) (t u : Bytes) (ht : NoEscape t) (hu : NoEscape u) (s : State) (hs : s.mode = .ground) :
    ∃ l, (feed s (run true (.colored fg bg (.colored fg2 bg2 (.text t .done) (.text u .done)) .done)).1).shown =
      s.shown ++ t.map (·, l) ++ u.map (·, default) := by
  simp only [run, if_true, List.append_nil]
  have hq : ∀ s : State, s.mode = .ground → ∀ a b, (feed s (setSequence a b)).mode = .ground ∧ (feed s (setSequence a b)).shown = s.shown := by
    intro s hs a b
    unfold setSequence
    rw [feed_sequence s hs]
    exact ⟨hs, rfl⟩
  have h1 := hq s hs fg bg
  have h2 := hq _ h1.1 fg2 bg2
  refine ⟨(feed (feed s (setSequence fg bg)) (setSequence fg2 bg2)).look, ?_⟩
  simp only [Bool.false_eq_true, if_false]
  have h3 := feed_text t ht _ h2.1
  have h4 : (feed (feed (feed s (setSequence fg bg)) (setSequence fg2 bg2)) t).mode = .ground := by rw [h3]; exact h2.1
  have h5 := feed_reset _ h4
  have h6 : (feed (feed (feed (feed s (setSequence fg bg)) (setSequence fg2 bg2)) t) resetSequence).mode = .ground := by rw [h5]; exact h4
  have h7 := feed_text u hu _ h6
  have h8 : (feed (feed (feed (feed (feed s (setSequence fg bg)) (setSequence fg2 bg2)) t) resetSequence) u).mode = .ground := by
    rw [h7]; exact h6
  rw [feed_append, feed_append, feed_append, feed_append, feed_append, feed_reset _ h8, h7, h5, h3]
  dsimp only
  rw [h2.2, h1.2]

/-- Discrepancy: `color(0, 0, s)`, or a background that is only `bright`, does not leave the look alone: the sequence without codes that it writes
is a reset (msat/utils/term.cc:96-99, 117-120). -/
theorem C109_violated_nothing (t : Bytes) (ht : NoEscape t) (s : State) (hs : s.mode = .ground) :
    feed s (color true 0 0 t) = ⟨default, .ground, s.shown ++ t.map (·, default)⟩ ∧
    feed s (colorBg true 16 t) = ⟨default, .ground, s.shown ++ t.map (·, default)⟩ := by
  unfold colorBg
  constructor
  · rw [feed_color s hs _ _ t ht]; rfl
  · rw [feed_color s hs _ _ t ht]; rfl

end Msat.Props
