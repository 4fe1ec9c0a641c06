import Verif.Lemmas.Split

/-
C21 Splitting and joining strings.
-/
namespace Msat.Props
open Msat Str StrSpec

/-- Splitting on a separator gives the parts between its occurrences. -/
theorem C21_split (s sep : Bytes) (hs : sep ≠ []) (h0 : s ≠ []) :
    ∃ ps, split s sep false = .ok ps ∧ IsSplit sep s ps :=
  ⟨_, split_parts s sep hs h0, isSplit_parts sep hs _ s (Nat.le_refl _)⟩

/-- There is only one list of parts. -/
theorem C21_unique (s sep : Bytes) (hs : sep ≠ []) (h0 : s ≠ []) (ps : List Bytes) (h : IsSplit sep s ps) :
    split s sep false = .ok ps := by
  rw [split_parts s sep hs h0, ← isSplit_unique sep hs ps s h]

/-- Splitting always ends, and joining the parts with the separator gives the string back: for all
strings and separators, empty ones too. -/
theorem C21_split_join (s sep : Bytes) : ∃ ps, split s sep false = .ok ps ∧ join sep ps = s := by
  by_cases h0 : s = []
  · subst h0; exact ⟨[], split_empty sep false, rfl⟩
  · by_cases hs : sep = []
    · subst hs
      refine ⟨_, split_chars s h0, ?_⟩
      rw [join_eq]
      clear h0
      induction s with
      | nil => rfl
      | cons c cs ih => rw [List.map_cons, List.cons_append, joined_cons (by simp), ih]; rfl
    · obtain ⟨ps, h1, h2, _⟩ := C21_split s sep hs h0
      exact ⟨ps, h1, by rw [join_eq]; exact h2⟩

/-- Joining parts that do not contain the (one character) separator and splitting the result gives the
parts back. -/
theorem C21_join_split (c : UInt8) (ps : List Bytes) (h : ∀ p ∈ ps, c ∉ p) (h1 : ps ≠ []) (h2 : ps ≠ [[]]) :
    split (join [c] ps) [c] false = .ok ps := by
  have hno : ∀ p : Bytes, c ∉ p → ∀ i, ¬ OccursAt [c] p i := by
    intro p hp i ho
    have hi := ho.2
    simp at hi
    obtain ⟨t, ht⟩ := ho.1
    exact hp (List.mem_of_mem_drop (i := i) (by rw [← ht]; simp))
  have hsp : ∀ ps : List Bytes, (∀ p ∈ ps, c ∉ p) → ps ≠ [] → Leftmost [c] ps := by
    intro ps
    induction ps with
    | nil => intro _ h; exact absurd rfl h
    | cons x xs ih =>
      intro h _
      by_cases hx : xs = []
      · subst hx; exact hno x (h x (by simp))
      · rw [leftmost_cons hx]
        refine ⟨fun i hi ho => ?_, ih (fun p hp => h p (List.mem_cons_of_mem _ hp)) hx⟩
        exact hno x (h x (by simp)) i ((occursAt_append (by simp; omega)).1 ho)
  rw [join_eq]
  refine C21_unique _ _ (by simp) ?_ ps ⟨rfl, hsp ps h h1⟩
  cases ps with
  | nil => exact absurd rfl h1
  | cons x xs =>
    by_cases hx : xs = []
    · subst hx
      intro e
      apply h2
      rw [show joined [c] [x] = x from rfl] at e
      rw [e]
    · rw [joined_cons hx]; simp

/-- Skipping empty parts gives exactly the non-empty parts, when there are any.  The full property does
not hold: see below. -/
theorem C21_skip_empty_partial (s sep : Bytes) (hs : sep ≠ []) (ps : List Bytes) (h : IsSplit sep s ps)
    (hne : ∃ p ∈ ps, p ≠ []) : split s sep true = .ok (ps.filter (· ≠ [])) := by
  have h0 : s ≠ [] := by
    rintro rfl
    have := isSplit_unique sep hs ps [] h
    rw [parts_nil hs] at this
    subst this
    obtain ⟨p, hp, hp'⟩ := hne
    simp at hp
    exact hp' hp
  rw [split_skip s sep hs h0, ← isSplit_unique sep hs ps s h, if_neg]
  · rfl
  · obtain ⟨p, hp, hp'⟩ := hne
    intro e
    have : p ∈ nonEmpty ps := List.mem_filter.2 ⟨hp, by simpa using hp'⟩
    rw [e] at this; cases this

/-- A string made only of separators has no non-empty part, but one empty part is returned. -/
theorem C21_violated_only_separators (s sep : Bytes) (hs : sep ≠ []) (h0 : s ≠ []) (ps : List Bytes)
    (h : IsSplit sep s ps) (he : ∀ p ∈ ps, p = []) : split s sep true = .ok [[]] := by
  rw [split_skip s sep hs h0, ← isSplit_unique sep hs ps s h, if_pos]
  unfold nonEmpty
  rw [List.filter_eq_nil_iff]
  intro p hp
  simp [he p hp]

/-- With an empty separator, skipping empty parts never ends. -/
theorem C21_violated_empty_separator (s : Bytes) (h0 : s ≠ []) : split s [] true = .diverges := by
  unfold split begin
  simp only [if_neg h0, if_true]
  rw [skipSeparators, dif_pos rfl, if_pos (by omega)]
  rfl

example : split (str "a,,b,") (str ",") false = .ok [str "a", [], str "b", []] := by decide +kernel
example : split (str ",a,,b,") (str ",") true = .ok [str "a", str "b"] := by decide +kernel
example : split (str "aaa") (str "aa") false = .ok [[], str "a"] := by decide +kernel
example : split (str ",,") (str ",") true = .ok [[]] := by decide +kernel
example : IsSplit (str ",") (str ",,") [[], [], []] := by
  refine ⟨by decide, ?_, ?_, ?_⟩ <;> intro i <;> simp [OccursAt, str]

end Msat.Props
