import Verif.Lemmas.Str

/-
C26 Stripping blanks.
C57 Prefixes, suffixes and case.
-/
namespace Msat.Props
open Msat Str StrSpec

/-- `lstrip` takes away the blanks at the start and nothing else. -/
theorem C26_lstrip (s : Bytes) : TrimmedLeft s (lstrip s) := by
  unfold lstrip
  split
  · rename_i h; exact ⟨[], rfl, by simp, by simp [h]⟩
  · obtain ⟨_, h2, h3, h4⟩ := skipForward_spec isspace s 0 s.length (by omega)
    dsimp only
    rw [show StdString.substr s (skipForward isspace s 0 s.length) (s.length - skipForward isspace s 0 s.length + 1)
      = s.drop (skipForward isspace s 0 s.length) from
      List.take_of_length_le (by rw [List.length_drop]; omega)]
    refine ⟨s.take (skipForward isspace s 0 s.length), (List.take_append_drop _ _).symm, fun c hc => ?_, fun c hc => ?_⟩
    · obtain ⟨i, hi, rfl⟩ := mem_take_getD h2 hc
      exact (isspace_iff _).1 (h3 i (by omega) hi)
    · by_cases hl : skipForward isspace s 0 s.length < s.length
      · rw [head?_drop hl] at hc
        cases hc
        intro hb
        rw [(isspace_iff _).2 hb] at h4
        exact absurd (h4 hl) (by simp)
      · rw [List.drop_eq_nil_of_le (by omega)] at hc; cases hc

/-- `rstrip` takes away the blanks at the end and nothing else. -/
theorem C26_rstrip (s : Bytes) : TrimmedRight s (rstrip s) := by
  unfold rstrip
  split
  · rename_i h; exact ⟨[], by simp, by simp, by simp [h]⟩
  · obtain ⟨_, h2, h3, h4⟩ := skipBackward_spec isspace s 0 s.length (by omega)
    have e : (if skipBackward isspace s 0 s.length = 0 then [] else
        StdString.substr s 0 (skipBackward isspace s 0 s.length)) = s.take (skipBackward isspace s 0 s.length) := by
      split
      · rename_i h; rw [h]; rfl
      · rfl
    dsimp only
    rw [e]
    refine ⟨s.drop (skipBackward isspace s 0 s.length), (List.take_append_drop _ _).symm, fun c hc => ?_, fun c hc => ?_⟩
    · obtain ⟨i, hi, hi', rfl⟩ := mem_drop_getD hc
      exact (isspace_iff _).1 (h3 i hi hi')
    · by_cases hl : 0 < skipBackward isspace s 0 s.length
      · rw [getLast?_take hl h2] at hc
        cases hc
        intro hb
        rw [(isspace_iff _).2 hb] at h4
        exact absurd (h4 hl) (by simp)
      · rw [show skipBackward isspace s 0 s.length = 0 by omega] at hc; cases hc

/-- `strip` takes away the blanks at both ends and nothing else. -/
theorem C26_strip (s : Bytes) : Trimmed s (strip s) := by
  unfold strip
  split
  · rename_i h; exact ⟨[], [], by simp, by simp, by simp, by simp [h], by simp [h]⟩
  · dsimp only
    obtain ⟨_, h2, h3, h4⟩ := skipForward_spec isspace s 0 s.length (by omega)
    generalize skipForward isspace s 0 s.length = b at *
    obtain ⟨g1, g2, g3, g4⟩ := skipBackward_spec isspace s b s.length h2
    generalize skipBackward isspace s b s.length = e at *
    have ht : StdString.substr s b (e - b) = (s.take e).drop b := by
      rw [StdString.substr, List.drop_take]
    rw [ht]
    refine ⟨s.take b, s.drop e, ?_, fun c hc => ?_, fun c hc => ?_, fun c hc => ?_, fun c hc => ?_⟩
    · have h' : s.take b = (s.take e).take b := by rw [List.take_take, Nat.min_eq_left g1]
      rw [h', List.take_append_drop, List.take_append_drop]
    · obtain ⟨i, hi, rfl⟩ := mem_take_getD h2 hc
      exact (isspace_iff _).1 (h3 i (by omega) hi)
    · obtain ⟨i, hi, hi', rfl⟩ := mem_drop_getD hc
      exact (isspace_iff _).1 (g3 i hi hi')
    · by_cases hl : b < e
      · rw [head?_drop (by rw [List.length_take]; omega)] at hc
        cases hc
        intro hb
        have hx : (s.take e).getD b 0 = s.getD b 0 := by
          rw [getD_eq (by rw [List.length_take]; omega), getD_eq (by omega), List.getElem_take]
        rw [hx] at hb
        rw [(isspace_iff _).2 hb] at h4
        exact absurd (h4 (by omega)) (by simp)
      · rw [List.drop_eq_nil_of_le (by rw [List.length_take]; omega)] at hc; cases hc
    · by_cases hl : b < e
      · rw [List.getLast?_drop, if_neg (by rw [List.length_take]; omega), getLast?_take (by omega) g2] at hc
        cases hc
        intro hb
        rw [(isspace_iff _).2 hb] at g4
        exact absurd (g4 hl) (by simp)
      · rw [List.drop_eq_nil_of_le (by rw [List.length_take]; omega)] at hc; cases hc

/-- There is only one way to take away exactly the blanks. -/
theorem C26_unique (s t : Bytes) :
    (TrimmedLeft s t → lstrip s = t) ∧ (TrimmedRight s t → rstrip s = t) ∧ (Trimmed s t → strip s = t) :=
  ⟨trimmedLeft_unique (C26_lstrip s), trimmedRight_unique (C26_rstrip s), trimmed_unique (C26_strip s)⟩

/-- Stripping twice is stripping once. -/
theorem C26_idempotent (s : Bytes) :
    lstrip (lstrip s) = lstrip s ∧ rstrip (rstrip s) = rstrip s ∧ strip (strip s) = strip s := by
  refine ⟨(C26_unique _ _).1 ?_, (C26_unique _ _).2.1 ?_, (C26_unique _ _).2.2 ?_⟩
  · obtain ⟨a, _, _, h⟩ := C26_lstrip s
    exact ⟨[], rfl, by simp, h⟩
  · obtain ⟨a, _, _, h⟩ := C26_rstrip s
    exact ⟨[], by simp, by simp, h⟩
  · obtain ⟨a, b, _, _, _, h, h'⟩ := C26_strip s
    exact ⟨[], [], by simp, by simp, by simp, h, h'⟩

/-- `strip` does what `lstrip` and `rstrip` do together, in any order. -/
theorem C26_both_sides (s : Bytes) : lstrip (rstrip s) = strip s := by
  obtain ⟨m, h1, h2⟩ := trimmed_two_steps (C26_strip s)
  rw [(C26_unique s m).2.1 h1, (C26_unique m _).1 h2]

example : strip (str "  a b\t\n") = str "a b" := by decide +kernel
example : strip (str " \t ") = [] := by decide +kernel
example : lstrip (str "  a ") = str "a " ∧ rstrip (str "  a ") = str "  a" := by decide +kernel

/-! ## C57 -/

/-- `startswith` tells prefixes, `endswith` suffixes. -/
theorem C57_prefix_suffix (s part : Bytes) :
    (startswith s part = true ↔ ∃ rest, s = part ++ rest) ∧
    (endswith s part = true ↔ ∃ rest, s = rest ++ part) := by
  constructor
  · unfold startswith
    split
    · rename_i h
      simp only [Bool.false_eq_true, false_iff, not_exists]
      intro r e; rw [e, List.length_append] at h; omega
    · rename_i h
      rw [beq_iff_eq]
      constructor
      · intro e
        exact ⟨s.drop part.length, by
          have := List.take_append_drop part.length s
          rwa [show s.take part.length = part from e, eq_comm] at this⟩
      · rintro ⟨r, rfl⟩
        simp [StdString.substr]
  · unfold endswith
    split
    · rename_i h
      simp only [Bool.false_eq_true, false_iff, not_exists]
      intro r e; rw [e, List.length_append] at h; omega
    · rename_i h
      rw [beq_iff_eq]
      constructor
      · intro e
        exact ⟨s.take (s.length - part.length), by
          have := List.take_append_drop (s.length - part.length) s
          rwa [show s.drop (s.length - part.length) = part from e, eq_comm] at this⟩
      · rintro ⟨r, rfl⟩
        simp [StdString.substrFrom]

/-- Changing case twice is changing it once, the second change wins, and lengths stay. -/
theorem C57_case (s : Bytes) :
    upper (upper s) = upper s ∧ lower (lower s) = lower s ∧ lower (upper s) = lower s ∧
    upper (lower s) = upper s ∧ (upper s).length = s.length ∧ (lower s).length = s.length := by
  have h : ∀ c : UInt8, toupper (toupper c) = toupper c ∧ tolower (tolower c) = tolower c ∧
    tolower (toupper c) = tolower c ∧ toupper (tolower c) = toupper c :=
    forall_byte (by decide +kernel)
  unfold upper lower
  simp only [List.map_map, List.length_map, and_self, and_true]
  refine ⟨List.map_congr_left (fun c _ => (h c).1), List.map_congr_left (fun c _ => (h c).2.1),
    List.map_congr_left (fun c _ => (h c).2.2.1), List.map_congr_left (fun c _ => (h c).2.2.2)⟩

/-- Only letters change: every other character is kept. -/
theorem C57_only_letters (s : Bytes) (h : ∀ c ∈ s, ¬ (65 ≤ c ∧ c ≤ 90) ∧ ¬ (97 ≤ c ∧ c ≤ 122)) :
    upper s = s ∧ lower s = s := by
  have hc : ∀ c : UInt8, (¬ (65 ≤ c ∧ c ≤ 90) ∧ ¬ (97 ≤ c ∧ c ≤ 122)) → toupper c = c ∧ tolower c = c :=
    forall_byte (by decide +kernel)
  unfold upper lower
  exact ⟨(List.map_congr_left (fun c hm => (hc c (h c hm)).1)).trans (List.map_id s),
    (List.map_congr_left (fun c hm => (hc c (h c hm)).2)).trans (List.map_id s)⟩

example : upper (str "Msat-1 x") = str "MSAT-1 X" := by decide +kernel

end Msat.Props
