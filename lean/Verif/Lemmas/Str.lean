import Verif.Model.Str
import Verif.Spec.Str

namespace Msat.Str

/-- A statement about bytes is a statement about 256 values. -/
theorem forall_byte {p : UInt8 → Prop} (h : ∀ n : Fin 256, p (UInt8.ofNat n)) (c : UInt8) : p c := by
  have := h ⟨c.toNat, c.toNat_lt⟩
  simpa using this

theorem skipForward_spec (p : UInt8 → Bool) (s : Bytes) (beg stop : Nat) (h : beg ≤ stop) :
    beg ≤ skipForward p s beg stop ∧ skipForward p s beg stop ≤ stop ∧
    (∀ i, beg ≤ i → i < skipForward p s beg stop → p (s.getD i 0) = true) ∧
    (skipForward p s beg stop < stop → p (s.getD (skipForward p s beg stop) 0) = false) := by
  induction hn : stop - beg generalizing beg with
  | zero =>
    rw [skipForward, if_neg (by omega)]
    exact ⟨by omega, by omega, fun i _ _ => by omega, fun _ => by omega⟩
  | succ n ih =>
    rw [skipForward, if_pos (by omega)]
    by_cases hp : p (s.getD beg 0) = true
    · rw [if_pos hp]
      obtain ⟨h1, h2, h3, h4⟩ := ih (beg + 1) (by omega) (by omega)
      refine ⟨by omega, h2, fun i hi hi' => ?_, h4⟩
      by_cases e : i = beg
      · rw [e]; exact hp
      · exact h3 i (by omega) hi'
    · rw [if_neg hp]
      exact ⟨by omega, by omega, fun i _ _ => by omega, fun _ => by simpa using hp⟩

theorem skipBackward_spec (p : UInt8 → Bool) (s : Bytes) (beg stop : Nat) (h : beg ≤ stop) :
    beg ≤ skipBackward p s beg stop ∧ skipBackward p s beg stop ≤ stop ∧
    (∀ i, skipBackward p s beg stop ≤ i → i < stop → p (s.getD i 0) = true) ∧
    (beg < skipBackward p s beg stop → p (s.getD (skipBackward p s beg stop - 1) 0) = false) := by
  induction stop with
  | zero => exact ⟨h, by simp [skipBackward], fun i _ hi => by omega, fun h' => by
      simp only [skipBackward] at h'; omega⟩
  | succ n ih =>
    rw [skipBackward]
    by_cases hp : beg < n + 1 ∧ p (s.getD n 0) = true
    · rw [if_pos hp]
      obtain ⟨h1, h2, h3, h4⟩ := ih (by omega)
      refine ⟨h1, by omega, fun i hi hi' => ?_, h4⟩
      by_cases e : i = n
      · rw [e]; exact hp.2
      · exact h3 i hi (by omega)
    · rw [if_neg hp]
      refine ⟨by omega, by omega, fun i _ _ => by omega, fun hb => ?_⟩
      simpa [hb] using hp

theorem isspace_iff (c : UInt8) : isspace c = true ↔ c ∈ StrSpec.blank := by
  revert c; exact forall_byte (by decide +kernel)

theorem getD_eq {s : Bytes} {i : Nat} (h : i < s.length) : s.getD i 0 = s[i] := by
  rw [List.getD_eq_getElem?_getD, List.getElem?_eq_getElem h]; rfl

theorem mem_take_getD {s : Bytes} {n : Nat} {c : UInt8} (hn : n ≤ s.length) (h : c ∈ s.take n) :
    ∃ i < n, s.getD i 0 = c := by
  obtain ⟨i, hi, e⟩ := List.mem_iff_getElem.1 h
  rw [List.length_take] at hi
  refine ⟨i, by omega, ?_⟩
  rw [getD_eq (by omega), ← e, List.getElem_take]

theorem mem_drop_getD {s : Bytes} {n : Nat} {c : UInt8} (h : c ∈ s.drop n) :
    ∃ i, n ≤ i ∧ i < s.length ∧ s.getD i 0 = c := by
  obtain ⟨i, hi, e⟩ := List.mem_iff_getElem.1 h
  rw [List.length_drop] at hi
  refine ⟨n + i, by omega, by omega, ?_⟩
  rw [getD_eq (by omega), ← e, List.getElem_drop]

theorem head?_drop {s : Bytes} {n : Nat} (h : n < s.length) : (s.drop n).head? = some (s.getD n 0) := by
  rw [List.head?_drop, List.getElem?_eq_getElem h, getD_eq h]

theorem getLast?_take {s : Bytes} {n : Nat} (h0 : 0 < n) (h : n ≤ s.length) :
    (s.take n).getLast? = some (s.getD (n - 1) 0) := by
  rw [List.getLast?_eq_getElem?, List.length_take, Nat.min_eq_left h, List.getElem?_take,
    if_pos (by omega), List.getElem?_eq_getElem (by omega), getD_eq (by omega)]

/-! ### Trimming -/

theorem trimmedLeft_unique {s t t' : Bytes} (h : StrSpec.TrimmedLeft s t) (h' : StrSpec.TrimmedLeft s t') :
    t = t' := by
  obtain ⟨a, e, ha, ht⟩ := h
  obtain ⟨a', e', ha', ht'⟩ := h'
  subst e
  induction a generalizing a' with
  | nil =>
    cases a' with
    | nil => simpa using e'
    | cons x xs =>
      rw [List.nil_append, List.cons_append] at e'
      exact absurd (ha' x (by simp)) (ht x (by rw [e']; rfl))
  | cons y ys ih =>
    cases a' with
    | nil =>
      rw [List.nil_append, List.cons_append] at e'
      exact absurd (ha y (by simp)) (ht' y (by rw [← e']; rfl))
    | cons x xs =>
      rw [List.cons_append, List.cons_append, List.cons.injEq] at e'
      exact ih (fun c hc => ha c (List.mem_cons_of_mem _ hc)) xs
        (fun c hc => ha' c (List.mem_cons_of_mem _ hc)) e'.2

theorem trimmedRight_reverse {s t : Bytes} (h : StrSpec.TrimmedRight s t) :
    StrSpec.TrimmedLeft s.reverse t.reverse := by
  obtain ⟨b, e, hb, ht⟩ := h
  exact ⟨b.reverse, by rw [e, List.reverse_append], fun c hc => hb c (List.mem_reverse.1 hc),
    fun c hc => ht c (by rwa [List.head?_reverse] at hc)⟩

theorem trimmedRight_unique {s t t' : Bytes} (h : StrSpec.TrimmedRight s t) (h' : StrSpec.TrimmedRight s t') :
    t = t' :=
  List.reverse_inj.1 (trimmedLeft_unique (trimmedRight_reverse h) (trimmedRight_reverse h'))

/-- Both ends: first one, then the other. -/
theorem trimmed_two_steps {s t : Bytes} (h : StrSpec.Trimmed s t) :
    ∃ m, StrSpec.TrimmedRight s m ∧ StrSpec.TrimmedLeft m t := by
  obtain ⟨a, b, e, ha, hb, h1, h2⟩ := h
  by_cases ht : t = []
  · subst ht
    refine ⟨[], ⟨a ++ b, by simp [e], fun c hc => ?_, fun c hc => by simp at hc⟩, ⟨[], rfl, fun c hc => by simp at hc, h1⟩⟩
    rcases List.mem_append.1 hc with hc | hc
    · exact ha c hc
    · exact hb c hc
  · refine ⟨a ++ t, ⟨b, e, hb, fun c hc => h2 c ?_⟩, ⟨a, rfl, ha, h1⟩⟩
    rw [List.getLast?_append] at hc
    cases ht' : t.getLast? with
    | none => exact absurd (List.getLast?_eq_none_iff.1 ht') ht
    | some x => rw [ht'] at hc; simpa using hc

theorem trimmed_unique {s t t' : Bytes} (h : StrSpec.Trimmed s t) (h' : StrSpec.Trimmed s t') : t = t' := by
  obtain ⟨m, h1, h2⟩ := trimmed_two_steps h
  obtain ⟨m', h1', h2'⟩ := trimmed_two_steps h'
  rw [trimmedRight_unique h1 h1'] at h2
  exact trimmedLeft_unique h2 h2'

end Msat.Str
