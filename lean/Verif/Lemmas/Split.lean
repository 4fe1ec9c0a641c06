import Verif.Lemmas.Str

namespace Msat.Str
open StrSpec

theorem occursAt_cons {sep s : Bytes} {c : UInt8} {i : Nat} :
    OccursAt sep (c :: s) (i + 1) ↔ OccursAt sep s i := by
  unfold OccursAt
  rw [List.drop_succ_cons, List.length_cons]
  constructor <;> rintro ⟨h, h'⟩ <;> exact ⟨h, by omega⟩

theorem occursAt_zero {sep s : Bytes} : OccursAt sep s 0 ↔ sep <+: s := by
  unfold OccursAt
  rw [List.drop_zero]
  exact ⟨fun h => h.1, fun h => ⟨h, by have := h.length_le; omega⟩⟩

theorem findSub_some {sep s : Bytes} (hs : sep ≠ []) : ∀ {i}, findSub sep s = some i →
    OccursAt sep s i ∧ ∀ j < i, ¬ OccursAt sep s j := by
  induction s with
  | nil => intro i h; rw [findSub, if_neg hs] at h; cases h
  | cons c cs ih =>
    intro i h
    rw [findSub] at h
    split at h
    · rename_i hp
      cases h
      exact ⟨occursAt_zero.2 (List.isPrefixOf_iff_prefix.1 hp), fun j hj => by omega⟩
    · rename_i hp
      cases hf : findSub sep cs with
      | none => rw [hf] at h; cases h
      | some k =>
        rw [hf] at h
        cases h
        obtain ⟨h1, h2⟩ := ih hf
        refine ⟨occursAt_cons.2 h1, fun j hj => ?_⟩
        cases j with
        | zero => intro ho; exact hp (List.isPrefixOf_iff_prefix.2 (occursAt_zero.1 ho))
        | succ j => intro ho; exact h2 j (Nat.lt_of_succ_lt_succ hj) (occursAt_cons.1 ho)

theorem findSub_none {sep s : Bytes} (hs : sep ≠ []) : findSub sep s = none → ∀ i, ¬ OccursAt sep s i := by
  induction s with
  | nil =>
    intro _ i h
    have : 0 < sep.length := List.length_pos_iff.2 hs
    have := h.2
    rw [List.length_nil] at this
    omega
  | cons c cs ih =>
    intro h i
    rw [findSub] at h
    split at h
    · cases h
    · rename_i hp
      cases hf : findSub sep cs with
      | some k => rw [hf] at h; cases h
      | none =>
        cases i with
        | zero => intro ho; exact hp (List.isPrefixOf_iff_prefix.2 (occursAt_zero.1 ho))
        | succ j => intro ho; exact ih hf j (occursAt_cons.1 ho)

theorem findSub_eq_some {sep s : Bytes} {i : Nat} (hs : sep ≠ []) (h1 : OccursAt sep s i)
    (h2 : ∀ j < i, ¬ OccursAt sep s j) : findSub sep s = some i := by
  cases h : findSub sep s with
  | none => exact absurd h1 (findSub_none hs h i)
  | some k =>
    obtain ⟨g1, g2⟩ := findSub_some hs h
    rcases Nat.lt_trichotomy k i with hk | hk | hk
    · exact absurd g1 (h2 k hk)
    · rw [hk]
    · exact absurd h1 (g2 i hk)

theorem findSub_eq_none {sep s : Bytes} (hs : sep ≠ []) (h : ∀ i, ¬ OccursAt sep s i) : findSub sep s = none := by
  cases hf : findSub sep s with
  | none => rfl
  | some k => exact absurd (findSub_some hs hf).1 (h k)

/-- The parts of a string, one after the other. -/
def parts (sep s : Bytes) : List Bytes :=
  if _h : sep = [] then [s]
  else match _hf : findSub sep s with
    | none => [s]
    | some i => s.take i :: parts sep (s.drop (i + sep.length))
termination_by s.length
decreasing_by
  have h1 : 0 < sep.length := List.length_pos_iff.2 _h
  have h2 := (findSub_some _h _hf).1.2
  rw [List.length_drop]
  omega

theorem parts_none {sep s : Bytes} (hs : sep ≠ []) (h : findSub sep s = none) : parts sep s = [s] := by
  rw [parts, dif_neg hs]
  split
  · rfl
  · rename_i h'; rw [h] at h'; cases h'

theorem parts_some {sep s : Bytes} {i : Nat} (hs : sep ≠ []) (h : findSub sep s = some i) :
    parts sep s = s.take i :: parts sep (s.drop (i + sep.length)) := by
  rw [parts, dif_neg hs]
  split
  · rename_i h'; rw [h] at h'; cases h'
  · rename_i h'; rw [h] at h'; cases h'; rfl

theorem parts_ne_nil (sep s : Bytes) : parts sep s ≠ [] := by
  rw [parts]
  split
  · simp
  · split <;> simp

theorem occursAt_split {sep s : Bytes} {i : Nat} (h : OccursAt sep s i) :
    s = s.take i ++ sep ++ s.drop (i + sep.length) := by
  obtain ⟨⟨t, ht⟩, _⟩ := h
  have : s.drop (i + sep.length) = t := by
    rw [← List.drop_drop, ← ht, List.drop_left]
  rw [this, List.append_assoc, ht, List.take_append_drop]

theorem joined_cons {sep x : Bytes} {xs : List Bytes} (h : xs ≠ []) :
    joined sep (x :: xs) = x ++ sep ++ joined sep xs := by
  cases xs with
  | nil => exact absurd rfl h
  | cons y ys => rfl

theorem leftmost_cons {sep x : Bytes} {xs : List Bytes} (h : xs ≠ []) :
    Leftmost sep (x :: xs) ↔ (∀ i < x.length, ¬ OccursAt sep (x ++ sep) i) ∧ Leftmost sep xs := by
  cases xs with
  | nil => exact absurd rfl h
  | cons y ys => rfl

/-- An occurrence that ends inside of a prefix is an occurrence in the prefix. -/
theorem occursAt_append {sep a b : Bytes} {i : Nat} (hi : i + sep.length ≤ a.length) :
    OccursAt sep (a ++ b) i ↔ OccursAt sep a i := by
  unfold OccursAt
  rw [List.drop_append_of_le_length (by omega), List.length_append]
  constructor
  · rintro ⟨h, _⟩
    refine ⟨?_, hi⟩
    exact List.prefix_of_prefix_length_le h (List.prefix_append _ _) (by rw [List.length_drop]; omega)
  · rintro ⟨h, _⟩
    exact ⟨h.trans (List.prefix_append _ _), by omega⟩

theorem isSplit_parts (sep : Bytes) (hs : sep ≠ []) : ∀ n (s : Bytes), s.length ≤ n → IsSplit sep s (parts sep s) := by
  intro n
  induction n with
  | zero =>
    intro s h
    have : s = [] := List.eq_nil_of_length_eq_zero (by omega)
    subst this
    have hf : findSub sep [] = none := by rw [findSub, if_neg hs]
    rw [parts_none hs hf]
    exact ⟨rfl, findSub_none hs hf⟩
  | succ n ih =>
    intro s h
    cases hf : findSub sep s with
    | none => rw [parts_none hs hf]; exact ⟨rfl, findSub_none hs hf⟩
    | some i =>
      obtain ⟨h1, h2⟩ := findSub_some hs hf
      rw [parts_some hs hf]
      have hl : 0 < sep.length := List.length_pos_iff.2 hs
      obtain ⟨g1, g2⟩ := ih (s.drop (i + sep.length)) (by rw [List.length_drop]; have := h1.2; omega)
      have hsp := occursAt_split h1
      have hi := h1.2
      refine ⟨?_, ?_⟩
      · rw [joined_cons (parts_ne_nil _ _), g1]; exact hsp.symm
      · rw [leftmost_cons (parts_ne_nil _ _)]
        refine ⟨fun j hj ho => ?_, g2⟩
        rw [List.length_take] at hj
        refine h2 j (by omega) ?_
        rw [hsp]
        exact (occursAt_append (by rw [List.length_append, List.length_take]; omega)).2 ho

theorem isSplit_unique (sep : Bytes) (hs : sep ≠ []) (ps : List Bytes) : ∀ s, IsSplit sep s ps → ps = parts sep s := by
  induction ps with
  | nil => intro s h; exact h.2.elim
  | cons x xs ih =>
    intro s ⟨h1, h2⟩
    by_cases hx : xs = []
    · subst hx
      have : x = s := h1
      subst this
      rw [parts_none hs (findSub_eq_none hs h2)]
    · rw [joined_cons hx] at h1
      rw [leftmost_cons hx] at h2
      have hf : findSub sep s = some x.length := by
        apply findSub_eq_some hs
        · rw [← h1]
          refine ⟨?_, by simp [List.length_append]⟩
          rw [List.append_assoc, List.drop_left]; exact List.prefix_append _ _
        · intro j hj ho
          refine h2.1 j hj ?_
          rw [← h1] at ho
          exact (occursAt_append (by rw [List.length_append]; omega)).1 ho
      rw [parts_some hs hf]
      have e1 : s.take x.length = x := by rw [← h1, List.append_assoc, List.take_left]
      have e2 : s.drop (x.length + sep.length) = joined sep xs := by
        rw [← h1, ← List.length_append, List.drop_left]
      rw [e1, e2, ← ih (joined sep xs) ⟨rfl, h2.2⟩]

/-! ### The iterator -/

theorem join_eq (sep : Bytes) (items : List Bytes) : join sep items = joined sep items := by
  have aux : ∀ (is : List Bytes) (res : Bytes), is ≠ [] →
      joinLoop sep false res is = res ++ sep ++ joined sep is := by
    intro is
    induction is with
    | nil => intro _ h; exact absurd rfl h
    | cons i is ih =>
      intro res _
      rw [joinLoop]
      by_cases h : is = []
      · subst h; rfl
      · rw [ih _ h, joined_cons h]; simp
  unfold join
  cases items with
  | nil => rfl
  | cons i is =>
    rw [joinLoop]
    by_cases h : is = []
    · subst h; rfl
    · rw [aux _ _ h, joined_cons h]; simp

theorem collect_end (s sep : Bytes) (skip : Bool) (fuel : Nat) (c : Bytes) (h : 2 ≤ fuel) :
    collect s sep skip fuel ⟨true, c, none⟩ = .ok [c] := by
  obtain ⟨f, rfl⟩ : ∃ f, fuel = f + 2 := ⟨fuel - 2, by omega⟩
  simp [collect, next]

theorem collect_parts (s sep : Bytes) (hs : sep ≠ []) : ∀ n e fuel c, s.length - e ≤ n → e ≤ s.length → n + 3 ≤ fuel →
    collect s sep false fuel ⟨true, c, some e⟩ = .ok (c :: parts sep (s.drop e)) := by
  intro n
  induction n with
  | zero =>
    intro e fuel c hn he hf
    obtain ⟨f, rfl⟩ : ∃ f, fuel = f + 1 := ⟨fuel - 1, by omega⟩
    have : e = s.length := by omega
    rw [collect, if_pos rfl, next]
    simp only [Bool.not_true, Bool.false_eq_true, if_false, this, if_true, Outcome.ok_bind]
    rw [collect_end _ _ _ _ _ (by omega), List.drop_length, parts_none hs (by rw [findSub, if_neg hs])]
    rfl
  | succ n ih =>
    intro e fuel c hn he hf
    obtain ⟨f, rfl⟩ : ∃ f, fuel = f + 1 := ⟨fuel - 1, by omega⟩
    by_cases hl : e = s.length
    · exact ih e (f + 1) c (by omega) he (by omega)
    · rw [collect, if_pos rfl, next]
      simp only [Bool.not_true, Bool.false_eq_true, if_false, if_neg hl, if_neg hs, findFrom]
      cases hfs : findSub sep (s.drop e) with
      | none =>
        simp only [Option.map_none, Outcome.ok_bind]
        rw [collect_end _ _ _ _ _ (by omega), parts_none hs hfs]
        rfl
      | some i =>
        obtain ⟨h1, _⟩ := findSub_some hs hfs
        have h12 := h1.2
        rw [List.length_drop] at h12
        have hpos : 0 < sep.length := List.length_pos_iff.2 hs
        simp only [Option.map_some, Outcome.ok_bind]
        rw [ih (e + i + sep.length) f _ (by omega) (by omega) (by omega), parts_some hs hfs]
        simp only [Outcome.ok_bind, Outcome.pure_eq, StdString.substr, List.drop_drop, Nat.add_sub_cancel_left,
          Nat.add_assoc]

/-- All the tokens, without skipping. -/
theorem split_parts (s sep : Bytes) (hs : sep ≠ []) (h0 : s ≠ []) : split s sep false = .ok (parts sep s) := by
  have h := collect_parts s sep hs s.length 0 (s.length + 4) [] (by omega) (by omega) (by omega)
  rw [collect, if_pos rfl] at h
  unfold split begin
  simp only [if_neg h0, Bool.false_eq_true, if_false, Outcome.ok_bind]
  cases hn : next s sep false ⟨true, [], some 0⟩ with
  | ok it =>
    rw [hn] at h
    simp only [Outcome.ok_bind] at h ⊢
    cases hc : collect s sep false (s.length + 3) it with
    | ok l =>
      rw [hc] at h
      simp only [Outcome.ok_bind, Outcome.pure_eq, Outcome.ok.injEq, List.cons.injEq, true_and, List.drop_zero] at h
      rw [h]
    | _ => rw [hc] at h; cases h
  | _ => rw [hn] at h; cases h

/-! ### Skipping empty tokens -/

def nonEmpty (ps : List Bytes) : List Bytes := ps.filter (· ≠ [])

theorem parts_nil {sep : Bytes} (hs : sep ≠ []) : parts sep [] = [[]] :=
  parts_none hs (by rw [findSub, if_neg hs])

theorem skipSeparators_spec (s sep : Bytes) (hs : sep ≠ []) : ∀ n e, s.length - e ≤ n → e ≤ s.length →
    ∃ e', skipSeparators s sep e = .ok e' ∧ e ≤ e' ∧ e' ≤ s.length ∧
      nonEmpty (parts sep (s.drop e)) = nonEmpty (parts sep (s.drop e')) ∧ ¬ sep <+: s.drop e' := by
  have hpos : 0 < sep.length := List.length_pos_iff.2 hs
  intro n
  induction n with
  | zero =>
    intro e hn he
    refine ⟨e, ?_, Nat.le_refl _, he, rfl, ?_⟩
    · rw [skipSeparators, dif_neg hs, if_neg (by omega)]
    · intro h; have := h.length_le; rw [List.length_drop] at this; omega
  | succ n ih =>
    intro e hn he
    rw [skipSeparators, dif_neg hs]
    by_cases hc : e + sep.length ≤ s.length ∧ sep.isPrefixOf (s.drop e) = true
    · rw [if_pos hc]
      obtain ⟨e', h1, h2, h3, h4, h5⟩ := ih (e + sep.length) (by omega) hc.1
      refine ⟨e', h1, by omega, h3, ?_, h5⟩
      rw [← h4]
      have hf : findSub sep (s.drop e) = some 0 := by
        apply findSub_eq_some hs
        · exact occursAt_zero.2 (List.isPrefixOf_iff_prefix.1 hc.2)
        · intro j hj; omega
      rw [parts_some hs hf, List.drop_drop, Nat.zero_add]
      rfl
    · rw [if_neg hc]
      refine ⟨e, rfl, Nat.le_refl _, he, rfl, fun h => hc ⟨?_, List.isPrefixOf_iff_prefix.2 h⟩⟩
      have := h.length_le
      rw [List.length_drop] at this
      omega

theorem collect_skip (s sep : Bytes) (hs : sep ≠ []) : ∀ n e fuel c, s.length - e ≤ n → e < s.length → n + 3 ≤ fuel →
    ¬ sep <+: s.drop e →
    collect s sep true fuel ⟨true, c, some e⟩ = .ok (c :: nonEmpty (parts sep (s.drop e))) := by
  intro n
  induction n with
  | zero => intro e fuel c hn he; omega
  | succ n ih =>
    intro e fuel c hn he hf hp
    obtain ⟨f, rfl⟩ : ∃ f, fuel = f + 1 := ⟨fuel - 1, by omega⟩
    rw [collect, if_pos rfl, next]
    simp only [Bool.not_true, Bool.false_eq_true, if_false, if_neg (Nat.ne_of_lt he), if_neg hs, findFrom, if_true]
    cases hfs : findSub sep (s.drop e) with
    | none =>
      simp only [Option.map_none, Outcome.ok_bind]
      rw [collect_end _ _ _ _ _ (by omega), parts_none hs hfs]
      have hne : s.drop e ≠ [] := by
        intro h
        have := congrArg List.length h
        rw [List.length_drop, List.length_nil] at this
        omega
      simp [nonEmpty, hne, StdString.substrFrom]
    | some i =>
      obtain ⟨h1, _⟩ := findSub_some hs hfs
      have h12 := h1.2
      rw [List.length_drop] at h12
      have hpos : 0 < sep.length := List.length_pos_iff.2 hs
      have hi : 0 < i := by
        rcases Nat.eq_zero_or_pos i with h | h
        · subst h; exact absurd (occursAt_zero.1 h1) hp
        · exact h
      obtain ⟨e', g1, g2, g3, g4, g5⟩ := skipSeparators_spec s sep hs s.length (e + i + sep.length) (by omega) (by omega)
      simp only [Option.map_some, g1, Outcome.ok_bind]
      have htok : (s.drop e).take i ≠ [] := by
        intro h
        have := congrArg List.length h
        rw [List.length_take, List.length_drop, List.length_nil] at this
        omega
      have hps : nonEmpty (parts sep (s.drop e)) = (s.drop e).take i :: nonEmpty (parts sep (s.drop e')) := by
        rw [parts_some hs hfs, List.drop_drop, ← Nat.add_assoc, ← g4]
        simp only [nonEmpty, List.filter_cons, decide_eq_true htok, if_true]
      rw [hps]
      by_cases hl : e' = s.length
      · rw [if_pos hl]
        simp only [Outcome.ok_bind]
        rw [collect_end _ _ _ _ _ (by omega), hl, List.drop_length, parts_nil hs]
        simp [nonEmpty, StdString.substr]
      · rw [if_neg hl]
        simp only [Outcome.ok_bind]
        rw [ih e' f _ (by omega) (by omega) (by omega) g5]
        simp [StdString.substr]

theorem split_skip (s sep : Bytes) (hs : sep ≠ []) (h0 : s ≠ []) :
    split s sep true = .ok (if nonEmpty (parts sep s) = [] then [[]] else nonEmpty (parts sep s)) := by
  have hpos : 0 < s.length := List.length_pos_iff.2 h0
  obtain ⟨e, h1, _, h3, h4, h5⟩ := skipSeparators_spec s sep hs s.length 0 (by omega) (by omega)
  rw [List.drop_zero] at h4
  unfold split begin
  simp only [if_neg h0, if_true, h1, Outcome.ok_bind]
  by_cases hl : e = s.length
  · rw [h4, hl, List.drop_length, parts_nil hs]
    simp only [next, Bool.not_true, Bool.false_eq_true, if_false, if_true, Outcome.ok_bind]
    rw [collect_end _ _ _ _ _ (by omega)]
    rfl
  · have h := collect_skip s sep hs s.length e (s.length + 4) [] (by omega) (by omega) (by omega) h5
    rw [collect, if_pos rfl, ← h4] at h
    have hne : nonEmpty (parts sep s) ≠ [] := by
      rw [h4]
      cases hfs : findSub sep (s.drop e) with
      | none =>
        rw [parts_none hs hfs]
        have hne : s.drop e ≠ [] := by
          intro h
          have := congrArg List.length h
          rw [List.length_drop, List.length_nil] at this
          omega
        simp [nonEmpty, hne]
      | some i =>
        rw [parts_some hs hfs]
        obtain ⟨g1, _⟩ := findSub_some hs hfs
        have h12 := g1.2
        rw [List.length_drop] at h12
        have hi : 0 < i := by
          rcases Nat.eq_zero_or_pos i with h | h
          · subst h; exact absurd (occursAt_zero.1 g1) h5
          · exact h
        have htok : (s.drop e).take i ≠ [] := by
          intro h
          have := congrArg List.length h
          rw [List.length_take, List.length_drop, List.length_nil] at this
          omega
        simp only [nonEmpty, List.filter_cons, decide_eq_true htok, if_true]
        simp
    rw [if_neg hne]
    cases hn : next s sep true ⟨true, [], some e⟩ with
    | ok it =>
      rw [hn] at h
      simp only [Outcome.ok_bind] at h ⊢
      cases hc : collect s sep true (s.length + 3) it with
      | ok l =>
        rw [hc] at h
        simp only [Outcome.ok_bind, Outcome.pure_eq, Outcome.ok.injEq, List.cons.injEq, true_and] at h
        rw [h]
      | _ => rw [hc] at h; cases h
    | _ => rw [hn] at h; cases h

/-! ### The empty separator -/

theorem collect_chars (s : Bytes) : ∀ n e fuel c, s.length - e ≤ n → e ≤ s.length → n + 3 ≤ fuel →
    collect s [] false fuel ⟨true, c, some e⟩ = .ok (c :: ((s.drop e).map (fun x => [x]) ++ [[]])) := by
  intro n
  induction n with
  | zero =>
    intro e fuel c hn he hf
    obtain ⟨f, rfl⟩ : ∃ f, fuel = f + 1 := ⟨fuel - 1, by omega⟩
    have : e = s.length := by omega
    rw [collect, if_pos rfl, next]
    simp only [Bool.not_true, Bool.false_eq_true, if_false, this, if_true, Outcome.ok_bind]
    rw [collect_end _ _ _ _ _ (by omega), List.drop_length]
    rfl
  | succ n ih =>
    intro e fuel c hn he hf
    obtain ⟨f, rfl⟩ : ∃ f, fuel = f + 1 := ⟨fuel - 1, by omega⟩
    by_cases hl : e = s.length
    · exact ih e (f + 1) c (by omega) he (by omega)
    · rw [collect, if_pos rfl, next]
      simp only [Bool.not_true, Bool.false_eq_true, if_false, if_neg hl, if_true, List.length_nil, Nat.add_zero,
        Outcome.ok_bind]
      rw [ih (e + 1) f _ (by omega) (by omega) (by omega)]
      have hd : s.drop e = s[e]'(by omega) :: s.drop (e + 1) := List.drop_eq_getElem_cons (by omega)
      simp only [Outcome.ok_bind, Outcome.pure_eq, StdString.substr, Nat.add_sub_cancel_left]
      rw [hd, List.take_succ_cons, List.take_zero, List.map_cons, List.cons_append]

theorem split_chars (s : Bytes) (h0 : s ≠ []) : split s [] false = .ok (s.map (fun x => [x]) ++ [[]]) := by
  have h := collect_chars s s.length 0 (s.length + 4) [] (by omega) (by omega) (by omega)
  rw [collect, if_pos rfl] at h
  unfold split begin
  simp only [if_neg h0, Bool.false_eq_true, if_false, Outcome.ok_bind]
  cases hn : next s [] false ⟨true, [], some 0⟩ with
  | ok it =>
    rw [hn] at h
    simp only [Outcome.ok_bind] at h ⊢
    cases hc : collect s [] false (s.length + 3) it with
    | ok l =>
      rw [hc] at h
      simp only [Outcome.ok_bind, Outcome.pure_eq, Outcome.ok.injEq, List.cons.injEq, true_and, List.drop_zero] at h
      rw [h]
    | _ => rw [hc] at h; cases h
  | _ => rw [hn] at h; cases h

theorem split_empty (sep : Bytes) (skip : Bool) : split [] sep skip = .ok [] := by
  simp [split, begin, collect]

end Msat.Str
