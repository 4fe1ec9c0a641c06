import Verif.Lemmas.RecordSoundBig
import Verif.Lemmas.RecordCompleteBig

/-
Auxiliary facts on what the text of a record depends on.
-/
namespace Msat.RecordTexts
open Msat Layout RecordTextsSpec Text

theorem print_item {w : World} {o : Members} : ∀ {t : Text} {s : Bytes}, print w o t = .ok s → ∀ x ∈ t, ∃ a, itemText w o x = .ok a
  | [], _, _, x, hx => by cases hx
  | y :: ys, s, h, x, hx => by
    obtain ⟨a, b, ha, hb, _⟩ := print_cons h
    rcases List.mem_cons.1 hx with rfl | hx
    · exact ⟨a, ha⟩
    · exact print_item hb x hx

/-- An item that is not under any condition. -/
theorem print_what {w : World} {o : Members} {t : Text} {s : Bytes} (h : print w o t = .ok s) {x : What} (hx : ⟨[], x⟩ ∈ t) :
    ∃ a, whatText w o x = .ok a := by
  obtain ⟨a, ha⟩ := print_item h _ hx
  rcases item_cases ha with ⟨_, h⟩ | ⟨h, _⟩
  · exact ⟨a, h⟩
  · cases h

/-- Whether the text of an item depends on none of some members. -/
def free (hidden : Path → Bool) (x : Item) : Bool :=
  (x.guards.all fun g => !hidden g) &&
  match x.what with
  | .value p _ _ _ _ => !hidden p
  | .bar p n _ => (List.range n).all fun i => !hidden (p ++ [.i i])
  | _ => true

theorem member_lookup {o o' : Members} {p : Path} (h : o.lookup p = o'.lookup p) : member o p = member o' p := by
  unfold member
  rw [h]

theorem holds_same {hidden : Path → Bool} {o o' : Members} (h : ∀ p, hidden p = false → o.lookup p = o'.lookup p) :
    ∀ {gs : List Path}, (gs.all fun g => !hidden g) = true → holds o gs = holds o' gs
  | [], _ => rfl
  | g :: gs, hg => by
    rw [List.all_cons, Bool.and_eq_true, Bool.not_eq_true'] at hg
    unfold holds
    rw [member_lookup (h g hg.1), holds_same h hg.2]

theorem counts_same {hidden : Path → Bool} {o o' : Members} (h : ∀ p, hidden p = false → o.lookup p = o'.lookup p) {p : Path} :
    ∀ n, (∀ i, i < n → hidden (p ++ [.i i]) = false) → counts o p n = counts o' p n
  | 0, _ => rfl
  | n + 1, hn => by
    unfold counts
    rw [counts_same h n fun i hi => hn i (by omega), member_lookup (h _ (hn n (by omega)))]

theorem print_same (w : World) {hidden : Path → Bool} {o o' : Members} (h : ∀ p, hidden p = false → o.lookup p = o'.lookup p) :
    ∀ {t : Text}, t.all (free hidden) = true → print w o t = print w o' t
  | [], _ => rfl
  | x :: xs, ht => by
    rw [List.all_cons, Bool.and_eq_true] at ht
    have hx := ht.1
    unfold free at hx
    rw [Bool.and_eq_true] at hx
    have hi : itemText w o x = itemText w o' x := by
      unfold itemText
      rw [holds_same h hx.1]
      have hw : whatText w o x.what = whatText w o' x.what := by
        rcases x with ⟨g, wh⟩
        cases wh with
        | lit | index | endl => rfl
        | value p f k c a =>
          have hp : hidden p = false := by simpa using hx.2
          unfold whatText
          dsimp only
          rw [member_lookup (h p hp)]
        | bar p n i =>
          have hp : ∀ i, i < n → hidden (p ++ [.i i]) = false := by
            intro i hi
            have := List.all_eq_true.1 hx.2 i (List.mem_range.2 hi)
            simpa using this
          unfold whatText
          dsimp only
          rw [counts_same h n hp]
      rw [hw]
    unfold print
    rw [hi, print_same w h ht.2]

theorem lookup_object (l : Lay) (ρ ρ' : Path → Val) {p : Path} (h : ρ p = ρ' p) : (object l ρ).lookup p = (object l ρ').lookup p := by
  unfold object
  induction l.reads 0 with
  | nil => rfl
  | cons r rs ih =>
    rw [List.map_cons, List.map_cons, List.lookup_cons, List.lookup_cons]
    by_cases e : p = r.path
    · subst e
      simp [h]
    · have : (p == r.path) = false := by simpa using e
      rw [this]
      exact ih

theorem decimal_inj {n m : Nat} (h : decimal n = decimal m) : n = m := by
  have hn : n < 10 ^ (n + m + 1) := Nat.lt_of_lt_of_le (Nat.lt_pow_self (by decide)) (Nat.pow_le_pow_right (by decide) (by omega))
  have hm : m < 10 ^ (n + m + 1) := Nat.lt_of_lt_of_le (Nat.lt_pow_self (by decide)) (Nat.pow_le_pow_right (by decide) (by omega))
  have e1 := (decimal_digits (n + m) n hn).2
  have e2 := (decimal_digits (n + m) m hm).2
  rw [h] at e1
  have := congrArg ofDigits (e1.symm.trans e2)
  rwa [ofDigits_digits _ _ hn, ofDigits_digits _ _ hm] at this

theorem signed_inj {n m : Int} (h : signed n = signed m) : n = m := by
  have hd : ∀ k : Nat, ∀ t : Bytes, decimal k ≠ 45 :: t := by
    intro k t e
    have := (decimal_chars k).2 45 (by rw [e]; simp)
    revert this
    decide
  unfold signed at h
  split at h
  · split at h
    · have := decimal_inj (List.append_cancel_left h)
      omega
    · exact absurd h.symm (hd _ _)
  · split at h
    · exact absurd h (hd _ _)
    · have := decimal_inj h
      omega

theorem pad_inj {k : Nat} {c : UInt8} {s s' : Bytes} (hk : k = 0) (h : pad k c s = pad k c s') : s = s' := by
  subst hk
  rwa [pad_zero, pad_zero] at h

theorem lookup_mem : ∀ {table : List (Nat × String)} {n : Nat} {s : String}, table.lookup n = some s → (n, s) ∈ table := by
  intro table n s e
  induction table with
  | nil => cases e
  | cons x xs ih =>
    rcases x with ⟨x, y⟩
    rw [List.lookup_cons] at e
    by_cases h : (n == x) = true
    · rw [h] at e
      rw [beq_iff_eq] at h
      rw [h, ← Option.some.inj e]
      exact List.mem_cons_self
    · rw [Bool.not_eq_true] at h
      rw [h] at e
      exact List.mem_cons_of_mem _ (ih e)

/-- Whether the names of a table differ from each other and from that of other codes. -/
def distinct (table : List (Nat × String)) : Bool :=
  decide ((table.map fun e => str e.2).Nodup) && decide (str "Unknown" ∉ table.map fun e => str e.2)

theorem distinct_names {table : List (Nat × String)} (hn : distinct table = true) {a b : Nat} {s : String}
    (ha : table.lookup a = some s) (hb : str (nameOf table a) = str (nameOf table b)) : b = a := by
  unfold distinct at hn
  rw [Bool.and_eq_true, decide_eq_true_eq, decide_eq_true_eq] at hn
  unfold nameOf at hb
  rw [ha] at hb
  cases e : table.lookup b with
  | none =>
    rw [e] at hb
    exact absurd (List.mem_map.2 ⟨_, lookup_mem ha, hb⟩) hn.2
  | some s' =>
    rw [e] at hb
    have := List.inj_on_of_nodup_map hn.1 (lookup_mem ha) (lookup_mem e) hb
    exact (Prod.mk.inj this).1.symm

end Msat.RecordTexts
